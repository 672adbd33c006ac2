import Verif.L1Blind
import Verif.PropsCaught
/-
# Property C119: a slash that is cancelled leaves no trace
-/

namespace Verif
open L1

/-- Requesting a slash and cancelling it leaves nothing but the record of the request. -/
theorem request_cancel {cfg : Cfg} {c1 c2 : Ctx} {p : Address} {v i : U256} {w w1 w2 : World} (hr : Reachable cfg w)
    (h1 : exec cfg c1 (.requestSlash p v) w = .ok ((), w1)) (hi : i.toNat = (w.staking.slashClaims p).length)
    (h2 : exec cfg c2 (.cancelSlash p i) w1 = .ok ((), w2)) :
    w2 = w.withSlashes p (w.staking.slashClaims p ++ [⟨v.toNat, c1.now, true⟩]) := by
  obtain ⟨n, h1⟩ := drop_ok.mp h1
  obtain ⟨_, _, _, _, rfl⟩ := requestSlash_ok h1
  obtain ⟨_, cl, g1, _, _, rfl⟩ := cancelSlash_ok h2
  dsimp only at g1
  rw [upd_same, hi, List.getElem?_append_right (Nat.le_refl _), Nat.sub_self] at g1
  cases g1
  have hn : w.staking.slashClaimCount p < 2 ^ 256 := by
    rw [c43_count hr p]
    exact Nat.mod_lt _ (by decide)
  have hcount : ((w.staking.slashClaimCount p + 1) % 2 ^ 256 + (2 ^ 256 - 1)) % 2 ^ 256 = w.staking.slashClaimCount p := by
    omega
  have e1 : upd (upd w.staking.slashClaimCount p ((w.staking.slashClaimCount p + 1) % 2 ^ 256)) p
      (w.staking.slashClaimCount p) = w.staking.slashClaimCount := by
    funext z
    by_cases e : z = p
    · subst e; rw [upd_same]
    · rw [upd_ne _ _ e, upd_ne _ _ e]
  have e2 : ∀ l, upd (upd w.staking.slashClaims p (w.staking.slashClaims p ++ [⟨v.toNat, c1.now, false⟩])) p l =
      upd w.staking.slashClaims p l := by
    intro l
    funext z
    by_cases e : z = p
    · subst e; rw [upd_same, upd_same]
    · rw [upd_ne _ _ e, upd_ne _ _ e, upd_ne _ _ e]
  unfold World.withSlashes Staking.resolve
  dsimp only
  rw [upd_same, upd_same, hcount, e1, e2, hi, List.set_append_right _ _ (Nat.le_refl _), Nat.sub_self]
  rfl

theorem blind_run {cfg : Cfg} {p : Address} {l : List SlashClaim} : ∀ (hist : List (Ctx × Call)) (w : World),
    (∀ x ∈ hist, ∀ j, x.2 ≠ .requestSlash p j ∧ x.2 ≠ .cancelSlash p j ∧ x.2 ≠ .finishSlash p j) →
    runCalls cfg (w.withSlashes p l) hist = (runCalls cfg w hist).withSlashes p l
  | [], _, _ => rfl
  | (c, k) :: hist, w, hno => by
    rw [runCalls_cons, runCalls_cons, ← blind_run hist _ fun x hx => hno x (List.mem_cons_of_mem _ hx)]
    congr 1
    have := blind_exec (l := l) cfg c k (hno (c, k) (List.mem_cons_self ..)) w
    dsimp only
    unfold call
    rw [this]
    cases exec cfg c k w <;> rfl

/-- **C119.** The vApp contract requests a slash of a prover, and it is cancelled. Then everything goes on as if the slash
had never been requested: after any further calls (other than slash calls about the same prover) all balances, stakes,
escrows, factors, settings - the whole state of all contracts - are the same as they would be after these calls without
the slash request, except that there is one more resolved request on record; and each call goes through if and only if
it would have gone through then. -/
theorem c119_spared {cfg : Cfg} {c1 c2 : Ctx} {p : Address} {v i : U256} {w w1 w2 : World} (hr : Reachable cfg w)
    (h1 : exec cfg c1 (.requestSlash p v) w = .ok ((), w1)) (hi : i.toNat = (w.staking.slashClaims p).length)
    (h2 : exec cfg c2 (.cancelSlash p i) w1 = .ok ((), w2)) (hist : List (Ctx × Call))
    (hno : ∀ x ∈ hist, ∀ j, x.2 ≠ .requestSlash p j ∧ x.2 ≠ .cancelSlash p j ∧ x.2 ≠ .finishSlash p j)
    {u : World} (hu : u = runCalls cfg w hist) :
    runCalls cfg w2 hist = { u with staking := { u.staking with
      slashClaims := fun q => if q = p then w.staking.slashClaims p ++ [⟨v.toNat, c1.now, true⟩] else u.staking.slashClaims q } } ∧
    ∀ c k, (∀ j, k ≠ .requestSlash p j ∧ k ≠ .cancelSlash p j ∧ k ≠ .finishSlash p j) →
      (exec cfg c k (runCalls cfg w2 hist)).toBool = (exec cfg c k u).toBool := by
  subst hu
  rw [request_cancel hr h1 hi h2, blind_run hist w hno]
  refine ⟨rfl, fun c k hk => ?_⟩
  rw [blind_exec cfg c k hk]
  cases exec cfg c k (runCalls cfg w hist) <;> rfl

/-! ## A concrete case -/

-- The hypotheses of C119 hold: after bob's request a slash is requested and, when nobody finishes it, cancelled. Bob is
-- then paid what they would have been paid without it. Between the two, they were not.
open ToyL1 in
example : (exec cfg (ctx cfg.vapp 1300) (.requestSlash prover1 100) leaving).toBool = true ∧
    (leaving.staking.slashClaims prover1).length = 1 ∧
    (exec cfg (ctx bob 5000) (.cancelSlash prover1 1) accused).toBool = true ∧
    (exec cfg (ctx bob 5000) (.finishUnstake bob) accused).toBool = false ∧
    (call cfg (ctx bob 5000) (.finishUnstake bob) (call cfg (ctx bob 5000) (.cancelSlash prover1 1) accused)).prove.bal bob =
      (call cfg (ctx bob 5000) (.finishUnstake bob) leaving).prove.bal bob ∧
    leaving.prove.bal bob < (call cfg (ctx bob 5000) (.finishUnstake bob) leaving).prove.bal bob := by
  decide +kernel

end Verif
