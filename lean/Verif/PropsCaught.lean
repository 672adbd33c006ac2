import Verif.PropsBound
import Verif.PropsStaking2
/-
# Property C118: unstaking early does not escape a slash
-/

namespace Verif
open L1

section
variable {cfg : Cfg}

/-! ## Lemmas -/

theorem Reachable.exec {c : Ctx} {k : Call} {w w' : World} (hr : Reachable cfg w) (ha : Admissible cfg (c, k))
    (h : exec cfg c k w = .ok ((), w')) : Reachable cfg w' := by
  have := Reachable.call hr ha
  rcases call_ok (cfg := cfg) (c := c) (k := k) (w := w) with ⟨w1, h1, h2⟩ | ⟨⟨e, h1⟩, _⟩
  · rw [h1] at h; cases h; rw [h2] at this; exact this
  · rw [h1] at h; exact nomatch h

/-- Only cancelling or finishing a slash request changes it; a call opens at most one. -/
theorem slash_stays {c : Ctx} {k : Call} {w w' : World} (h : exec cfg c k w = .ok ((), w')) {p : Address} {i : Nat}
    {cl : SlashClaim} (hcl : (w.staking.slashClaims p)[i]? = some cl)
    (hk : ∀ j : U256, j.toNat = i → k ≠ .cancelSlash p j ∧ k ≠ .finishSlash p j) :
    (w'.staking.slashClaims p)[i]? = some cl ∧
    (w'.staking.slashClaims p).length ≤ (w.staking.slashClaims p).length + 1 := by
  have res : ∀ q (j : U256), (k = .cancelSlash q j ∨ k = .finishSlash q j) → (w'.staking.slashClaims p)[i]? = some cl ∧
      (w'.staking.slashClaims p).length ≤ (w.staking.slashClaims p).length + 1 := by
    intro q j hkj
    have hx : exec cfg c (.cancelSlash q j) w = .ok ((), w') ∨ exec cfg c (.finishSlash q j) w = .ok ((), w') := by
      rcases hkj with rfl | rfl
      · exact .inl h
      · exact .inr h
    obtain ⟨_, _, _, e1, e2⟩ := c43_resolves hx
    by_cases e : p = q
    · subst e
      have hj : j.toNat ≠ i := by
        intro hj
        rcases hkj with e | e
        · exact (hk j hj).1 e
        · exact (hk j hj).2 e
      rw [e1, List.getElem?_set_ne hj, List.length_set]
      exact ⟨hcl, Nat.le_succ _⟩
    · rw [e2 p e]
      exact ⟨hcl, Nat.le_succ _⟩
  have hf := (exec_fields h).slash
  cases k
  case requestSlash q v =>
    obtain ⟨_, _, _, e1, e2⟩ := c43_request h
    by_cases e : p = q
    · subst e
      rw [e1, List.getElem?_append_left (List.getElem?_eq_some_iff.mp hcl).1, List.length_append]
      exact ⟨hcl, Nat.le_refl _⟩
    · rw [e2 p e]
      exact ⟨hcl, Nat.le_succ _⟩
  case cancelSlash q j => exact res q j (.inl rfl)
  case finishSlash q j => exact res q j (.inr rfl)
  all_goals
    obtain ⟨e1, _⟩ := hf (fun _ _ => Call.noConfusion) (fun _ _ => Call.noConfusion) (fun _ _ => Call.noConfusion)
    rw [e1]
    exact ⟨hcl, Nat.le_succ _⟩

/-- While a slash request on the prover is open, the requests of its stakers stay. -/
theorem held_run (hc : cfg.WF) {p a : Address} {i : Nat} {sc : SlashClaim} {cl : UnstakeClaim} (hsc : sc.resolved = false) :
    ∀ (h : List (Ctx × Call)) (w : World), Reachable cfg w → (∀ x ∈ h, Admissible cfg x) →
    (∀ x ∈ h, ∀ j : U256, j.toNat = i → x.2 ≠ .cancelSlash p j ∧ x.2 ≠ .finishSlash p j) →
    (w.staking.slashClaims p).length + h.length < 2 ^ 256 → (w.staking.slashClaims p)[i]? = some sc →
    cl ∈ w.staking.unstakeClaims a → w.staking.stakerToProver a = p →
    Reachable cfg (runCalls cfg w h) ∧ ((runCalls cfg w h).staking.slashClaims p).length < 2 ^ 256 ∧
      ((runCalls cfg w h).staking.slashClaims p)[i]? = some sc ∧ cl ∈ (runCalls cfg w h).staking.unstakeClaims a ∧
      (runCalls cfg w h).staking.stakerToProver a = p
  | [], w, hr, _, _, hl, h1, h2, h3 => ⟨hr, hl, h1, h2, h3⟩
  | (c, k) :: h, w, hr, ha, hno, hl, h1, h2, h3 => by
    have ha' : ∀ x ∈ h, Admissible cfg x := fun x hx => ha x (List.mem_cons_of_mem _ hx)
    have hno' : ∀ x ∈ h, ∀ j : U256, j.toNat = i → x.2 ≠ .cancelSlash p j ∧ x.2 ≠ .finishSlash p j :=
      fun x hx => hno x (List.mem_cons_of_mem _ hx)
    rw [List.length_cons] at hl
    rw [runCalls_cons]
    rcases call_ok (cfg := cfg) (c := c) (k := k) (w := w) with ⟨w', g1, g2⟩ | ⟨_, g2⟩
    · dsimp only
      rw [g2]
      obtain ⟨s1, s2⟩ := slash_stays g1 h1 (hno (c, k) (List.mem_cons_self ..))
      have hgate := c43_gate hr p sc (List.mem_of_getElem? h1) hsc (by omega) c w'
      obtain ⟨t1, t2⟩ := unstake_stays hc hr g1 a cl h2 fun e => by
        subst e
        exact absurd g1 (hgate.2.2.2 a h3)
      exact held_run hc hsc h w' (hr.exec (ha (c, k) (List.mem_cons_self ..)) g1) ha' hno' (by omega) s1 t1 (t2.trans h3)
    · dsimp only
      rw [g2]
      exact held_run hc hsc h w hr ha' hno' (by omega) h1 h2 h3

/-! ## The property -/

/-- **C118.** A staker asks to unstake, and before the unstake period is over the vApp contract requests a slash of the
prover. Then, however long it takes and whatever anybody does, the staker is not paid before the slash is cancelled or
finished; and when it is finished, the request is still there and is scaled down with all the others: by the part of the
prover's stake and escrow that is slashed. -/
theorem c118_caught (hc : cfg.WF) {c : Ctx} {v : U256} {w w1 : World} (hr : Reachable cfg w)
    (hadm : Admissible cfg (c, .requestUnstake v)) (h : exec cfg c (.requestUnstake v) w = .ok ((), w1))
    {p : Address} (hp : p = w.staking.stakerToProver c.sender)
    -- until the slash is requested
    (h1 : List (Ctx × Call)) (ha1 : ∀ x ∈ h1, Admissible cfg x)
    (ht1 : ∀ x ∈ h1, x.1.now < c.now + w.staking.unstakePeriod)
    -- the slash request, with its index
    {c2 : Ctx} {amount : U256} {w3 : World} (hadm2 : Admissible cfg (c2, .requestSlash p amount))
    (hsl : exec cfg c2 (.requestSlash p amount) (runCalls cfg w1 h1) = .ok ((), w3))
    {i : Nat} (hi : i = ((runCalls cfg w1 h1).staking.slashClaims p).length)
    -- until it is resolved
    (h2 : List (Ctx × Call)) (ha2 : ∀ x ∈ h2, Admissible cfg x)
    (hno : ∀ x ∈ h2, ∀ j : U256, j.toNat = i → x.2 ≠ .cancelSlash p j ∧ x.2 ≠ .finishSlash p j)
    (hlen : i + 1 + h2.length < 2 ^ 256) :
    ∃ cl, w1.staking.unstakeClaims c.sender = w.staking.unstakeClaims c.sender ++ [cl] ∧ cl.timestamp = c.now ∧
      cl ∈ (runCalls cfg w3 h2).staking.unstakeClaims c.sender ∧
      (∀ c' w', exec cfg c' (.finishUnstake c.sender) (runCalls cfg w3 h2) ≠ .ok ((), w')) ∧
      ∀ c' (j : U256) w5, j.toNat = i → exec cfg c' (.finishSlash p j) (runCalls cfg w3 h2) = .ok ((), w5) →
        cl ∈ w5.staking.unstakeClaims c.sender ∧ w5.staking.stakerToProver c.sender = p ∧
        ∃ total, total = (runCalls cfg w3 h2).iprove.bal p + ((runCalls cfg w3 h2).staking.escrowPools p).iPROVEEscrow ∧
          (w5.staking.escrowPools p).slashFactor =
            slashedFactor ((runCalls cfg w3 h2).staking.escrowPools p).slashFactor (min amount.toNat total) total := by
  have hr1 := hr.exec hadm h
  have hb := (c117_bound hc hr hadm h h1 ha1 ht1).2.1
  obtain ⟨_, esc, factor, rfl, _, _, _, e1, _⟩ := c40_request hc hr h
  subst hp
  have hper : w1.staking.unstakePeriod = w.staking.unstakePeriod := (c57_settings h).2.2.2.1
  have key : ∀ (hist : List (Ctx × Call)) (u : World), Reachable cfg u → (∀ x ∈ hist, Admissible cfg x) →
      (∀ x ∈ hist, x.1.now < c.now + w.staking.unstakePeriod) → u.staking.unstakePeriod = w.staking.unstakePeriod →
      ⟨esc, factor, c.now⟩ ∈ u.staking.unstakeClaims c.sender →
      Reachable cfg (runCalls cfg u hist) ∧ ⟨esc, factor, c.now⟩ ∈ (runCalls cfg u hist).staking.unstakeClaims c.sender := by
    intro hist
    induction hist with
    | nil => intro u hu _ _ _ hm; exact ⟨hu, hm⟩
    | cons x hist ih =>
      intro u hu ha ht hpu hm
      rw [runCalls_cons]
      have hu' := Reachable.call hu (ha x (List.mem_cons_self ..))
      have hx := ht x (List.mem_cons_self ..)
      have ha' : ∀ y ∈ hist, Admissible cfg y := fun y hy => ha y (List.mem_cons_of_mem _ hy)
      have ht' : ∀ y ∈ hist, y.1.now < c.now + w.staking.unstakePeriod := fun y hy => ht y (List.mem_cons_of_mem _ hy)
      rcases call_ok (cfg := cfg) (c := x.1) (k := x.2) (w := u) with ⟨u', g1, g2⟩ | ⟨_, g2⟩
      · rw [g2] at hu' ⊢
        exact ih u' hu' ha' ht' ((c57_settings g1).2.2.2.1.trans hpu)
          (c117_stays hc hu g1 c.sender _ hm (by rw [hpu]; exact hx)).1
      · rw [g2]
        exact ih u hu ha' ht' hpu hm
  obtain ⟨hr2, hm2⟩ := key h1 w1 hr1 ha1 ht1 hper (by rw [e1]; exact List.mem_append_right _ (List.mem_singleton_self _))
  generalize runCalls cfg w1 h1 = w2 at *
  have hr3 := hr2.exec hadm2 hsl
  obtain ⟨_, _, _, es, _⟩ := c43_request hsl
  obtain ⟨hm3, hb3⟩ := unstake_stays hc hr2 hsl c.sender _ hm2 fun e => Call.noConfusion e
  rw [hb] at hb3
  have hs3 : (w3.staking.slashClaims (w.staking.stakerToProver c.sender))[i]? = some ⟨amount.toNat, c2.now, false⟩ := by
    rw [es, hi, List.getElem?_append_right (Nat.le_refl _), Nat.sub_self]
    rfl
  have hl3 : (w3.staking.slashClaims (w.staking.stakerToProver c.sender)).length + h2.length < 2 ^ 256 := by
    rw [es, List.length_append, ← hi]
    exact hlen
  obtain ⟨hr4, hl4, hs4, hm4, hb4⟩ := held_run hc rfl h2 w3 hr3 ha2 hno hl3 hs3 hm3 hb3
  refine ⟨⟨esc, factor, c.now⟩, e1, rfl, hm4, fun c' w' => ?_, fun c' j w5 hj h5 => ?_⟩
  · exact (c43_gate hr4 _ _ (List.mem_of_getElem? hs4) rfl hl4 c' w').2.2.2 c.sender hb4
  · obtain ⟨claim, total, n, fe, f1, f2, f3, _, _, _, _, _, _, _, f4, _, _, _, _, _, f5, f6⟩ := c42_finishSlash hc hr4 h5
    rw [hj, hs4] at f1
    cases f1
    refine ⟨by rw [f5]; exact hm4, by rw [f6]; exact hb4, total, f2, ?_⟩
    rw [f4, f3]

end

/-! ## A concrete case -/

namespace ToyL1
/-- Before the period of 100 seconds is over, the vApp contract requests a slash of bob's prover. -/
def accused : World := call cfg (ctx cfg.vapp 1300) (.requestSlash prover1 100) leaving
/-- Bob tries to be paid as soon as the period is over, and much later. -/
def waiting : List (Ctx × Call) := [(ctx bob 1340, .finishUnstake bob), (ctx bob 5000, .finishUnstake bob)]
end ToyL1

-- The hypotheses of C118 hold: the request to unstake and the slash request go through; bob would have been paid without the
-- slash request, and is not paid anything with it. The slash then goes through and lowers the factor of the escrow.
open ToyL1 in
example : (exec cfg (ctx bob 1240) (.requestUnstake 500) w4).toBool = true ∧ w4.staking.stakerToProver bob = prover1 ∧
    admissible (ctx cfg.vapp 1300, .requestSlash prover1 100) = true ∧ 1300 < 1240 + w4.staking.unstakePeriod ∧
    (exec cfg (ctx cfg.vapp 1300) (.requestSlash prover1 100) leaving).toBool = true ∧
    (leaving.staking.slashClaims prover1).length = 1 ∧ waiting.all admissible = true ∧
    (call cfg (ctx bob 1340) (.finishUnstake bob) leaving).prove.bal bob > leaving.prove.bal bob ∧
    (runCalls cfg accused waiting).prove.bal bob = leaving.prove.bal bob ∧
    (exec cfg (ctx gov 5000) (.finishSlash prover1 1) (runCalls cfg accused waiting)).toBool = true ∧
    ((call cfg (ctx gov 5000) (.finishSlash prover1 1) (runCalls cfg accused waiting)).staking.escrowPools prover1).slashFactor
      < (accused.staking.escrowPools prover1).slashFactor ∧
    (call cfg (ctx bob 5000) (.finishUnstake bob)
      (call cfg (ctx gov 5000) (.finishSlash prover1 1) (runCalls cfg accused waiting))).prove.bal bob
      < (call cfg (ctx bob 1340) (.finishUnstake bob) leaving).prove.bal bob := by
  decide +kernel

end Verif
