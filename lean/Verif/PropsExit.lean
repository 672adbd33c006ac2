import Verif.PropsLive
/-
# C66: a staker can always leave

A slash request blocks unstaking while it is open. Nobody can keep it open: once its time is over anyone may cancel it.
-/

namespace Verif
open L1

/-- Every call of the list is accepted when its turn comes. -/
def AllAccepted (cfg : Cfg) : World → List (Ctx × Call) → Prop
  | _, [] => True
  | w, x :: h => Succeeds cfg x.1 x.2 w ∧ AllAccepted cfg (call cfg x.1 x.2 w) h

theorem AllAccepted.append {cfg : Cfg} : ∀ (h g : List (Ctx × Call)) (w : World), AllAccepted cfg w h →
    AllAccepted cfg (runCalls cfg w h) g → AllAccepted cfg w (h ++ g)
  | [], _, _, _, h2 => h2
  | _ :: h, g, _, h1, h2 => ⟨h1.1, AllAccepted.append h g _ h1.2 h2⟩

theorem call_of_exec {cfg : Cfg} {c : Ctx} {k : Call} {w w' : World} (h : exec cfg c k w = .ok ((), w')) : call cfg c k w = w' := by
  unfold call; rw [h]

/-- Every open slash request on the prover can be cancelled at the time of `c`: the cancellation period and the
governor's voting delay and voting period have passed since it was made. -/
def Expired (c : Ctx) (w : World) (p : Address) : Prop :=
  ∀ cl ∈ w.staking.slashClaims p, cl.resolved = false →
    cl.timestamp + w.staking.slashCancellationPeriod + c.votingDelay + c.votingPeriod ≤ c.now

/-! ## A prover has at most as many slash requests as there were calls -/

theorem exec_slashLength {cfg : Cfg} {c : Ctx} {k : Call} {w w' : World} (h : exec cfg c k w = .ok ((), w')) (p : Address) :
    (w'.staking.slashClaims p).length ≤ (w.staking.slashClaims p).length + 1 := by
  have hf := exec_fields h
  have hset : ∀ (q : Address) (i : Nat) (cl : SlashClaim),
      ((w.staking.resolve q i cl).slashClaims p).length ≤ (w.staking.slashClaims p).length + 1 := by
    intro q i cl
    unfold Staking.resolve
    dsimp only
    by_cases e : p = q
    · subst e; rw [upd_same, List.length_set]; omega
    · rw [upd_ne _ _ e]; omega
  cases k
  case requestSlash q v =>
    obtain ⟨n, h⟩ := drop_ok.mp h
    obtain ⟨_, _, _, _, rfl⟩ := requestSlash_ok h
    dsimp only
    by_cases e : p = q
    · subst e; rw [upd_same, List.length_append]; exact Nat.le_refl _
    · rw [upd_ne _ _ e]; omega
  case cancelSlash q i =>
    obtain ⟨_, cl, _, _, _, rfl⟩ := cancelSlash_ok h
    exact hset q _ cl
  case finishSlash q i =>
    obtain ⟨n, h⟩ := drop_ok.mp h
    obtain ⟨_, _, _, _, _, _, _, rfl⟩ := finishSlash_shape h
    exact hset q _ _
  all_goals
    rw [(hf.slash (fun _ _ => Call.noConfusion) (fun _ _ => Call.noConfusion) (fun _ _ => Call.noConfusion)).1]; omega

theorem slashClaims_length {cfg : Cfg} (p : Address) : ∀ (h : List (Ctx × Call)) (w : World),
    ((runCalls cfg w h).staking.slashClaims p).length ≤ (w.staking.slashClaims p).length + h.length
  | [], _ => Nat.le_refl _
  | x :: h, w => by
    rw [runCalls_cons, List.length_cons]
    have := slashClaims_length (cfg := cfg) p h (call cfg x.1 x.2 w)
    rcases call_ok (cfg := cfg) (c := x.1) (k := x.2) (w := w) with ⟨w', g1, g2⟩ | ⟨_, g2⟩
    · rw [g2] at this ⊢
      have := exec_slashLength g1 p
      omega
    · rw [g2] at this ⊢
      omega

/-! ## Cancelling everything -/

/-- Only the slash requests of `p` differ. -/
def OnlySlash (p : Address) (w w' : World) : Prop :=
  ∃ f g, w' = { w with staking := { w.staking with slashClaims := f, slashClaimCount := g } } ∧
    ∀ q, q ≠ p → f q = w.staking.slashClaims q ∧ g q = w.staking.slashClaimCount q

theorem OnlySlash.refl (p : Address) (w : World) : OnlySlash p w w := ⟨_, _, rfl, fun _ _ => ⟨rfl, rfl⟩⟩

theorem OnlySlash.trans {p : Address} {w w1 w2 : World} (h1 : OnlySlash p w w1) (h2 : OnlySlash p w1 w2) : OnlySlash p w w2 := by
  obtain ⟨f, g, rfl, e1⟩ := h1
  obtain ⟨f', g', rfl, e2⟩ := h2
  exact ⟨f', g', rfl, fun q hq => ⟨(e2 q hq).1.trans (e1 q hq).1, (e2 q hq).2.trans (e1 q hq).2⟩⟩

theorem countP_set {l : List SlashClaim} {i : Nat} {cl : SlashClaim} (h : l[i]? = some cl) (hr : cl.resolved = false) :
    (l.set i { cl with resolved := true }).countP (fun cl => !cl.resolved) + 1 = l.countP (fun cl => !cl.resolved) := by
  induction l generalizing i with
  | nil => exact nomatch h
  | cons a l ih =>
    cases i with
    | zero =>
      obtain rfl : a = cl := Option.some.inj h
      rw [List.set_cons_zero, List.countP_cons, List.countP_cons, hr]
      rfl
    | succ i =>
      rw [List.set_cons_succ, List.countP_cons, List.countP_cons, ← ih h]
      omega

theorem cancel_all {cfg : Cfg} {c : Ctx} (hs : ¬ cfg.System c.sender) (hn : c.now < 2 ^ 256) {p : Address} :
    ∀ (n : Nat) (w : World), Reachable cfg w → w.staking.provers p = true → Expired c w p →
      (w.staking.slashClaims p).length ≤ 2 ^ 256 → (w.staking.slashClaims p).countP (fun cl => !cl.resolved) = n →
      ∃ is : List U256, AllAccepted cfg w (is.map fun i => (c, .cancelSlash p i)) ∧
        OnlySlash p w (runCalls cfg w (is.map fun i => (c, .cancelSlash p i))) ∧
        Reachable cfg (runCalls cfg w (is.map fun i => (c, .cancelSlash p i))) ∧
        (runCalls cfg w (is.map fun i => (c, .cancelSlash p i))).staking.slashClaimCount p = 0 := by
  intro n
  induction n with
  | zero =>
    intro w hr _ _ _ h0
    refine ⟨[], trivial, OnlySlash.refl _ _, hr, ?_⟩
    show w.staking.slashClaimCount p = 0
    rw [c43_count hr, h0]
  | succ n ih =>
    intro w hr hp he hl h0
    obtain ⟨cl, hm, hres⟩ := List.countP_pos_iff.mp (by omega : 0 < (w.staking.slashClaims p).countP (fun cl => !cl.resolved))
    have hres' : cl.resolved = false := by simpa using hres
    obtain ⟨i, hi⟩ := List.getElem?_of_mem hm
    have hil : i < (w.staking.slashClaims p).length := (List.getElem?_eq_some_iff.mp hi).1
    have hi' : (BitVec.ofNat 256 i).toNat = i := by
      rw [BitVec.toNat_ofNat]; exact Nat.mod_eq_of_lt (by omega)
    have hacc : Succeeds cfg c (.cancelSlash p (BitVec.ofNat 256 i)) w :=
      (c63_cancelSlash cfg c hn p _ w).mpr ⟨hp, cl, by rw [hi']; exact hi, hres', he cl hm hres'⟩
    obtain ⟨w1, hx⟩ := hacc
    have hcall := call_of_exec hx
    obtain ⟨_, cl', g1, _, _, rfl⟩ := cancelSlash_ok hx
    rw [hi', hi] at g1
    obtain rfl := Option.some.inj g1
    rw [hi'] at hcall hx
    have hr1 : Reachable cfg (call cfg c (.cancelSlash p (BitVec.ofNat 256 i)) w) :=
      hr.call (x := (c, .cancelSlash p (BitVec.ofNat 256 i))) hs
    rw [hcall] at hr1
    have hcl : (w.staking.resolve p i cl).slashClaims p = (w.staking.slashClaims p).set i { cl with resolved := true } :=
      upd_same _ _ _
    obtain ⟨is, h1, h2, h3, h4⟩ := ih _ hr1 hp (by
        intro c1 hc1 hr1'
        dsimp only at hc1
        rw [hcl] at hc1
        rcases List.mem_or_eq_of_mem_set hc1 with hc1 | rfl
        · exact he c1 hc1 hr1'
        · exact nomatch hr1') (by dsimp only; rw [hcl, List.length_set]; exact hl)
      (by dsimp only; rw [hcl]; have := countP_set hi hres'; omega)
    refine ⟨BitVec.ofNat 256 i :: is, ⟨⟨_, hx⟩, ?_⟩, ?_, ?_, ?_⟩
    · show AllAccepted cfg (call cfg c (.cancelSlash p (BitVec.ofNat 256 i)) w) _
      rw [hcall]; exact h1
    · rw [List.map_cons, runCalls_cons, hcall]
      exact OnlySlash.trans ⟨_, _, rfl, fun q hq => ⟨upd_ne _ _ hq, upd_ne _ _ hq⟩⟩ h2
    · rw [List.map_cons, runCalls_cons, hcall]; exact h3
    · rw [List.map_cons, runCalls_cons, hcall]; exact h4

/-! ## C66 -/

section
variable {cfg : Cfg} (hc : cfg.WF) {w₀ : World} {h : List (Ctx × Call)} (ho : Ordinary cfg w₀ h) {w : World}
  (hw : w = runCalls cfg w₀ h)
include hc ho hw

omit hc in
theorem unfreeze {p : Address} (hp : w.staking.provers p = true) {c : Ctx} (hs : ¬ cfg.System c.sender) (hn : c.now < 2 ^ 64)
    (he : Expired c w p) :
    ∃ is : List U256, AllAccepted cfg w (is.map fun i => (c, .cancelSlash p i)) ∧
      OnlySlash p w (runCalls cfg w (is.map fun i => (c, .cancelSlash p i))) ∧
      Reachable cfg (runCalls cfg w (is.map fun i => (c, .cancelSlash p i))) ∧
      (runCalls cfg w (is.map fun i => (c, .cancelSlash p i))).staking.slashClaimCount p = 0 := by
  subst hw
  refine cancel_all hs (by omega) _ _ ho.reachable hp he ?_ rfl
  have := slashClaims_length (cfg := cfg) p h w₀
  rw [ho.genesis.maps.2.2.1] at this
  have := ho.length
  simp only [List.length_nil] at *
  omega

/-- **C66**, paying out. After every ordinary history, when the time of the open slash requests on the staker's prover
is over, anyone can get the staker paid: there is a list of cancellations such that these, and then
`finishUnstake`, are all accepted. It settles exactly the claims whose unstaking period is over, as if there had been no
slash request, and pays the staker. A staker without other claims and without $stPROVE is then free to choose another prover. -/
theorem c66_finish {s : Address} (h1 : w.staking.stakerToProver s ≠ 0) (h2 : w.staking.unstakeClaims s ≠ []) {c : Ctx}
    (hs : ¬ cfg.System c.sender) (hn : c.now < 2 ^ 64) (he : Expired c w (w.staking.stakerToProver s)) :
    ∃ (cancels : List (Ctx × Call)) (w' : World),
      (∀ x ∈ cancels, ∃ i, x = (c, .cancelSlash (w.staking.stakerToProver s) i)) ∧
      AllAccepted cfg w (cancels ++ [(c, .finishUnstake s)]) ∧ w' = runCalls cfg w (cancels ++ [(c, .finishUnstake s)]) ∧
      (∃ done paid, (done ++ w'.staking.unstakeClaims s).Perm (w.staking.unstakeClaims s) ∧
        (∀ cl ∈ done, cl.timestamp + w.staking.unstakePeriod ≤ c.now) ∧
        (∀ cl ∈ w'.staking.unstakeClaims s, c.now < cl.timestamp + w.staking.unstakePeriod) ∧
        settling cfg (w.staking.stakerToProver s) w' paid =
          done.foldl (Settling.settle (w.staking.escrowPools (w.staking.stakerToProver s)).slashFactor)
            (settling cfg (w.staking.stakerToProver s) w 0) ∧
        w'.prove.bal s = w.prove.bal s + paid) ∧
      (w.st.bal s = 0 → w'.staking.unstakeClaims s = [] → w'.staking.stakerToProver s = 0) := by
  have hi := StakingInv.reachable hc w (hw ▸ ho.reachable)
  have hp := hi.stake.staked _ h1
  obtain ⟨is, a1, a2, a3, a4⟩ := unfreeze ho hw hp hs hn he
  have hsane : Sane w := hw ▸ ho.sane hc
  generalize hcs : (is.map fun i => (c, Call.cancelSlash (w.staking.stakerToProver s) i)) = cs at a1 a2 a3 a4
  generalize hw1 : runCalls cfg w cs = w1 at a2 a3 a4
  have hi1 := StakingInv.reachable hc w1 a3
  have hl1 := LiveInv.reachable hc w1 a3
  obtain ⟨f, g, e, _⟩ := a2
  have hs1 : Sane w1 := by
    rw [e]; exact ⟨hsane.prove, hsane.vault, hsane.st, hsane.claim, hsane.period⟩
  have e1 : w1.staking.stakerToProver = w.staking.stakerToProver := by rw [e]
  have e2 : w1.staking.unstakeClaims = w.staking.unstakeClaims := by rw [e]
  obtain ⟨w2, hx⟩ := (finishUnstake_run (c := c) (staker := s) hc hi1 hl1 hs1 (by rw [e1]; exact h1) (by rw [e2]; exact h2)
    (by rw [e1]; exact a4)).succeeds
  have hrun : runCalls cfg w (cs ++ [(c, .finishUnstake s)]) = w2 := by
    rw [runCalls_append, hw1]
    exact call_of_exec hx
  obtain ⟨done, paid, d1, d2, d3, _, d5, d6, _⟩ := c40_finish hc a3 hx
  refine ⟨cs, w2, ?_, ?_, hrun.symm, ⟨done, paid, ?_, ?_, ?_, ?_, ?_⟩, ?_⟩
  · intro x hx'
    rw [← hcs] at hx'
    obtain ⟨i, _, rfl⟩ := List.mem_map.mp hx'
    exact ⟨i, rfl⟩
  · exact AllAccepted.append _ _ _ a1 ⟨⟨w2, by rw [hw1]; exact hx⟩, trivial⟩
  · rw [← e2]; exact d1
  · rw [e] at d2; exact d2
  · rw [e] at d3; exact d3
  · rw [e] at d5; exact d5
  · rw [e] at d6; exact d6
  · intro hb hcl
    obtain ⟨n, hx⟩ := drop_ok.mp hx
    obtain ⟨_, _, _, w3, hl, rfl⟩ := finishUnstake_ok hx
    obtain ⟨_, _, _, _, rfl⟩ := finishLoop_rel PayShape.pre (fun _ _ _ _ _ h => h.shape) _ _ _ _ _ _ hl
    rw [(finishTail_same s _ _).2.2.2.2.1] at hcl
    have hb1 : w1.st.bal s = 0 := by rw [e]; exact hb
    unfold finishTail
    dsimp only at hcl ⊢
    split <;> rw [if_pos ⟨hb1, hcl⟩] <;> exact upd_same _ _ _

/-- **C66**, starting to leave. Likewise the staker can always request to unstake any part of what they hold, as long
as they have fewer than the maximal number of claims. -/
theorem c66_request {c : Ctx} (h1 : w.staking.stakerToProver c.sender ≠ 0) {v : U256} (hv : v.toNat ≠ 0)
    (hb : v.toNat ≤ w.st.bal c.sender) (hm : (w.staking.unstakeClaims c.sender).length < w.staking.maxUnstakeRequests)
    (hs : ¬ cfg.System c.sender) (hn : c.now < 2 ^ 64) (he : Expired c w (w.staking.stakerToProver c.sender)) :
    ∃ cancels : List (Ctx × Call),
      (∀ x ∈ cancels, ∃ i, x = (c, .cancelSlash (w.staking.stakerToProver c.sender) i)) ∧
      AllAccepted cfg w (cancels ++ [(c, .requestUnstake v)]) := by
  have hi := StakingInv.reachable hc w (hw ▸ ho.reachable)
  have hp := hi.stake.staked _ h1
  obtain ⟨is, a1, a2, a3, a4⟩ := unfreeze ho hw hp hs hn he
  have hsane : Sane w := hw ▸ ho.sane hc
  generalize hcs : (is.map fun i => (c, Call.cancelSlash (w.staking.stakerToProver c.sender) i)) = cs at a1 a2 a3 a4
  generalize hw1 : runCalls cfg w cs = w1 at a2 a3 a4
  have hi1 := StakingInv.reachable hc w1 a3
  have hl1 := LiveInv.reachable hc w1 a3
  obtain ⟨f, g, e, _⟩ := a2
  have hs1 : Sane w1 := by
    rw [e]; exact ⟨hsane.prove, hsane.vault, hsane.st, hsane.claim, hsane.period⟩
  have e1 : w1.staking.stakerToProver = w.staking.stakerToProver := by rw [e]
  have hx := (requestUnstake_run (c := c) (v := v.toNat) hc hi1 hl1 hs1 hv (by rw [e1]; exact h1) (by rw [e]; exact hm)
    (by rw [e1]; exact a4) (by rw [e]; exact hb)).succeeds'
  refine ⟨cs, ?_, AllAccepted.append _ _ _ a1 ⟨by rw [hw1]; exact hx, trivial⟩⟩
  intro x hx'
  rw [← hcs] at hx'
  obtain ⟨i, _, rfl⟩ := List.mem_map.mp hx'
  exact ⟨i, rfl⟩

end

open ToyL1 in
/-- C66: in the world after `stakes` a slash request on alice's prover is open and alice has two claims. At time
1225 it has expired, and the hypotheses hold, for bob as the caller, and for alice who wants the rest back. -/
example : Ordinary cfg genesis stakes ∧ w3 = runCalls cfg genesis stakes ∧
    (w3.staking.stakerToProver alice ≠ 0 ∧ (w3.staking.unstakeClaims alice).length = 2 ∧
      w3.staking.slashClaimCount (w3.staking.stakerToProver alice) = 1) ∧
    (¬ cfg.System (ctx bob 1225).sender ∧ ¬ cfg.System (ctx alice 1225).sender) ∧
    Expired (ctx bob 1225) w3 (w3.staking.stakerToProver alice) ∧ w3.st.bal alice = 500 ∧
    2 < w3.staking.maxUnstakeRequests := by
  refine ⟨stakes_ordinary, rfl, by decide +kernel, ⟨plain_ok (by decide +kernel), plain_ok (by decide +kernel)⟩, ?_, by decide +kernel,
    by decide +kernel⟩
  unfold Expired
  decide +kernel

open ToyL1 in
/-- C66: there the payout is refused before the cancellation and accepted after it: the claim of 400 is paid in full, the claim of 100 is not yet due. -/
example : (exec cfg (ctx bob 1225) (.finishUnstake alice) w3).isOk = false ∧
    ((runCalls cfg w3 [(ctx bob 1225, .cancelSlash prover1 0), (ctx bob 1225, .finishUnstake alice)]).staking.unstakeClaims alice).length = 1 ∧
    (runCalls cfg w3 [(ctx bob 1225, .cancelSlash prover1 0), (ctx bob 1225, .finishUnstake alice)]).prove.bal alice =
      w3.prove.bal alice + 400 := by decide +kernel

end Verif
