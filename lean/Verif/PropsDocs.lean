import Verif.PropsLive
import Verif.PropsSolvency
/-
# What the contracts' documentation says about unstaking, slashing and dispensing

`contracts/DESIGN.md` and `contracts/OPERATIONS.md` describe the staking contract to its operators and users. Three
sentences of the first are false of the code (C113), and of the two ways to dispense in the second one works and one
does not (C114). C115 is what makes the first way work: the $PROVE put aside for dispensing is spent on nothing else.
-/

namespace Verif
open L1

/-! ## C113: `contracts/DESIGN.md` -/

/-- **C113**, "This will also automatically withdraw any rewards that the prover has accrued, and finish that
withdrawal before the unstaking occurs" (`contracts/DESIGN.md:59`): no. Neither of the two calls of unstaking touches
the vApp contract or what it holds, and neither adds to the assets of any prover. -/
theorem c113_unstake {cfg : Cfg} (hc : cfg.WF) {c : Ctx} {k : Call} {w w' : World} (hr : Reachable cfg w)
    (hk : (∃ v, k = .requestUnstake v) ∨ ∃ s, k = .finishUnstake s) (h : exec cfg c k w = .ok ((), w')) :
    w'.vapp = w.vapp ∧ w'.prove.bal cfg.vapp = w.prove.bal cfg.vapp ∧
    ∀ p, w.staking.provers p = true → w'.iprove.bal p ≤ w.iprove.bal p := by
  have hi := StakingInv.reachable hc w hr
  have hv : k.touchesVapp = false := by
    rcases hk with ⟨v, rfl⟩ | ⟨s, rfl⟩ <;> rfl
  refine ⟨exec_vapp_frame hv _ _ _ h, ?_⟩
  rcases hk with ⟨v, rfl⟩ | ⟨s, rfl⟩
  · obtain ⟨_, h0, _, _, _, p, esc, s1, v1, i1, hp, _, _, _, _, b3, _, rfl⟩ := requestUnstake_ok h
    refine ⟨rfl, fun q hq => ?_⟩
    have hne : p ≠ cfg.staking := (hi.reg.ne hc (hp ▸ hi.stake.staked _ h0)).2.2.2.1
    obtain ⟨_, c2, _, c4, _⟩ := Erc20.transfer_bal b3 hne
    show i1.bal q ≤ _
    by_cases e : q = p
    · rw [e, c2]; omega
    · rw [c4 q e (hi.reg.ne hc hq).2.2.2.1]; exact Nat.le_refl _
  · obtain ⟨_, _, _, _, _, _, _, _, hb⟩ := c40_finish hc hr h
    obtain ⟨n, h⟩ := drop_ok.mp h
    obtain ⟨hs0, _, _, w1, hl, rfl⟩ := finishUnstake_ok h
    have r := finishLoop_rel (PayRel.pre cfg s (w.staking.stakerToProver s)) (fun _ _ _ _ _ h => h.rel) _ _ _ _ _ _ hl
    refine ⟨hb _ (fun e => hs0 (hi.outside s (Or.inr (Or.inr (Or.inr (Or.inl e.symm)))))) (vapp_ne_iprove hc), fun q hq => ?_⟩
    rw [(finishTail_same s (w.staking.stakerToProver s) w1).2.1, r.iprove q (hi.reg.ne hc hq).2.2.2.1]
    exact Nat.le_refl _

/-- **C113**, "the SuccinctStaking.owner() can process the requested slash either by cancelling it ... or, if
slashCancellationPeriod() seconds have passed, it can be finished" (`contracts/DESIGN.md:67`): it is the other way
round. The owner can finish an open slash at any time, with no waiting; nobody, the owner included, can cancel it
before the cancellation period and the governor's voting delay and period have passed, and then anybody can. -/
theorem c113_slash {cfg : Cfg} (hc : cfg.WF) {w₀ : World} {h : List (Ctx × Call)} (ho : Ordinary cfg w₀ h) {w : World}
    (hw : w = runCalls cfg w₀ h) (p : Address) (i : U256) {cl : SlashClaim} (hp : w.staking.provers p = true)
    (hcl : (w.staking.slashClaims p)[i.toNat]? = some cl) (hopen : cl.resolved = false) (c : Ctx) (hn : c.now < 2 ^ 256) :
    (Succeeds cfg c (.finishSlash p i) w ↔ c.sender = w.staking.owner) ∧
    (Succeeds cfg c (.cancelSlash p i) w ↔
      cl.timestamp + w.staking.slashCancellationPeriod + c.votingDelay + c.votingPeriod ≤ c.now) := by
  constructor
  · rw [c63_finishSlash hc ho hw]
    exact ⟨fun g => g.1, fun g => ⟨g, hp, cl, hcl, hopen⟩⟩
  · rw [c63_cancelSlash cfg c hn]
    constructor
    · rintro ⟨_, cl', g1, _, g2⟩
      rw [hcl] at g1
      cases g1
      exact g2
    · intro g
      exact ⟨hp, cl, hcl, hopen, g⟩

/-- **C113**, the sentence on slashing is false: in the second in which a slash is requested the owner can finish it but
not cancel it, although the cancellation period is not zero. -/
theorem c113_slash_false : ∃ (cfg : Cfg) (w : World) (p : Address) (i : U256) (cl : SlashClaim) (c : Ctx),
    cfg.WF ∧ Reachable cfg w ∧ w.staking.slashCancellationPeriod ≠ 0 ∧
    (w.staking.slashClaims p)[i.toNat]? = some cl ∧ c.now = cl.timestamp ∧ c.sender = w.staking.owner ∧
    Succeeds cfg c (.finishSlash p i) w ∧ ¬ Succeeds cfg c (.cancelSlash p i) w := by
  open ToyL1 in
  have h1 : (exec ToyL1.cfg (ctx gov 1160) (.finishSlash prover1 0) w3).toBool = true := by decide +kernel
  have h2 : (exec ToyL1.cfg (ctx gov 1160) (.cancelSlash prover1 0) w3).toBool = false := by decide +kernel
  refine ⟨ToyL1.cfg, ToyL1.w3, ToyL1.prover1, 0, ⟨300, 1160, false⟩, ToyL1.ctx ToyL1.gov 1160, ToyL1.cfg_wf,
    ToyL1.reachable (by decide +kernel), by decide +kernel, by decide +kernel, rfl, by decide +kernel, ?_, ?_⟩
  · revert h1
    cases hx : exec ToyL1.cfg (ToyL1.ctx ToyL1.gov 1160) (.finishSlash ToyL1.prover1 0) ToyL1.w3 with
    | error e => exact fun g => nomatch g
    | ok r => exact fun _ => ⟨r.2, hx⟩
  · rintro ⟨w', g⟩
    rw [g] at h2
    exact nomatch h2

/-- **C113**, "Triggered by the SuccinctStaking.owner() calling SuccinctStaking.dispense()" (`contracts/DESIGN.md:77`):
not by the owner as such, and whatever the amount. -/
theorem c113_dispense {cfg : Cfg} {c : Ctx} {w : World} (hne : w.staking.owner ≠ w.staking.dispenser)
    (hs : c.sender = w.staking.owner) (v : U256) : ¬ Succeeds cfg c (.dispense v) w := by
  rintro ⟨w', hx⟩
  exact hne (hs.symm.trans (dispense_ok hx).1)

/-- **C113**, what is left of it: the owner can make themselves the dispenser, always, and then dispense exactly what
the dispenser could have. -/
theorem c113_owner {cfg : Cfg} (hc : cfg.WF) {c : Ctx} {w : World} (hs : c.sender = w.staking.owner) :
    ∃ w1, exec cfg c (.setDispenser c.sender) w = .ok ((), w1) ∧
      ∀ (c1 c2 : Ctx) (v : U256), c1.sender = c.sender → c2.sender = w.staking.dispenser → c1.now = c2.now →
        w.staking.dispenseRateTimestamp ≤ c1.now → w.earned c1 < 2 ^ 256 →
        (Succeeds cfg c1 (.dispense v) w1 ↔ Succeeds cfg c2 (.dispense v) w) := by
  refine ⟨{ w with staking := { w.staking with dispenser := c.sender } }, ?_, ?_⟩
  · simp only [exec, setDispenser, bind_ok, stakingOnlyOwner_ok, modStaking_ok]
    exact ⟨(), w, ⟨hs, rfl⟩, rfl⟩
  · intro c1 c2 v h1 h2 h3 h4 h5
    have e : w.earned c2 = w.earned c1 := by unfold World.earned; rw [h3]
    rw [c63_dispense hc c1 v { w with staking := { w.staking with dispenser := c.sender } } h4 h5, c63_dispense hc c2 v w (h3 ▸ h4) (by rw [e]; exact h5), e]
    exact ⟨fun g => ⟨h2, g.2⟩, fun g => ⟨h1, g.2⟩⟩

/-! ## C115: the $PROVE put aside for dispensing -/

theorem Admissible.staking {cfg : Cfg} {c : Ctx} {k : Call} (ha : Admissible cfg (c, k)) :
    (cfg.staking ≠ c.sender ∨ ∃ p v, k = .requestSlash p v) ∧ k.signer ≠ some cfg.staking := by
  have hs : cfg.System cfg.staking := Or.inr (Or.inr (Or.inl rfl))
  have hn : ∀ a, ¬ cfg.System a → cfg.staking ≠ a := fun a h e => h (e ▸ hs)
  cases k <;> simp only [Call.signer]
  case requestSlash p v => exact ⟨Or.inr ⟨_, _, rfl⟩, by simp⟩
  case provePermit s _ _ _ => exact ⟨Or.inl (hn _ ha.1), fun e => hn _ ha.2 (Option.some.inj e).symm⟩
  case iprovePermit s _ _ _ => exact ⟨Or.inl (hn _ ha.1), by simp⟩
  case permitAndDeposit s _ _ => exact ⟨Or.inl (hn _ ha.1), fun e => hn _ ha.2 (Option.some.inj e).symm⟩
  case permitAndStake s _ _ _ => exact ⟨Or.inl (hn _ ha.1), fun e => hn _ ha.2 (Option.some.inj e).symm⟩
  all_goals exact ⟨Or.inl (hn _ ha), by simp⟩

/-- **C115**: no call but a dispense takes $PROVE from the staking contract - no stake, unstake, slash, reward or
step, and no transfer or approval of anybody. -/
theorem c115_call {cfg : Cfg} (hc : cfg.WF) {c : Ctx} {k : Call} {w w' : World} (hr : Reachable cfg w)
    (ha : Admissible cfg (c, k)) (h : exec cfg c k w = .ok ((), w')) (hk : ∀ v, k ≠ .dispense v) :
    w.prove.bal cfg.staking ≤ w'.prove.bal cfg.staking := by
  have hi := StakingInv.reachable hc w hr
  have hd := hc.distinct
  simp at hd
  exact exec_keeps hi.reg hc ha h cfg.staking (ha.staking).1 (Ne.symm hd.2.1.1) (Or.inr hk) (Or.inr hd.2.2)
    (fun s hs => hi.prove.allow _ s (Or.inr (Or.inr (Or.inl rfl))) hs) (ha.staking).2

/-- **C115**: over any history the staking contract has what it had, and what it was sent, less what was dispensed at
most. -/
theorem c115_fund {cfg : Cfg} (hc : cfg.WF) : ∀ (h : List (Ctx × Call)) {w : World}, Reachable cfg w →
    (∀ x ∈ h, Admissible cfg x) →
    w.prove.bal cfg.staking ≤ (runCalls cfg w h).prove.bal cfg.staking + dispensed cfg w h
  | [], w, _, _ => Nat.le_add_right _ _
  | (c, k) :: h, w, hr, ha => by
    have ih := c115_fund hc h (hr.call (ha _ List.mem_cons_self)) fun x hx => ha x (List.mem_cons_of_mem _ hx)
    have key : w.prove.bal cfg.staking ≤ (call cfg c k w).prove.bal cfg.staking + dispenseStep cfg w (c, k) := by
      unfold call
      cases hx : exec cfg c k w with
      | error e => exact Nat.le_add_right _ _
      | ok r =>
        obtain ⟨⟨⟩, w'⟩ := r
        by_cases hk : ∃ v, k = .dispense v
        · obtain ⟨v, rfl⟩ := hk
          obtain ⟨_, n, _, _, _, _, _, e1, e2, _⟩ := c44_dispense hc hx
          simp only [dispenseStep, hx]
          omega
        · exact Nat.le_trans (c115_call hc hr (ha _ List.mem_cons_self) hx (fun v e => hk ⟨v, e⟩)) (Nat.le_add_right _ _)
    rw [runCalls_cons]
    simp only [dispensed]
    dsimp only at ih ⊢
    omega

/-! ## C114: `contracts/OPERATIONS.md` -/

/-- What has accrued never falls, and only a dispense is counted as dispensed. -/
theorem earned_run {cfg : Cfg} : ∀ (h : List (Ctx × Call)) {w : World} {t : Nat},
    w.staking.dispenseRateTimestamp ≤ t → h.Pairwise (fun x y => x.1.now ≤ y.1.now) → (∀ x ∈ h, t ≤ x.1.now) →
    (∀ x ∈ h, ∀ v, x.2 ≠ .dispense v) → ∀ c : Ctx, t ≤ c.now → (∀ x ∈ h, x.1.now ≤ c.now) →
    w.staking.dispenseEarned + (t - w.staking.dispenseRateTimestamp) * w.staking.dispenseRate ≤ (runCalls cfg w h).earned c ∧
    (runCalls cfg w h).staking.dispenseRateTimestamp ≤ c.now ∧
    (runCalls cfg w h).staking.dispenseDistributed = w.staking.dispenseDistributed
  | [], w, t, h1, _, _, _, c, hc, _ => by
    show _ ≤ w.earned c ∧ w.staking.dispenseRateTimestamp ≤ _ ∧ _
    exact ⟨Nat.add_le_add_left (Nat.mul_le_mul_right _ (by omega)) _, by omega, rfl⟩
  | (x, k) :: h, w, t, h1, hp, ht, hk, c, hc, hl => by
    rw [List.pairwise_cons] at hp
    have htx := ht _ List.mem_cons_self
    have hxc := hl _ List.mem_cons_self
    have hkx := hk _ List.mem_cons_self
    dsimp only at htx hxc hkx
    have ih := fun (w1 : World) (g : w1.staking.dispenseRateTimestamp ≤ x.now) =>
      earned_run (cfg := cfg) h (w := w1) (t := x.now) g hp.2 (fun y hy => hp.1 y hy) (fun y hy => hk y (List.mem_cons_of_mem _ hy)) c
        hxc (fun y hy => hl y (List.mem_cons_of_mem _ hy))
    have m : w.staking.dispenseEarned + (t - w.staking.dispenseRateTimestamp) * w.staking.dispenseRate ≤
        w.staking.dispenseEarned + (x.now - w.staking.dispenseRateTimestamp) * w.staking.dispenseRate :=
      Nat.add_le_add_left (Nat.mul_le_mul_right _ (by omega)) _
    rw [runCalls_cons]
    show _ ≤ (runCalls cfg (call cfg x k w) h).earned c ∧ (runCalls cfg (call cfg x k w) h).staking.dispenseRateTimestamp ≤ _ ∧
      (runCalls cfg (call cfg x k w) h).staking.dispenseDistributed = _
    unfold call
    cases hx : exec cfg x k w with
    | error e =>
      obtain ⟨i1, i2, i3⟩ := ih w (by omega)
      exact ⟨Nat.le_trans m i1, i2, i3⟩
    | ok r =>
      obtain ⟨⟨⟩, w'⟩ := r
      dsimp only
      by_cases hu : ∃ v, k = .updateDispenseRate v
      · obtain ⟨v, rfl⟩ := hu
        obtain ⟨_, _, e⟩ := updateDispenseRate_ok hx
        obtain ⟨i1, i2, i3⟩ := ih w' (by rw [e]; exact Nat.le_refl x.now)
        have e1 : w'.staking.dispenseEarned =
            w.staking.dispenseEarned + (x.now - w.staking.dispenseRateTimestamp) * w.staking.dispenseRate := by rw [e]
        have e2 : w'.staking.dispenseDistributed = w.staking.dispenseDistributed := by rw [e]
        exact ⟨by omega, i2, i3.trans e2⟩
      · obtain ⟨d1, d2, d3, d4⟩ := (exec_fields hx).disp hkx fun v e => hu ⟨v, e⟩
        obtain ⟨i1, i2, i3⟩ := ih w' (by rw [d2]; omega)
        rw [d1, d2, d3] at i1
        exact ⟨Nat.le_trans m i1, i2, i3.trans d4⟩

/-- A history in which the fund of the staking contract is used up: 5 units a second from time 1100 on, all
100000 dispensed at time 21100. -/
def drained : List (Ctx × Call) :=
  open ToyL1 in
  setup ++ [ (ctx gov 1100, .updateDispenseRate 5), (ctx dsp 21100, .dispense 100000) ]

/-- **C114**, the first way: read `maxDispense`, send this amount of $PROVE to the staking contract, dispense it. The
dispense goes through however much later it is sent and whatever else is called in between - stakes, unstakes, slashes,
steps, a new rate or a new dispenser - as long as nobody else dispenses. -/
theorem c114_exact {cfg : Cfg} (hc : cfg.WF) {w : World} (hr : Reachable cfg w) {c₀ : Ctx} {n : Nat}
    (hmax : maxDispense c₀ w = .ok (n, w)) (hn : n ≠ 0) {v : U256} (hv : v.toNat = n) (hv' : n ≠ 2 ^ 256 - 1)
    {cd : Ctx} {w1 : World} (hcd : ¬ cfg.System cd.sender) (hsend : exec cfg cd (.proveTransfer cfg.staking v) w = .ok ((), w1))
    (h : List (Ctx × Call)) (ha : ∀ x ∈ h, Admissible cfg x)
    (htime : h.Pairwise (fun x y => x.1.now ≤ y.1.now)) (hlater : ∀ x ∈ h, c₀.now ≤ x.1.now)
    (hnone : ∀ x ∈ h, ∀ u, x.2 ≠ .dispense u)
    {c : Ctx} (hc0 : c₀.now ≤ c.now) (hcl : ∀ x ∈ h, x.1.now ≤ c.now)
    (hs : c.sender = (runCalls cfg w1 h).staking.dispenser) (hf : (runCalls cfg w1 h).earned c < 2 ^ 256) :
    Succeeds cfg c (.dispense v) (runCalls cfg w1 h) := by
  obtain ⟨_, m1, m2, m3⟩ := maxDispense_ok hmax
  have hr1 : Reachable cfg w1 := by
    have := hr.call (x := (cd, .proveTransfer cfg.staking v)) hcd
    unfold call at this
    rw [hsend] at this
    exact this
  have hsys : cfg.System cfg.staking := Or.inr (Or.inr (Or.inl rfl))
  have hb : n ≤ w1.prove.bal cfg.staking := by
    obtain ⟨t, ht, rfl⟩ := proveTransfer_ok hsend
    obtain ⟨_, _, b3, _⟩ := Erc20.transfer_bal ht fun e => hcd (e ▸ hsys)
    dsimp only
    omega
  have hst : w1.staking = w.staking := by
    obtain ⟨t, ht, rfl⟩ := proveTransfer_ok hsend
    rfl
  obtain ⟨e1, e2, e3⟩ := earned_run (cfg := cfg) h (w := w1) (t := c₀.now) (by rw [hst]; exact m1) htime hlater hnone c hc0 hcl
  have hfund := c115_fund hc h hr1 ha
  have hd0 : dispensed cfg w1 h = 0 := by
    clear hf hs e1 e2 e3 hfund hlater htime ha hcl
    clear hb hst hr1 hsend
    induction h generalizing w1 with
    | nil => rfl
    | cons x h ih =>
      simp only [dispensed]
      rw [ih (fun y hy => hnone y (List.mem_cons_of_mem _ hy))]
      have := hnone x List.mem_cons_self
      obtain ⟨c, k⟩ := x
      unfold dispenseStep
      cases k <;> first | rfl | exact absurd rfl (this _)
  rw [hst] at e1 e3
  rw [c63_dispense hc c v _ e2 hf]
  refine ⟨hs, n, ?_, hn, by rw [e3]; omega, by omega⟩
  rw [if_neg (by rw [hv]; exact hv'), hv]

/-- **C114**, the second way, "OR just simply dispense the maximum amount": right after the same transfer this goes
through only if the staking contract already held what has accrued since `maxDispense` was read. -/
theorem c114_max {cfg : Cfg} (hc : cfg.WF) {w : World} {c₀ : Ctx} {n : Nat}
    (hmax : maxDispense c₀ w = .ok (n, w)) (hn : n ≠ 0) {v : U256} (hv : v.toNat = n)
    {cd : Ctx} {w1 : World} (hcd : ¬ cfg.System cd.sender) (hsend : exec cfg cd (.proveTransfer cfg.staking v) w = .ok ((), w1))
    {c : Ctx} (hc0 : c₀.now ≤ c.now) (hf : w.earned c < 2 ^ 256) :
    Succeeds cfg c (.dispense (BitVec.allOnes 256)) w1 ↔
      c.sender = w.staking.dispenser ∧ (c.now - c₀.now) * w.staking.dispenseRate ≤ w.prove.bal cfg.staking := by
  obtain ⟨_, m1, m2, m3⟩ := maxDispense_ok hmax
  have hsys : cfg.System cfg.staking := Or.inr (Or.inr (Or.inl rfl))
  obtain ⟨t, ht, rfl⟩ := proveTransfer_ok hsend
  obtain ⟨_, _, b3, _⟩ := Erc20.transfer_bal ht fun e => hcd (e ▸ hsys)
  have hmul : (c.now - w.staking.dispenseRateTimestamp) * w.staking.dispenseRate =
      (c₀.now - w.staking.dispenseRateTimestamp) * w.staking.dispenseRate + (c.now - c₀.now) * w.staking.dispenseRate := by
    rw [← Nat.add_mul]; congr 1; omega
  have he : w.earned c = n + w.staking.dispenseDistributed + (c.now - c₀.now) * w.staking.dispenseRate := by
    unfold World.earned; omega
  rw [c63_dispense hc c _ { w with prove := t } (by show w.staking.dispenseRateTimestamp ≤ _; omega) hf]
  show (c.sender = w.staking.dispenser ∧ ∃ a, a = (if (BitVec.allOnes 256).toNat = 2 ^ 256 - 1
    then w.earned c - w.staking.dispenseDistributed else (BitVec.allOnes 256).toNat) ∧ a ≠ 0 ∧
      w.staking.dispenseDistributed + a ≤ w.earned c ∧ a ≤ t.bal cfg.staking) ↔ _
  rw [if_pos (by decide), b3, he]
  constructor
  · rintro ⟨g1, a, rfl, _, _, g2⟩
    exact ⟨g1, by omega⟩
  · rintro ⟨g1, g2⟩
    exact ⟨g1, _, rfl, by omega, by omega, by omega⟩

/-- **C114**, the second way can fail right after the first command of the recipe: nobody but the operators acts, the
staking contract starts without $PROVE of its own, and one second passes. -/
theorem c114_max_false : ∃ (cfg : Cfg) (w w1 : World) (c₀ cd c : Ctx) (n : Nat) (v : U256),
    cfg.WF ∧ Reachable cfg w ∧ maxDispense c₀ w = .ok (n, w) ∧ n ≠ 0 ∧ v.toNat = n ∧ ¬ cfg.System cd.sender ∧
    exec cfg cd (.proveTransfer cfg.staking v) w = .ok ((), w1) ∧ c₀.now = cd.now ∧ c.now = c₀.now + 1 ∧
    c.sender = w1.staking.dispenser ∧ ¬ Succeeds cfg c (.dispense (BitVec.allOnes 256)) w1 ∧
    Succeeds cfg c (.dispense v) w1 := by
  open ToyL1 in
  have hadm : (show List (Ctx × Call) from drained).all admissible = true := by decide +kernel
  have hr : Reachable ToyL1.cfg (runCalls ToyL1.cfg genesis drained) := ToyL1.reachable hadm
  have hm : (maxDispense (ctx alice 22100) (runCalls ToyL1.cfg genesis drained)).toOption.map (·.1) = some 5000 := by
    decide +kernel
  have hx : (exec ToyL1.cfg (ctx alice 22100) (.proveTransfer ToyL1.cfg.staking 5000)
    (runCalls ToyL1.cfg genesis drained)).toBool = true := by decide +kernel
  have hb : (runCalls ToyL1.cfg genesis drained).prove.bal ToyL1.cfg.staking = 0 ∧
      (runCalls ToyL1.cfg genesis drained).staking.dispenseRate = 5 ∧
      (runCalls ToyL1.cfg genesis drained).staking.dispenser = dsp ∧
      (runCalls ToyL1.cfg genesis drained).earned (ctx dsp 22101) < 2 ^ 256 := by decide +kernel
  generalize runCalls ToyL1.cfg genesis drained = w at hr hm hx hb
  obtain ⟨hb1, hb2, hb3, hb4⟩ := hb
  have hcd : ¬ ToyL1.cfg.System (ctx alice 22100).sender :=
    admissible_ok (x := (ctx alice 22100, .pause)) (by decide +kernel)
  have hmax : maxDispense (ctx alice 22100) w = .ok (5000, w) := by
    revert hm
    cases hy : maxDispense (ctx alice 22100) w with
    | error e => exact fun g => nomatch g
    | ok r =>
      obtain ⟨n, w'⟩ := r
      intro g
      obtain ⟨rfl, _⟩ := maxDispense_ok hy
      cases g
      rfl
  revert hx
  cases hy : exec ToyL1.cfg (ctx alice 22100) (.proveTransfer ToyL1.cfg.staking 5000) w with
  | error e => exact fun g => nomatch g
  | ok r =>
    obtain ⟨⟨⟩, w1⟩ := r
    intro _
    have hst : w1.staking = w.staking := by
      obtain ⟨t, _, rfl⟩ := proveTransfer_ok hy
      rfl
    refine ⟨ToyL1.cfg, w, w1, ctx alice 22100, ctx alice 22100, ctx dsp 22101, 5000, 5000, cfg_wf, hr, hmax, by decide, rfl,
      hcd, hy, rfl, rfl, by rw [hst, hb3]; rfl, ?_, ?_⟩
    · rw [c114_max cfg_wf hmax (by decide) rfl hcd hy (by decide) hb4, hb1, hb2]
      rintro ⟨_, g⟩
      exact absurd g (by decide)
    · refine c114_exact cfg_wf hr hmax (by decide) rfl (by decide) hcd hy [] (fun _ h => nomatch h) List.Pairwise.nil
        (fun _ h => nomatch h) (fun _ h => nomatch h) (by decide) (fun _ h => nomatch h) (by
          show _ = w1.staking.dispenser
          rw [hst, hb3]; rfl) (by
          show w1.earned _ < _
          unfold World.earned at hb4 ⊢
          rw [hst]; exact hb4)

/-! ## Concrete cases -/

-- c113_unstake: alice's second request and, later, the payment of the first, in a world with 5000 in the vApp contract
open ToyL1 in
example : (exec cfg (ctx alice 1155) (.requestUnstake 100) (runCalls cfg genesis (stakes.take 9))).toBool = true ∧
    (exec cfg (ctx alice 1205) (.finishUnstake alice) (runCalls cfg genesis (stakes.take 9))).toBool = true ∧
    (runCalls cfg genesis (stakes.take 9)).prove.bal cfg.vapp = 5000 := by
  decide +kernel

-- c113_dispense, c113_owner: the owner is not the dispenser, and becomes it
open ToyL1 in
example : (runCalls cfg genesis drained).staking.owner ≠ (runCalls cfg genesis drained).staking.dispenser ∧
    (exec cfg (ctx gov 22100) (.dispense 1) (runCalls cfg genesis (drained ++ [(ctx alice 22100, .proveTransfer cfg.staking 9)]))).toBool
      = false ∧
    (exec cfg (ctx gov 22100) (.dispense 1) (runCalls cfg genesis (drained ++
      [(ctx alice 22100, .proveTransfer cfg.staking 9), (ctx gov 22100, .setDispenser gov)]))).toBool = true := by
  decide +kernel

-- c115: over `stakes` and a dispense of 200 the fund of 100000 falls by 200
open ToyL1 in
example : (runCalls cfg genesis (stakes ++ dispHistory)).prove.bal cfg.staking = 99800 ∧
    dispensed cfg genesis (stakes ++ dispHistory) = 200 ∧ (stakes ++ dispHistory).all admissible = true := by
  decide +kernel

-- c114_exact, with other calls between the transfer and the dispense: bob stakes, the rate and the dispenser change
open ToyL1 in
example : let h : List (Ctx × Call) := [ (ctx bob 22105, .proveApprove cfg.staking 5000), (ctx bob 22106, .stake prover1 500),
      (ctx gov 22107, .updateDispenseRate 0), (ctx gov 22108, .setDispenser bob) ]
    let w := runCalls cfg genesis (drained ++ [(ctx alice 22100, .proveTransfer cfg.staking 5000)] ++ h)
    h.all admissible = true ∧ w.staking.dispenser = bob ∧ w.earned (ctx bob 30000) < 2 ^ 256 ∧
      (exec cfg (ctx bob 30000) (.dispense 5000) w).toBool = true ∧
      (exec cfg (ctx bob 30000) (.dispense 5036) w).toBool = false := by
  decide +kernel

end Verif
