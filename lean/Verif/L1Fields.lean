import Verif.L1StakeInv2
/-
# Which call changes which storage; allowances and supply of $PROVE
-/

namespace Verif
open L1

/-! ## Fields of the staking contract -/

/-- Which calls leave which storage alone. -/
structure FieldFrame (k : Call) (w w' : World) : Prop where
  claims : (∀ v, k ≠ .requestUnstake v) → (∀ s, k ≠ .finishUnstake s) →
    w'.staking.unstakeClaims = w.staking.unstakeClaims
  s2p : (∀ p v, k ≠ .stake p v) → (∀ s p f v, k ≠ .permitAndStake s p f v) → (∀ s, k ≠ .finishUnstake s) →
    w'.staking.stakerToProver = w.staking.stakerToProver
  slash : (∀ p v, k ≠ .requestSlash p v) → (∀ p i, k ≠ .cancelSlash p i) → (∀ p i, k ≠ .finishSlash p i) →
    w'.staking.slashClaims = w.staking.slashClaims ∧ w'.staking.slashClaimCount = w.staking.slashClaimCount
  pools : (∀ v, k ≠ .requestUnstake v) → (∀ s, k ≠ .finishUnstake s) → (∀ p i, k ≠ .finishSlash p i) →
    w'.staking.escrowPools = w.staking.escrowPools
  disp : (∀ v, k ≠ .dispense v) → (∀ v, k ≠ .updateDispenseRate v) →
    w'.staking.dispenseRate = w.staking.dispenseRate ∧
    w'.staking.dispenseRateTimestamp = w.staking.dispenseRateTimestamp ∧
    w'.staking.dispenseEarned = w.staking.dispenseEarned ∧
    w'.staking.dispenseDistributed = w.staking.dispenseDistributed
  dispenser : (∀ a, k ≠ .setDispenser a) → w'.staking.dispenser = w.staking.dispenser
  owner : (∀ a, k ≠ .stakingSetOwner a) → w'.staking.owner = w.staking.owner
  deact : (∀ p i, k ≠ .finishSlash p i) → w'.staking.deactivatedProvers = w.staking.deactivatedProvers

theorem FieldFrame.of_eq {k : Call} {w w' : World} (h : w'.staking = w.staking) : FieldFrame k w w' := by
  constructor <;> intros <;> rw [h] <;> simp only [and_self]

/-- What paying claims writes. -/
def PayShape (w w' : World) : Prop :=
  ∃ pr ip e u, w' = { w with prove := pr, iprove := ip, staking := { w.staking with escrowPools := e, unstakeClaims := u } }

theorem PayShape.pre : Pre PayShape where
  refl w := ⟨_, _, _, _, rfl⟩
  trans := by
    rintro a _ _ ⟨_, _, _, _, rfl⟩ ⟨_, _, _, _, rfl⟩
    exact ⟨_, _, _, _, rfl⟩

theorem PayStep.shape {cfg : Cfg} {c : Ctx} {staker prover : Address} {i n : Nat} {claim : UnstakeClaim} {w w' : World}
    (h : PayStep cfg c staker prover i n claim w w') : PayShape w w' := by
  obtain ⟨_, _, h⟩ := h
  obtain ⟨_, pay, _, hle, h⟩ := finishUnstakeRequest_ok h
  rcases h with ⟨_, _, rfl⟩ | ⟨_, hb, _, i0, i1, p1, a1, a2, _, rfl⟩ <;> exact ⟨_, _, _, _, rfl⟩

theorem finishTail_shape (s p : Address) (w : World) :
    ∃ e m, finishTail s p w = { w with staking := { w.staking with escrowPools := e, stakerToProver := m } } := by
  unfold finishTail; dsimp only
  split <;> split <;> exact ⟨_, _, rfl⟩

theorem SlashEffect.shape {cfg : Cfg} {p : Address} {t x : Nat} {w w' : World} (h : SlashEffect cfg p t x w w') :
    ∃ pr ip e, w' = { w with prove := pr, iprove := ip, staking := { w.staking with escrowPools := e } } := by
  obtain ⟨_, _, _, _, _, _, _, _, _, _, _, _, rfl⟩ := h
  exact ⟨_, _, _, rfl⟩

theorem finishSlash_shape {cfg : Cfg} {c : Ctx} {p : Address} {i n : Nat} {w w' : World}
    (h : finishSlash cfg c p i w = .ok (n, w')) :
    ∃ claim pr ip e d, (w.staking.slashClaims p)[i]? = some claim ∧ claim.resolved = false ∧
      w' = { w with prove := pr, iprove := ip, staking := { w.staking.resolve p i claim with
        escrowPools := e, deactivatedProvers := d } } := by
  obtain ⟨_, _, claim, hc, hr, _, w1, h1, h2⟩ := finishSlash_ok h
  have hs : ∃ pr ip e, w1 = { w with prove := pr, iprove := ip, staking := { w.staking.resolve p i claim with escrowPools := e } } := by
    split at h1
    · exact ⟨_, _, _, h1⟩
    · obtain ⟨_, _, _, rfl⟩ := h1.shape
      exact ⟨_, _, _, rfl⟩
  obtain ⟨pr, ip, e, rfl⟩ := hs
  rcases h2 with ⟨rfl, _⟩ | ⟨_, _, _, rfl⟩
  · exact ⟨claim, _, _, _, _, hc, hr, rfl⟩
  · exact ⟨claim, _, _, _, _, hc, hr, rfl⟩

theorem setDispenser_ok {c : Ctx} {a : Address} {u : Unit} {w w' : World} (h : setDispenser c a w = .ok (u, w')) :
    c.sender = w.staking.owner ∧ w' = { w with staking := { w.staking with dispenser := a } } := by
  simp only [setDispenser, bind_ok, stakingOnlyOwner_ok, modStaking_ok] at h
  obtain ⟨_, _, ⟨h1, rfl⟩, rfl⟩ := h
  exact ⟨h1, rfl⟩

theorem stakingSetOwner_ok {c : Ctx} {a : Address} {u : Unit} {w w' : World} (h : stakingSetOwner c a w = .ok (u, w')) :
    c.sender = w.staking.owner ∧ w' = { w with staking := { w.staking with owner := a } } := by
  simp only [stakingSetOwner, bind_ok, stakingOnlyOwner_ok, modStaking_ok] at h
  obtain ⟨_, _, ⟨h1, rfl⟩, rfl⟩ := h
  exact ⟨h1, rfl⟩

theorem exec_fields {cfg : Cfg} {c : Ctx} {k : Call} {w w' : World} (h : exec cfg c k w = .ok ((), w')) :
    FieldFrame k w w' := by
  by_cases hk : k.touchesStaking = false
  · exact FieldFrame.of_eq (exec_staking_frame hk _ _ _ h).1
  · cases k
    case createProver f =>
      replace h := drop_ok.mp h
      obtain ⟨p, h⟩ := h
      obtain ⟨_, _, _, _, _, _, _, _, _, _, _, rfl⟩ := createProver_ok h
      constructor <;> intros <;> simp only [and_self]
    case stake p v =>
      replace h := drop_ok.mp h
      obtain ⟨n, h⟩ := h
      obtain ⟨_, _, _, _, _, _, _, _, _, _, _, _, _, _, _, _, _, _, _, _, _, _, _, _, _, _, _, _, _, rfl⟩ := stake_ok h
      constructor <;> first | (intros; simp only [and_self]; done) | (intro h; exact absurd rfl (h _ _))
    case permitAndStake s p f v =>
      replace h := drop_ok.mp h
      obtain ⟨n, h⟩ := h
      obtain ⟨_, _, _, _, _, _, _, _, _, _, _, _, _, _, _, _, _, _, _, _, _, _, _, _, _, _, _, _, _, _, _, rfl⟩ := permitAndStake_ok h
      constructor <;> first | (intros; simp only [and_self]; done) | (intro _ h; exact absurd rfl (h _ _ _ _))
    case requestUnstake v =>
      obtain ⟨_, _, _, _, _, _, _, _, _, _, _, _, _, _, _, _, _, rfl⟩ := requestUnstake_ok h
      constructor <;> first | (intros; simp only [and_self]; done) | (intro h; exact absurd rfl (h _))
    case finishUnstake s =>
      replace h := drop_ok.mp h
      obtain ⟨n, h⟩ := h
      obtain ⟨_, _, _, w1, hl, rfl⟩ := finishUnstake_ok h
      obtain ⟨_, _, _, _, rfl⟩ := finishLoop_rel PayShape.pre (fun _ _ _ _ _ h => h.shape) _ _ _ _ _ _ hl
      obtain ⟨_, _, e⟩ := finishTail_shape s (w.staking.stakerToProver s)
        { w with prove := _, iprove := _, staking := { w.staking with escrowPools := _, unstakeClaims := _ } }
      rw [e]
      constructor <;> first | (intros; simp only [and_self]; done) | (intro _ h; exact absurd rfl (h _)) | (intro _ _ h; exact absurd rfl (h _))
    case requestSlash p v =>
      replace h := drop_ok.mp h
      obtain ⟨n, h⟩ := h
      obtain ⟨_, _, _, _, rfl⟩ := requestSlash_ok h
      constructor <;> first | (intros; simp only [and_self]; done) | (intro h; exact absurd rfl (h _ _))
    case cancelSlash p i =>
      obtain ⟨_, _, _, _, _, rfl⟩ := cancelSlash_ok h
      constructor <;> first | (intros; simp only [Staking.resolve, and_self]; done) | (intro _ h; exact absurd rfl (h _ _))
    case finishSlash p i =>
      replace h := drop_ok.mp h
      obtain ⟨n, h⟩ := h
      obtain ⟨_, _, _, _, _, _, _, rfl⟩ := finishSlash_shape h
      constructor <;> first | (intros; simp only [Staking.resolve, and_self]; done) | (intro h; exact absurd rfl (h _ _)) | (intro _ _ h; exact absurd rfl (h _ _))
    case dispense v =>
      obtain ⟨_, _, _, _, _, _, _, _, _, rfl⟩ := dispense_ok h
      constructor <;> first | (intros; simp only [and_self]; done) | (intro h; exact absurd rfl (h _))
    case updateDispenseRate v =>
      obtain ⟨_, _, rfl⟩ := updateDispenseRate_ok h
      constructor <;> first | (intros; simp only [and_self]; done) | (intro _ h; exact absurd rfl (h _))
    case setDispenser a =>
      obtain ⟨_, rfl⟩ := setDispenser_ok h
      constructor <;> first | (intros; simp only [and_self]; done) | (intro h; exact absurd rfl (h _))
    case stakingSetOwner a =>
      obtain ⟨_, rfl⟩ := stakingSetOwner_ok h
      constructor <;> first | (intros; simp only [and_self]; done) | (intro h; exact absurd rfl (h _))
    all_goals exact absurd rfl hk

/-! ## $PROVE -/

/-- No new allowance from a modelled contract; the supply stays the total of the balances. -/
structure ProveRel (cfg : Cfg) (w w' : World) : Prop where
  allow : ∀ a s, cfg.System a → w'.prove.allow a s ≤ w.prove.allow a s
  balanced : w.prove.Balanced → w'.prove.Balanced

theorem ProveRel.of_step {cfg : Cfg} {w w' : World} (h : w.prove.Step w'.prove) : ProveRel cfg w w' := by
  rcases h with ⟨f, to, v, h⟩ | ⟨to, v, h⟩ | ⟨f, v, h⟩ | ⟨o, s, v, h⟩
  · refine ⟨fun a s _ => ?_, fun hb => hb.transfer h⟩
    obtain ⟨_, _, _, e⟩ := Erc20.transfer_ok h; rw [e]; exact Nat.le_refl _
  · refine ⟨fun a s _ => ?_, fun hb => hb.mint h⟩
    obtain ⟨_, _, e⟩ := Erc20.mint_ok h; rw [e]; exact Nat.le_refl _
  · refine ⟨fun a s _ => ?_, fun hb => hb.burn h⟩
    obtain ⟨_, _, e⟩ := Erc20.burn_ok h; rw [e]; exact Nat.le_refl _
  · refine ⟨fun a s' _ => ?_, fun hb => hb.spend h⟩
    obtain ⟨_, _, _, h1, h2⟩ := Erc20.spend_ok h
    by_cases e : a = o ∧ s' = s
    · obtain ⟨rfl, rfl⟩ := e
      rw [h2]
      split <;> omega
    · have : a ≠ o ∨ s' ≠ s := by
        by_cases ea : a = o
        · exact Or.inr fun es => e ⟨ea, es⟩
        · exact Or.inl ea
      rw [h1 a s' this]; exact Nat.le_refl _

theorem ProveRel.refl' {cfg : Cfg} {w w' : World} (h : w'.prove = w.prove) : ProveRel cfg w w' :=
  ⟨fun _ _ _ => by rw [h]; exact Nat.le_refl _, fun hb => by rw [h]; exact hb⟩

theorem ProveRel.tok (cfg : Cfg) : Tok (ProveRel cfg) where
  refl _ := ProveRel.refl' rfl
  trans _ _ _ h g := ⟨fun a s ha => Nat.le_trans (g.allow a s ha) (h.allow a s ha), fun hb => g.balanced (h.balanced hb)⟩
  prove _ _ h := ProveRel.of_step h
  iprove _ _ := ProveRel.refl' rfl
  vault _ _ := ProveRel.refl' rfl
  st _ _ := ProveRel.refl' rfl

theorem ProveRel.approve {cfg : Cfg} {w : World} {o s : Address} {v : Nat} {t : Erc20} (ho : ¬ cfg.System o)
    (h : w.prove.approve o s v = .ok t) : ProveRel cfg w { w with prove := t } := by
  refine ⟨fun a b ha => ?_, fun hb => hb.approve h⟩
  obtain ⟨_, _, rfl⟩ := Erc20.approve_ok h
  show upd w.prove.allow o _ a b ≤ _
  rw [upd_ne _ _ (by rintro rfl; exact ho ha)]
  exact Nat.le_refl _

theorem exec_prove {cfg : Cfg} {c : Ctx} {k : Call} {w w' : World} (ha : Admissible cfg (c, k))
    (h : exec cfg c k w = .ok ((), w')) : ProveRel cfg w w' := by
  have hR := ProveRel.tok cfg
  have hv : AllowVapp (ProveRel cfg) := fun _ _ => ProveRel.refl' rfl
  have hs : AllowStaking (ProveRel cfg) := fun _ _ => ProveRel.refl' rfl
  have hi : AllowInfo (ProveRel cfg) := fun _ _ => ProveRel.refl' rfl
  cases k
  case proveApprove s v =>
    simp only [exec, onProve_ok] at h
    obtain ⟨t, h, rfl⟩ := h
    exact ProveRel.approve ha h
  case provePermit s o p v =>
    obtain ⟨rfl, t, h1, rfl⟩ := provePermit_ok h
    exact ProveRel.approve ha.2 h1
  case permitAndDeposit s f v =>
    replace h := drop_ok.mp h
    obtain ⟨id, h⟩ := h
    obtain ⟨_, t0, h1, h2⟩ := vappPermitAndDeposit_ok h
    have h3 := vappDepositFrom_within hR hv _ _ _ _ _ _ h2
    rcases h1 with ⟨_, rfl⟩ | ⟨rfl, h1⟩
    · exact h3
    · exact hR.trans _ _ _ (ProveRel.approve ha.2 h1) h3
  case permitAndStake s p f v =>
    replace h := drop_ok.mp h
    obtain ⟨n, h⟩ := h
    simp only [permitAndStake, bind_ok, onlyForProver_ok, get_ok] at h
    obtain ⟨_, _, ⟨h1, rfl⟩, _, _, ⟨rfl, rfl⟩, h⟩ := h
    split at h
    · simp only [bind_ok] at h
      obtain ⟨_, _, h2, _, _, h3, h4⟩ := h
      obtain ⟨rfl, t0, b1, rfl⟩ := provePermit_ok h2
      exact hR.trans _ _ _ (ProveRel.approve ha.2 b1) (hR.trans _ _ _ (transferProveToStaking_within hR _ _ _ _ _ _ _ _ h3)
        (stakeFor_within hR hs _ _ _ _ _ _ _ h4))
    · simp only [bind_ok] at h
      obtain ⟨_, _, h3, h4⟩ := h
      exact hR.trans _ _ _ (transferProveToStaking_within hR _ _ _ _ _ _ _ _ h3) (stakeFor_within hR hs _ _ _ _ _ _ _ h4)
  all_goals
    revert h
    suffices hw : Within (ProveRel cfg) (exec cfg c _) by exact fun h => hw _ _ _ h
    unfold exec; within
    all_goals first | exact createProver_within hR hv hs hi _ _ _ | exact Within.modify fun _ => ProveRel.refl' rfl

/-- $PROVE in reachable worlds. -/
structure ProveInv (cfg : Cfg) (w : World) : Prop where
  allow : ∀ a s, cfg.System a → s ≠ cfg.iprove → w.prove.allow a s = 0
  balanced : w.prove.Balanced

theorem ProveInv.exec {cfg : Cfg} {c : Ctx} {k : Call} {w w' : World} (hi : ProveInv cfg w) (ha : Admissible cfg (c, k))
    (h : Verif.exec cfg c k w = .ok ((), w')) : ProveInv cfg w' := by
  have hr := exec_prove ha h
  refine ⟨fun a s hs hne => ?_, hr.balanced hi.balanced⟩
  have h1 := hr.allow a s hs
  rw [hi.allow a s hs hne] at h1
  omega

theorem ProveInv.reachable {cfg : Cfg} : ∀ w, Reachable cfg w → ProveInv cfg w :=
  reachable_induction (fun w h => ⟨fun a s ha hs => by
      rw [h.prove_allow a s ha, if_neg (fun e => hs e.2)], h.prove_sum⟩)
    (fun _ _ _ _ hi ha h => hi.exec ha h)

/-- Accounts with a stake or with unstake claims are no contracts of the system. -/
def StakersOutside (cfg : Cfg) (w : World) : Prop := ∀ a, cfg.System a → w.staking.stakerToProver a = 0

theorem StakersOutside.exec {cfg : Cfg} (hc : cfg.WF) {c : Ctx} {k : Call} {w w' : World} (hr : Registry cfg w)
    (hp : ProveInv cfg w) (hi : StakersOutside cfg w) (ha : Admissible cfg (c, k))
    (h : Verif.exec cfg c k w = .ok ((), w')) : StakersOutside cfg w' := by
  intro a hs
  have hf := (exec_fields h).s2p
  cases k
  case stake p v =>
    replace h := drop_ok.mp h
    obtain ⟨n, h⟩ := h
    obtain ⟨_, _, _, _, _, he⟩ := stake_ok h
    obtain ⟨_, _, _, _, _, _, _, _, _, _, _, _, _, _, _, _, _, _, _, _, _, _, _, _, rfl⟩ := he
    show upd w.staking.stakerToProver c.sender p a = 0
    rw [upd_ne _ _ (by rintro rfl; exact ha hs)]
    exact hi a hs
  case permitAndStake s p f v =>
    replace h := drop_ok.mp h
    obtain ⟨n, h⟩ := h
    obtain ⟨hreg, t0, _, _, h1, _, _, he⟩ := permitAndStake_ok h
    obtain ⟨hv0, _, _, _, _, _, _, _, _, _, _, _, _, _, _, _, _, _, _, _, _, _, _, _, rfl⟩ := he
    show upd w.staking.stakerToProver f p a = 0
    rw [upd_ne _ _ (by
      rintro rfl
      rcases h1 with ⟨h1, _⟩ | ⟨rfl, _⟩
      · rw [hp.allow a p hs (hr.ne hc hreg).2.2.1] at h1; exact hv0 h1.symm
      · exact ha.2 hs)]
    exact hi a hs
  case finishUnstake s =>
    replace h := drop_ok.mp h
    obtain ⟨n, h⟩ := h
    obtain ⟨_, _, _, w1, hl, rfl⟩ := finishUnstake_ok h
    have h1 := (finishLoop_rel (PayRel.pre cfg s (w.staking.stakerToProver s)) (fun _ _ _ _ _ h => h.rel) _ _ _ _ _ _ hl).s2p
    have h2 : w1.staking.stakerToProver a = 0 := by rw [h1]; exact hi a hs
    unfold finishTail
    dsimp only
    have hu : ∀ m : Address → Address, m a = 0 → upd m s 0 a = 0 := by
      intro m hm
      by_cases e : a = s
      · rw [e, upd_same]
      · rw [upd_ne _ _ e]; exact hm
    split <;> split
    · exact hu _ h2
    · exact h2
    · exact hu _ h2
    · exact h2
  all_goals
    rw [hf (fun _ _ => Call.noConfusion) (fun _ _ _ _ => Call.noConfusion) (fun _ => Call.noConfusion)]
    exact hi a hs

/-- All invariants of reachable worlds. -/
structure StakingInv (cfg : Cfg) (w : World) : Prop where
  reg : Registry cfg w
  stake : StakeInv cfg w
  prove : ProveInv cfg w
  outside : StakersOutside cfg w

theorem StakingInv.exec {cfg : Cfg} (hc : cfg.WF) {c : Ctx} {k : Call} {w w' : World} (hi : StakingInv cfg w)
    (ha : Admissible cfg (c, k)) (h : Verif.exec cfg c k w = .ok ((), w')) : StakingInv cfg w' :=
  ⟨hi.reg.exec hc h, hi.stake.exec hc hi.reg ha h, hi.prove.exec ha h, hi.outside.exec hc hi.reg hi.prove ha h⟩

theorem StakingInv.reachable {cfg : Cfg} (hc : cfg.WF) : ∀ w, Reachable cfg w → StakingInv cfg w :=
  reachable_induction (fun w h => ⟨Registry.genesis h, StakeInv.genesis h, ⟨fun a s ha hs => by
      rw [h.prove_allow a s ha, if_neg (fun e => hs e.2)], h.prove_sum⟩, fun a _ => by rw [h.maps.1]⟩)
    (fun _ _ _ _ hi ha h => hi.exec hc ha h)

end Verif
