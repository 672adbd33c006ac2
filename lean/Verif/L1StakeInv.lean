import Verif.L1Stake
/-
# Invariants of the registry and of the staking contract
-/

namespace Verif
open L1

/-! ## Registry -/

/-- The registry is unchanged. -/
def SameReg (w w' : World) : Prop :=
  w'.info = w.info ∧ w'.staking.provers = w.staking.provers ∧ w'.staking.ownerToProver = w.staking.ownerToProver ∧
  w'.staking.proverCount = w.staking.proverCount

theorem SameReg.pre : Pre SameReg where
  refl _ := ⟨rfl, rfl, rfl, rfl⟩
  trans _ _ _ h1 h2 := ⟨h2.1.trans h1.1, h2.2.1.trans h1.2.1, h2.2.2.1.trans h1.2.2.1, h2.2.2.2.trans h1.2.2.2⟩

/-- The parameters of the staking contract are unchanged, and no prover is activated again. -/
def StakeConst (w w' : World) : Prop :=
  w'.staking.minStakeAmount = w.staking.minStakeAmount ∧ w'.staking.maxUnstakeRequests = w.staking.maxUnstakeRequests ∧
  w'.staking.unstakePeriod = w.staking.unstakePeriod ∧
  w'.staking.slashCancellationPeriod = w.staking.slashCancellationPeriod ∧
  (∀ p, w.staking.deactivatedProvers p = true → w'.staking.deactivatedProvers p = true)

theorem StakeConst.refl (w : World) : StakeConst w w := ⟨rfl, rfl, rfl, rfl, fun _ h => h⟩
theorem StakeConst.trans {a b c : World} (h1 : StakeConst a b) (h2 : StakeConst b c) : StakeConst a c :=
  ⟨h2.1.trans h1.1, h2.2.1.trans h1.2.1, h2.2.2.1.trans h1.2.2.1, h2.2.2.2.1.trans h1.2.2.2.1,
    fun p h => h2.2.2.2.2 p (h1.2.2.2.2 p h)⟩

theorem StakeConst.of_eq {w w' : World} (h : w'.staking = w.staking) : StakeConst w w' := by
  unfold StakeConst; rw [h]; exact ⟨rfl, rfl, rfl, rfl, fun _ h => h⟩

theorem PayStep.frame {cfg : Cfg} {c : Ctx} {staker prover : Address} {i n : Nat} {claim : UnstakeClaim} {w w' : World}
    (h : PayStep cfg c staker prover i n claim w w') : SameReg w w' ∧ StakeConst w w' := by
  obtain ⟨_, _, h⟩ := h
  obtain ⟨_, pay, _, _, h⟩ := finishUnstakeRequest_ok h
  rcases h with ⟨_, _, rfl⟩ | ⟨_, _, _, i0, i1, p1, _, _, _, rfl⟩
  · exact ⟨⟨rfl, rfl, rfl, rfl⟩, ⟨rfl, rfl, rfl, rfl, fun _ h => h⟩⟩
  · exact ⟨⟨rfl, rfl, rfl, rfl⟩, ⟨rfl, rfl, rfl, rfl, fun _ h => h⟩⟩

theorem finishTail_frame (staker prover : Address) (w : World) :
    SameReg w (finishTail staker prover w) ∧ StakeConst w (finishTail staker prover w) := by
  unfold finishTail
  dsimp only
  split <;> split <;> exact ⟨⟨rfl, rfl, rfl, rfl⟩, ⟨rfl, rfl, rfl, rfl, fun _ h => h⟩⟩

theorem SlashEffect.frame {cfg : Cfg} {p : Address} {t x : Nat} {w w' : World} (h : SlashEffect cfg p t x w w') :
    SameReg w w' ∧ StakeConst w w' := by
  obtain ⟨_, _, _, _, _, _, _, _, _, _, _, _, rfl⟩ := h
  exact ⟨⟨rfl, rfl, rfl, rfl⟩, ⟨rfl, rfl, rfl, rfl, fun _ h => h⟩⟩

/-- Only `createProver` changes the registry; the parameters never change. -/
theorem exec_frames {cfg : Cfg} {c : Ctx} {k : Call} {w w' : World} (h : exec cfg c k w = .ok ((), w')) :
    ((∀ f, k ≠ .createProver f) → SameReg w w') ∧ StakeConst w w' := by
  by_cases hk : k.touchesStaking = false
  · obtain ⟨h1, h2⟩ := exec_staking_frame hk _ _ _ h
    exact ⟨fun _ => ⟨h2, by rw [h1], by rw [h1], by rw [h1]⟩, StakeConst.of_eq h1⟩
  · cases k
    case createProver f =>
      replace h := drop_ok.mp h
      obtain ⟨p, h⟩ := h
      obtain ⟨_, _, _, _, _, _, _, _, _, _, _, rfl⟩ := createProver_ok h
      exact ⟨fun hk => absurd rfl (hk f), ⟨rfl, rfl, rfl, rfl, fun _ h => h⟩⟩
    case stake p v =>
      replace h := drop_ok.mp h
      obtain ⟨n, h⟩ := h
      obtain ⟨_, _, _, _, _, _, _, _, _, _, _, _, _, _, _, _, _, _, _, _, _, _, _, _, _, _, _, _, _, rfl⟩ := stake_ok h
      exact ⟨fun _ => ⟨rfl, rfl, rfl, rfl⟩, ⟨rfl, rfl, rfl, rfl, fun _ h => h⟩⟩
    case permitAndStake s p f v =>
      replace h := drop_ok.mp h
      obtain ⟨n, h⟩ := h
      obtain ⟨_, _, _, _, _, _, _, _, _, _, _, _, _, _, _, _, _, _, _, _, _, _, _, _, _, _, _, _, _, _, _, rfl⟩ := permitAndStake_ok h
      exact ⟨fun _ => ⟨rfl, rfl, rfl, rfl⟩, ⟨rfl, rfl, rfl, rfl, fun _ h => h⟩⟩
    case requestUnstake v =>
      obtain ⟨_, _, _, _, _, _, _, _, _, _, _, _, _, _, _, _, _, rfl⟩ := requestUnstake_ok h
      exact ⟨fun _ => ⟨rfl, rfl, rfl, rfl⟩, ⟨rfl, rfl, rfl, rfl, fun _ h => h⟩⟩
    case finishUnstake s =>
      replace h := drop_ok.mp h
      obtain ⟨n, h⟩ := h
      obtain ⟨_, _, _, w1, hl, rfl⟩ := finishUnstake_ok h
      have h1 := finishLoop_rel (R := fun w w' => SameReg w w' ∧ StakeConst w w')
        ⟨fun w => ⟨SameReg.pre.refl w, StakeConst.refl w⟩, fun _ _ _ a b => ⟨SameReg.pre.trans _ _ _ a.1 b.1, a.2.trans b.2⟩⟩
        (fun _ _ _ _ _ h => h.frame) _ _ _ _ _ _ hl
      have h2 := finishTail_frame s (w.staking.stakerToProver s) w1
      exact ⟨fun _ => SameReg.pre.trans _ _ _ h1.1 h2.1, h1.2.trans h2.2⟩
    case requestSlash p v =>
      replace h := drop_ok.mp h
      obtain ⟨n, h⟩ := h
      obtain ⟨_, _, _, _, rfl⟩ := requestSlash_ok h
      exact ⟨fun _ => ⟨rfl, rfl, rfl, rfl⟩, ⟨rfl, rfl, rfl, rfl, fun _ h => h⟩⟩
    case cancelSlash p i =>
      obtain ⟨_, _, _, _, _, rfl⟩ := cancelSlash_ok h
      exact ⟨fun _ => ⟨rfl, rfl, rfl, rfl⟩, ⟨rfl, rfl, rfl, rfl, fun _ h => h⟩⟩
    case finishSlash p i =>
      replace h := drop_ok.mp h
      obtain ⟨n, h⟩ := h
      obtain ⟨_, _, claim, _, _, _, w1, h1, h2⟩ := finishSlash_ok h
      have hf : SameReg w w1 ∧ StakeConst w w1 := by
        split at h1
        · subst h1; exact ⟨⟨rfl, rfl, rfl, rfl⟩, ⟨rfl, rfl, rfl, rfl, fun _ h => h⟩⟩
        · have := h1.frame
          exact ⟨this.1, this.2⟩
      have hg : SameReg w1 w' ∧ StakeConst w1 w' := by
        rcases h2 with ⟨rfl, _⟩ | ⟨_, _, _, rfl⟩
        · exact ⟨SameReg.pre.refl _, StakeConst.refl _⟩
        · refine ⟨⟨rfl, rfl, rfl, rfl⟩, ⟨rfl, rfl, rfl, rfl, fun q hq => ?_⟩⟩
          show upd w1.staking.deactivatedProvers p true q = true
          by_cases e : q = p
          · rw [e, upd_same]
          · rw [upd_ne _ _ e]; exact hq
      exact ⟨fun _ => SameReg.pre.trans _ _ _ hf.1 hg.1, hf.2.trans hg.2⟩
    case dispense v =>
      obtain ⟨_, _, _, _, _, _, _, _, _, rfl⟩ := dispense_ok h
      exact ⟨fun _ => ⟨rfl, rfl, rfl, rfl⟩, ⟨rfl, rfl, rfl, rfl, fun _ h => h⟩⟩
    case updateDispenseRate v =>
      obtain ⟨_, _, rfl⟩ := updateDispenseRate_ok h
      exact ⟨fun _ => ⟨rfl, rfl, rfl, rfl⟩, ⟨rfl, rfl, rfl, rfl, fun _ h => h⟩⟩
    case setDispenser a =>
      simp only [exec, setDispenser, bind_ok, stakingOnlyOwner_ok, modStaking_ok] at h
      obtain ⟨_, _, ⟨_, rfl⟩, rfl⟩ := h
      exact ⟨fun _ => ⟨rfl, rfl, rfl, rfl⟩, ⟨rfl, rfl, rfl, rfl, fun _ h => h⟩⟩
    case stakingSetOwner a =>
      simp only [exec, stakingSetOwner, bind_ok, stakingOnlyOwner_ok, modStaking_ok] at h
      obtain ⟨_, _, ⟨_, rfl⟩, rfl⟩ := h
      exact ⟨fun _ => ⟨rfl, rfl, rfl, rfl⟩, ⟨rfl, rfl, rfl, rfl, fun _ h => h⟩⟩
    all_goals exact absurd rfl hk

/-- The registry invariant. -/
structure Registry (cfg : Cfg) (w : World) : Prop where
  addr : ∀ p, w.staking.provers p = true → ∃ o n f, p = cfg.create2 o n f
  id : ∀ p, w.staking.provers p = true → 1 ≤ (w.info p).id ∧ (w.info p).id ≤ w.staking.proverCount
  id_inj : ∀ p q, w.staking.provers p = true → w.staking.provers q = true → (w.info p).id = (w.info q).id → p = q
  id_surj : ∀ n, 1 ≤ n → n ≤ w.staking.proverCount → ∃ p, w.staking.provers p = true ∧ (w.info p).id = n
  owner : ∀ p, w.staking.provers p = true → w.staking.ownerToProver (w.info p).owner = p
  owned : ∀ o, w.staking.ownerToProver o ≠ 0 →
    w.staking.provers (w.staking.ownerToProver o) = true ∧ (w.info (w.staking.ownerToProver o)).owner = o
  fee : ∀ p, w.staking.provers p = true → (w.info p).stakerFeeBips ≤ 10000

theorem Registry.congr {cfg : Cfg} {w w' : World} (h : Registry cfg w) (e : SameReg w w') : Registry cfg w' := by
  obtain ⟨e1, e2, e3, e4⟩ := e
  constructor <;> rw [e2] <;> try rw [e1]
  · exact h.addr
  · rw [e4]; exact h.id
  · exact h.id_inj
  · rw [e4]; exact h.id_surj
  · rw [e3]; exact h.owner
  · rw [e3]; exact h.owned
  · exact h.fee

theorem Registry.genesis {cfg : Cfg} {w : World} (h : Genesis cfg w) : Registry cfg w := by
  obtain ⟨h1, h2, h3, _⟩ := h.registry
  have hf : ∀ p, w.staking.provers p = true → False := by intro p hp; rw [h3] at hp; exact nomatch hp
  exact {
    addr := fun p hp => (hf p hp).elim
    id := fun p hp => (hf p hp).elim
    id_inj := fun p _ hp => (hf p hp).elim
    id_surj := fun n a b => by omega
    owner := fun p hp => (hf p hp).elim
    owned := fun o ho => by rw [h2] at ho; exact absurd rfl ho
    fee := fun p hp => (hf p hp).elim }

theorem Registry.create {cfg : Cfg} (hc : cfg.WF) {c : Ctx} {f : U256} {p : Address} {w w' : World}
    (hr : Registry cfg w) (h : createProver cfg c f w = .ok (p, w')) : Registry cfg w' := by
  obtain ⟨h1, h2, h3, h4, h5, _, _, _, _, t, _, rfl⟩ := createProver_ok h
  have hp0 : p ≠ 0 := by rw [h4]; exact (hc.create2 _ _ _).1
  have hne : ∀ {q}, w.staking.provers q = true → q ≠ p := by
    rintro q hq rfl; rw [h5] at hq; exact nomatch hq
  have hcase : ∀ {q}, upd w.staking.provers p true q = true → q = p ∨ (q ≠ p ∧ w.staking.provers q = true) := by
    intro q hq
    by_cases e : q = p
    · exact Or.inl e
    · rw [upd_ne _ _ e] at hq; exact Or.inr ⟨e, hq⟩
  constructor <;> dsimp only
  · intro q hq
    rcases hcase hq with rfl | ⟨_, hq⟩
    · exact ⟨_, _, _, h4⟩
    · exact hr.addr q hq
  · intro q hq
    rcases hcase hq with rfl | ⟨e, hq⟩
    · rw [upd_same]; dsimp only; omega
    · rw [upd_ne _ _ e]
      have := hr.id q hq
      omega
  · intro a b ha hb he
    rcases hcase ha with rfl | ⟨ea, ha⟩ <;> rcases hcase hb with rfl | ⟨eb, hb⟩
    · rfl
    · rw [upd_same, upd_ne _ _ eb] at he
      have := hr.id b hb
      dsimp only at he; omega
    · rename_i ha' _; rw [upd_same, upd_ne _ _ ea] at he
      have := hr.id a ‹w.staking.provers a = true›
      dsimp only at he; omega
    · rw [upd_ne _ _ ea, upd_ne _ _ eb] at he
      exact hr.id_inj a b ha hb he
  · intro n a b
    by_cases e : n = w.staking.proverCount + 1
    · exact ⟨p, upd_same _ _ _, by rw [upd_same]; exact e.symm⟩
    · obtain ⟨q, hq, hn⟩ := hr.id_surj n a (by omega)
      exact ⟨q, by rw [upd_ne _ _ (hne hq)]; exact hq, by rw [upd_ne _ _ (hne hq)]; exact hn⟩
  · intro q hq
    rcases hcase hq with rfl | ⟨e, hq⟩
    · rw [upd_same, upd_same]
    · rw [upd_ne _ _ e]
      have ho := hr.owner q hq
      have hq0 : q ≠ 0 := by
        obtain ⟨o, n, f, rfl⟩ := hr.addr q hq
        exact (hc.create2 _ _ _).1
      rw [upd_ne _ _ (by intro e2; rw [e2, h2] at ho; exact hq0 ho.symm)]; exact ho
  · intro o ho
    by_cases e : o = c.sender
    · rw [e, upd_same, upd_same, upd_same]; exact ⟨rfl, rfl⟩
    · rw [upd_ne _ _ e] at ho ⊢
      obtain ⟨a, b⟩ := hr.owned o ho
      rw [upd_ne _ _ (hne a), upd_ne _ _ (hne a)]; exact ⟨a, b⟩
  · intro q hq
    rcases hcase hq with rfl | ⟨e, hq⟩
    · rw [upd_same]; exact h1
    · rw [upd_ne _ _ e]; exact hr.fee q hq

theorem Registry.exec {cfg : Cfg} (hc : cfg.WF) {c : Ctx} {k : Call} {w w' : World} (hr : Registry cfg w)
    (h : Verif.exec cfg c k w = .ok ((), w')) : Registry cfg w' := by
  by_cases hk : ∃ f, k = .createProver f
  · obtain ⟨f, rfl⟩ := hk
    replace h := drop_ok.mp h
    obtain ⟨p, h⟩ := h
    exact hr.create hc h
  · exact hr.congr ((exec_frames h).1 fun f e => hk ⟨f, e⟩)

theorem Registry.reachable {cfg : Cfg} (hc : cfg.WF) : ∀ w, Reachable cfg w → Registry cfg w :=
  reachable_induction (fun _ h => Registry.genesis h) (fun _ _ _ _ hr _ h => hr.exec hc h)

/-- No prover is one of the fixed contracts. -/
theorem Registry.ne {cfg : Cfg} (hc : cfg.WF) {w : World} (hr : Registry cfg w) {p : Address}
    (hp : w.staking.provers p = true) :
    p ≠ 0 ∧ p ≠ cfg.prove ∧ p ≠ cfg.iprove ∧ p ≠ cfg.staking ∧ p ≠ cfg.vapp := by
  obtain ⟨o, n, f, rfl⟩ := hr.addr p hp
  exact hc.create2 o n f

theorem Registry.outsider {cfg : Cfg} {w : World} (hr : Registry cfg w) {s : Address} (hs : ¬ cfg.System s) :
    s ≠ cfg.staking ∧ s ≠ cfg.vapp ∧ w.staking.provers s = false := by
  refine ⟨fun e => hs (Or.inr (Or.inr (Or.inl e))), fun e => hs (Or.inr (Or.inr (Or.inr (Or.inl e)))), ?_⟩
  cases hp : w.staking.provers s with
  | false => rfl
  | true => exact absurd (Or.inr (Or.inr (Or.inr (Or.inr (hr.addr s hp))))) hs

/-! ## Calls outside the staking contract -/

/-- What calls that do not touch the staking contract may do to the staked tokens. -/
structure Quiet (w w' : World) : Prop where
  staking : w'.staking = w.staking
  info : w'.info = w.info
  vault_bal : ∀ p, (w'.vault p).bal = (w.vault p).bal
  vault_supply : ∀ p, (w'.vault p).supply = (w.vault p).supply
  st_bal : w'.st.bal = w.st.bal
  st_supply : w'.st.supply = w.st.supply
  iprove_mono : ∀ a, w.iprove.bal a ≤ w'.iprove.bal a
  iprove_other : ∀ a, w.staking.provers a = false → w'.iprove.bal a = w.iprove.bal a
  iprove_balanced : w.iprove.Balanced → w'.iprove.Balanced

theorem Quiet.refl (w : World) : Quiet w w :=
  ⟨rfl, rfl, fun _ => rfl, fun _ => rfl, rfl, rfl, fun _ => Nat.le_refl _, fun _ _ => rfl, id⟩

theorem Quiet.trans {a b c : World} (h : Quiet a b) (g : Quiet b c) : Quiet a c where
  staking := g.staking.trans h.staking
  info := g.info.trans h.info
  vault_bal p := (g.vault_bal p).trans (h.vault_bal p)
  vault_supply p := (g.vault_supply p).trans (h.vault_supply p)
  st_bal := g.st_bal.trans h.st_bal
  st_supply := g.st_supply.trans h.st_supply
  iprove_mono x := Nat.le_trans (h.iprove_mono x) (g.iprove_mono x)
  iprove_other x hx := (g.iprove_other x (by rw [h.staking]; exact hx)).trans (h.iprove_other x hx)
  iprove_balanced hb := g.iprove_balanced (h.iprove_balanced hb)

/-- Nothing but $PROVE and the vApp contract changes. -/
theorem Quiet.prove {w : World} (t : Erc20) (o : Address) (v : VApp) :
    Quiet w { w with prove := t, proveOwner := o, vapp := v } :=
  ⟨rfl, rfl, fun _ => rfl, fun _ => rfl, rfl, rfl, fun _ => Nat.le_refl _, fun _ _ => rfl, id⟩

theorem MayMove.outsider {cfg : Cfg} {w : World} (hr : Registry cfg w) {s f t : Address} (hs : ¬ cfg.System s)
    (h : MayMove cfg w s f t) : False := by
  obtain ⟨a, b, c⟩ := hr.outsider hs
  rcases h with h | ⟨h, _⟩ | ⟨h, _⟩
  · exact a h
  · rw [c] at h; exact nomatch h
  · exact b h

/-- The relation `Quiet`, under the condition that the vApp contract is no prover. -/
def QuietIf (cfg : Cfg) (w w' : World) : Prop :=
  w'.staking = w.staking ∧ (cfg.vapp ≠ cfg.staking → w.staking.provers cfg.vapp = false → Quiet w w')

theorem QuietIf.pre (cfg : Cfg) : Pre (QuietIf cfg) where
  refl w := ⟨rfl, fun _ _ => Quiet.refl w⟩
  trans _ _ _ h g := ⟨g.1.trans h.1, fun a b => (h.2 a b).trans (g.2 a (by rw [h.1]; exact b))⟩

theorem processWithdraw_quiet (cfg : Cfg) (c : Ctx) (to : Address) (a : Nat) :
    Within (QuietIf cfg) (processWithdraw cfg c to a) := by
  intro w u w' h
  simp only [processWithdraw, bind_ok, get_ok] at h
  obtain ⟨_, _, ⟨rfl, rfl⟩, h⟩ := h
  split at h
  · simp only [bind_ok, pure_ok] at h
    obtain ⟨n, _, h, _, rfl⟩ := h
    obtain ⟨_, hm, t1, t2, t3, _, _, h3, _, rfl⟩ := iproveDeposit_ok h
    refine ⟨rfl, fun hv hp => ?_⟩
    rcases hm with e | ⟨e, _⟩ | ⟨_, _, e⟩
    · exact absurd e hv
    · rw [hp] at e; exact nomatch e
    · obtain ⟨_, _, rfl⟩ := Erc20.mint_ok h3
      refine ⟨rfl, rfl, fun _ => rfl, fun _ => rfl, rfl, rfl, ?_, ?_, fun hb => hb.mint h3⟩
      · intro x; dsimp only
        by_cases ex : x = to
        · rw [ex, upd_same]; omega
        · rw [upd_ne _ _ ex]; exact Nat.le_refl _
      · intro x hx; dsimp only
        rw [upd_ne _ _ (by rintro rfl; rw [e] at hx; exact nomatch hx)]
  · obtain ⟨t, _, rfl⟩ := proveTransfer_ok h
    exact ⟨rfl, fun _ _ => Quiet.prove _ _ _⟩

theorem handleReceipts_quiet (cfg : Cfg) (c : Ctx) (rs : List SolReceipt) :
    Within (QuietIf cfg) (handleReceipts cfg c rs) := by
  induction rs with
  | nil => exact Within.pure (QuietIf.pre cfg) ()
  | cons r rs ih =>
    unfold handleReceipts
    split
    · refine Within.bind (QuietIf.pre cfg) ?_ (fun _ => ih)
      intro w u w' h
      obtain ⟨_, _, _, _, _, rfl⟩ := handleOnchain_ok h
      exact ⟨rfl, fun _ _ => Quiet.prove _ _ _⟩
    · refine Within.bind (QuietIf.pre cfg) ?_ (fun _ => ih)
      intro w u w' h
      simp only [handleOffchain, bind_ok, requireFinal_ok] at h
      obtain ⟨_, _, ⟨_, rfl⟩, h⟩ := h
      split at h
      · obtain ⟨_, rfl⟩ := pure_ok.mp h
        exact (QuietIf.pre cfg).refl _
      · split at h
        · simp only [bind_ok, liftO_ok] at h
          obtain ⟨d, _, ⟨_, rfl⟩, h⟩ := h
          exact processWithdraw_quiet cfg c _ _ _ _ _ h
        · exact (throw_ok.mp h).elim

theorem vappPermitAndDeposit_ok {cfg : Cfg} {signer f : Address} {v : U256} {id : U64} {w w' : World}
    (h : vappPermitAndDeposit cfg signer f v w = .ok (id, w')) :
    w.vapp.paused = false ∧ ∃ t0, ((w.prove.allow f cfg.vapp = v.toNat ∧ t0 = w.prove) ∨
      (signer = f ∧ w.prove.approve f cfg.vapp v.toNat = .ok t0)) ∧
      vappDepositFrom cfg f v { w with prove := t0 } = .ok (id, w') := by
  simp only [vappPermitAndDeposit, bind_ok, get_ok, whenNotPaused_ok] at h
  obtain ⟨_, _, ⟨h1, rfl⟩, _, _, ⟨rfl, rfl⟩, h⟩ := h
  split at h
  · simp only [bind_ok] at h
    obtain ⟨_, _, h2, h3⟩ := h
    obtain ⟨hs, t0, b1, rfl⟩ := provePermit_ok h2
    exact ⟨h1, t0, Or.inr ⟨hs, b1⟩, h3⟩
  · rename_i hal
    exact ⟨h1, _, Or.inl ⟨Classical.byContradiction fun e => hal e, rfl⟩, h⟩

theorem exec_quiet {cfg : Cfg} (hc : cfg.WF) {c : Ctx} {k : Call} {w w' : World} (hr : Registry cfg w)
    (ha : Admissible cfg (c, k)) (hk : k.touchesStaking = false) (h : exec cfg c k w = .ok ((), w')) : Quiet w w' := by
  have hv : cfg.vapp ≠ cfg.staking ∧ w.staking.provers cfg.vapp = false := by
    have hd := hc.distinct
    refine ⟨fun e => ?_, ?_⟩
    · rw [e] at hd; simp at hd
    · cases hp : w.staking.provers cfg.vapp with
      | false => rfl
      | true => exact absurd rfl (hr.ne hc hp).2.2.2.2
  have tq : ∀ {p : Address} {t : Erc20}, t.bal = (w.vault p).bal → t.supply = (w.vault p).supply →
      Quiet w { w with vault := upd w.vault p t } := by
    intro p t e1 e2
    refine ⟨rfl, rfl, fun q => ?_, fun q => ?_, rfl, rfl, fun _ => Nat.le_refl _, fun _ _ => rfl, id⟩
    all_goals
      show _ = _
      dsimp only
      by_cases e : q = p
      · rw [e, upd_same]; assumption
      · rw [upd_ne _ _ e]
  have iq : ∀ {t : Erc20}, t.bal = w.iprove.bal → t.supply = w.iprove.supply → Quiet w { w with iprove := t } := by
    intro t e1 e2
    refine ⟨rfl, rfl, fun q => rfl, fun q => rfl, rfl, rfl, fun a => ?_, fun a _ => ?_, fun hb => ?_⟩
    · dsimp only; rw [e1]; exact Nat.le_refl _
    · dsimp only; rw [e1]
    · unfold Erc20.Balanced at *; rw [e1, e2]; exact hb
  cases k
  case proveTransfer to v =>
    obtain ⟨t, _, rfl⟩ := proveTransfer_ok h
    exact Quiet.prove _ _ _
  case proveTransferFrom f to v =>
    obtain ⟨_, t, _, _, rfl⟩ := proveTransferFrom_ok h
    exact Quiet.prove _ _ _
  case proveApprove s v =>
    simp only [exec, onProve_ok] at h
    obtain ⟨t, _, rfl⟩ := h
    exact Quiet.prove _ _ _
  case provePermit a b d v =>
    obtain ⟨_, t, _, rfl⟩ := provePermit_ok h
    exact Quiet.prove _ _ _
  case proveMint to v =>
    simp only [exec, bind_ok, get_ok, require_ok, onProve_ok] at h
    obtain ⟨_, _, ⟨rfl, rfl⟩, _, _, ⟨_, rfl⟩, t, _, rfl⟩ := h
    exact Quiet.prove _ _ _
  case proveBurn v =>
    simp only [exec, onProve_ok] at h
    obtain ⟨t, _, rfl⟩ := h
    exact Quiet.prove _ _ _
  case proveBurnFrom f v =>
    simp only [exec, bind_ok, onProve_ok] at h
    obtain ⟨_, _, ⟨_, _, rfl⟩, t, _, rfl⟩ := h
    exact Quiet.prove _ _ _
  case proveSetOwner a =>
    simp only [exec, bind_ok, get_ok, require_ok, modify_ok] at h
    obtain ⟨_, _, ⟨rfl, rfl⟩, _, _, ⟨_, rfl⟩, rfl⟩ := h
    exact Quiet.prove _ _ _
  case iproveTransfer to v =>
    exact (MayMove.outsider hr ha (iproveMove_ok h).1).elim
  case iproveTransferFrom f to v =>
    simp only [exec, bind_ok] at h
    obtain ⟨_, _, h1, h2⟩ := h
    obtain ⟨t, _, rfl⟩ := iproveSpend_ok h1
    exact (MayMove.outsider hr ha (iproveMove_ok h2).1).elim
  case iproveApprove s v =>
    simp only [exec, onIprove_ok] at h
    obtain ⟨t, ht, rfl⟩ := h
    obtain ⟨_, _, rfl⟩ := Erc20.approve_ok ht
    exact iq rfl rfl
  case iprovePermit a b d v =>
    simp only [exec, bind_ok, require_ok, onIprove_ok] at h
    obtain ⟨_, _, ⟨_, rfl⟩, t, ht, rfl⟩ := h
    obtain ⟨_, _, rfl⟩ := Erc20.approve_ok ht
    exact iq rfl rfl
  case iproveDeposit a r =>
    replace h := drop_ok.mp h
    obtain ⟨_, h⟩ := h
    exact (MayMove.outsider hr ha (iproveDeposit_ok h).2.1).elim
  case iproveMint s r =>
    replace h := drop_ok.mp h
    obtain ⟨_, h⟩ := h
    simp only [iproveMintExact, bind_ok, get_ok, add256_ok, mulDivUp_ok, pure_ok] at h
    obtain ⟨_, _, ⟨rfl, rfl⟩, _, _, ⟨_, rfl, rfl⟩, _, _, ⟨_, rfl, rfl⟩, _, _, ⟨_, _, rfl, rfl⟩, _, _, h1, _, _, h2, _, rfl⟩ := h
    obtain ⟨_, _, _, _, rfl⟩ := proveTransferFrom_ok h1
    exact (MayMove.outsider hr ha (iproveMint_ok h2).1).elim
  case iproveWithdraw a r o =>
    replace h := drop_ok.mp h
    obtain ⟨_, h⟩ := h
    simp only [iproveWithdraw, bind_ok, get_ok, require_ok, add256_ok, mulDivUp_ok] at h
    obtain ⟨_, _, ⟨rfl, rfl⟩, _, _, hp, _, _, ⟨_, rfl⟩, _, _, ⟨rfl, rfl⟩, _, _, ⟨_, rfl, rfl⟩, _, _, ⟨_, rfl, rfl⟩,
      _, _, ⟨_, _, rfl, rfl⟩, h⟩ := h
    obtain ⟨_, rfl⟩ := iprovePreviewRedeem_ok hp
    split at h
    · rw [bind_ok] at h
      obtain ⟨_, _, h1, h⟩ := h
      obtain ⟨t, _, rfl⟩ := iproveSpend_ok h1
      rw [bind_ok] at h
      obtain ⟨_, _, h2, _⟩ := h
      exact (MayMove.outsider hr ha (iproveBurnShares_ok h2).1).elim
    · rw [bind_ok] at h
      obtain ⟨_, _, h2, _⟩ := h
      exact (MayMove.outsider hr ha (iproveBurnShares_ok h2).1).elim
  case iproveRedeem s r o =>
    replace h := drop_ok.mp h
    obtain ⟨_, h⟩ := h
    exact (MayMove.outsider hr ha (iproveRedeem_ok h).2.2.1).elim
  case iproveBurn f v =>
    replace h := drop_ok.mp h
    obtain ⟨_, h⟩ := h
    exact absurd (iproveBurn_ok h).1 (hr.outsider ha).1
  case vaultTransfer p to v =>
    simp only [exec, bind_ok, vaultCheck_ok] at h
    obtain ⟨_, _, _, _, _, ⟨h1, _⟩, _⟩ := h
    exact absurd h1 (hr.outsider ha).1
  case vaultTransferFrom p f to v =>
    simp only [exec, bind_ok, vaultCheck_ok] at h
    obtain ⟨_, _, _, _, _, _, _, _, ⟨h1, _⟩, _⟩ := h
    exact absurd h1 (hr.outsider ha).1
  case vaultApprove p s v =>
    simp only [exec, bind_ok, isVault_ok, onVault_ok] at h
    obtain ⟨_, _, ⟨_, rfl⟩, t, ht, rfl⟩ := h
    obtain ⟨_, _, rfl⟩ := Erc20.approve_ok ht
    exact tq rfl rfl
  case vaultDeposit p a r =>
    simp only [exec, bind_ok, isVault_ok, drop_ok] at h
    obtain ⟨_, _, ⟨_, rfl⟩, n, h⟩ := h
    exact absurd (vaultDeposit_ok h).2.1 (hr.outsider ha).1
  case vaultMint p s r =>
    simp only [exec, bind_ok, isVault_ok, drop_ok, vaultMintExact, vaultCheck_ok] at h
    obtain ⟨_, _, ⟨_, rfl⟩, n, _, _, _, _, _, _, _, _, _, _, _, _, _, _, _, _, _, _, _, _, ⟨h1, _⟩, _⟩ := h
    exact absurd h1 (hr.outsider ha).1
  case vaultWithdraw p a r o =>
    simp only [exec, bind_ok, isVault_ok, drop_ok, vaultWithdraw, get_ok, add256_ok, mulDiv_ok, mulDivUp_ok, require_ok] at h
    obtain ⟨_, _, ⟨_, rfl⟩, n, _, _, ⟨rfl, rfl⟩, _, _, ⟨_, rfl, rfl⟩, _, _, ⟨_, rfl, rfl⟩, _, _, ⟨_, _, rfl, rfl⟩,
      _, _, ⟨_, rfl⟩, _, _, ⟨_, _, rfl, rfl⟩, h⟩ := h
    split at h
    · rw [bind_ok] at h
      obtain ⟨_, _, _, h⟩ := h
      rw [bind_ok] at h
      obtain ⟨_, _, h1, _⟩ := h
      exact absurd (vaultCheck_ok.mp h1).1 (hr.outsider ha).1
    · rw [bind_ok] at h
      obtain ⟨_, _, h1, _⟩ := h
      exact absurd (vaultCheck_ok.mp h1).1 (hr.outsider ha).1
  case vaultRedeem p s r o =>
    simp only [exec, bind_ok, isVault_ok, drop_ok] at h
    obtain ⟨_, _, ⟨_, rfl⟩, n, h⟩ := h
    exact absurd (vaultRedeem_ok h).2.2.1 (hr.outsider ha).1
  case vaultTransferProve p f v =>
    simp only [exec, bind_ok, isVault_ok] at h
    obtain ⟨_, _, ⟨_, rfl⟩, h⟩ := h
    exact absurd (transferProveToStaking_ok h).1 (hr.outsider ha).1
  case stTransfer to v =>
    simp only [exec, onSt_ok] at h
    exact nomatch h.1
  case stTransferFrom f to v =>
    simp only [exec, bind_ok, onSt_ok] at h
    obtain ⟨_, _, _, _, _, _, _, _, _, h, _⟩ := h
    exact nomatch h
  case stApprove s v =>
    simp only [exec, bind_ok, get_ok, lift_ok, modify_ok] at h
    obtain ⟨_, _, ⟨rfl, rfl⟩, t, _, ⟨ht, rfl⟩, rfl⟩ := h
    obtain ⟨_, _, rfl⟩ := Erc20.approve_ok ht
    exact ⟨rfl, rfl, fun q => rfl, fun q => rfl, rfl, rfl, fun a => Nat.le_refl _, fun a _ => rfl, id⟩
  case deposit v =>
    replace h := drop_ok.mp h
    obtain ⟨_, h⟩ := h
    simp only [vappDeposit, bind_ok, whenNotPaused_ok] at h
    obtain ⟨_, _, ⟨_, rfl⟩, h⟩ := h
    obtain ⟨_, _, _, _, _, _, rfl⟩ := vappDepositFrom_ok h
    exact Quiet.prove _ _ _
  case permitAndDeposit s f v =>
    replace h := drop_ok.mp h
    obtain ⟨_, h⟩ := h
    obtain ⟨_, t0, _, h⟩ := vappPermitAndDeposit_ok h
    obtain ⟨_, _, _, _, _, _, rfl⟩ := vappDepositFrom_ok h
    exact Quiet.prove _ _ _
  case vappCreateProver p o f =>
    replace h := drop_ok.mp h
    obtain ⟨_, h⟩ := h
    obtain ⟨_, _, _, _, _, rfl⟩ := vappCreateProver_ok h
    exact Quiet.prove _ _ _
  case step pv pr =>
    replace h := drop_ok.mp h
    obtain ⟨x, h⟩ := h
    obtain ⟨_, _, _, v, _, _, _, _, _, _, _, _, h⟩ := vappStep_ok h
    have := (handleReceipts_quiet cfg c v.receipts _ _ _ h).2 hv.1 hv.2
    exact (Quiet.prove (w := w) _ _ _).trans this
  case fork a b =>
    replace h := drop_ok.mp h
    obtain ⟨x, h⟩ := h
    obtain ⟨_, _, _, _, rfl⟩ := vappFork_ok h
    exact Quiet.prove _ _ _
  all_goals first
    | (exact nomatch (show true = false from hk))
    | (have := (exec_params h rfl).2.2
       rw [this]; exact Quiet.prove _ _ _)

end Verif
