import Verif.EventTold2
/-
# The log tells what a call does: slashing, dispensing, and all calls
-/

namespace Verif
open L1 LM

theorem slashBurnE_q (cfg : Cfg) (p : Address) (t x : Nat) : Silent (slashBurnE cfg p t x) := by
  unfold slashBurnE
  q
  all_goals exact modStaking_q fun w => rfl

theorem slashBurnE_ok {cfg : Cfg} {p : Address} {t x : Nat} {b : Nat × Nat} {w w' : World}
    (h : slashBurnE cfg p t x w = .ok (b, w')) : slashBurn cfg p t x w = .ok (b.2, w') := by
  rw [← slashBurnE_snd, bind_ok]
  exact ⟨b, w', h, pure_ok.mpr ⟨rfl, rfl⟩⟩

theorem read_slash {s : Seen} {p : Address} {i v x y : Nat} (h : s.slash p i = some (v, false)) :
    s.read (.slash p x y i) =
      s.withSlash fun a => if a = p then fun j => if j = i then some (v, true) else s.slash p j else s.slash a := by
  have e : (fun a => if a = p then fun j => if j = i then (s.slash p i).map (fun y => (y.1, true)) else s.slash p j
      else s.slash a) = fun a => if a = p then fun j => if j = i then some (v, true) else s.slash p j else s.slash a := by
    rw [h]; rfl
  rw [← e]
  rfl

theorem finishSlashE_told (cfg : Cfg) (c : Ctx) (p : Address) (i : Nat) : Told (finishSlashE cfg c p i) := by
  intro w a w' es h
  simp only [finishSlashE, liftBind_ok, get_ok, require_ok, stakingOnlyOwner_ok, onlyForProver_ok, liftO_ok, add256_ok,
    resolveSlash, modStaking_ok] at h
  obtain ⟨_, _, ⟨_, rfl⟩, _, _, ⟨h1, rfl⟩, _, _, ⟨rfl, rfl⟩, claim, _, ⟨h2, rfl⟩, _, _, ⟨h3, rfl⟩, _, _, ⟨rfl, rfl⟩,
    _, w, ⟨_, rfl, rfl⟩, _, _, rfl, h⟩ := h
  have hres := resolve_slash w p i claim h2
  have hopen : w.seen.slash p i = some (claim.iPROVE, false) := by
    show Option.map _ _[_]? = _
    rw [h2]
    show some (_, claim.resolved) = _
    rw [h3]
  have hreg : w.seen.prover p ≠ none := by
    show (if _ = true then _ else _) ≠ none
    rw [if_pos h1]; exact nofun
  have tail : ∀ {w1 : World} {es : List Ev} {b : Nat × Nat},
      w1.seen = World.seen { w with staking := w.staking.resolve p i claim } → b.2 ≤ claim.iPROVE →
      (do
        emit (.slash p b.1 b.2 i)
        deactivateIfBelowMinE p
        return b.2 : LM Nat) w1 = .ok (a, w', es) → w.seen.fitsAll es ∧ w.seen.readAll es = w'.seen := by
    intro w1 es b hs hb h
    obtain ⟨es', h4, rfl⟩ := emitBind_ok.mp h
    obtain ⟨_, w2, f1, f2, h5, h6, rfl⟩ := bindE_ok.mp h4
    obtain ⟨_, rfl, rfl⟩ := pureE_ok.mp h6
    have hp1 : w1.staking.provers p = true := by
      have hx : w1.seen.prover p ≠ none := by rw [hs]; exact hreg
      cases hc : w1.staking.provers p with
      | true => rfl
      | false =>
        refine absurd ?_ hx
        show (if _ = true then _ else _) = none
        rw [hc]; rfl
    have hd := deactivateIfBelowMinE_told p w1 hp1 h5
    have hread : w.seen.read (.slash p b.1 b.2 i) = w1.seen := by
      rw [hs, hres, read_slash hopen]
      rfl
    rw [List.append_nil]
    refine ⟨⟨⟨hreg, claim.iPROVE, hopen, hb⟩, ?_⟩, ?_⟩
    · rw [hread]; exact hd.1
    · rw [Seen.readAll_cons, hread]; exact hd.2
  have hle : (if w.iprove.bal p + (w.staking.escrowPools p).iPROVEEscrow < claim.iPROVE then
      w.iprove.bal p + (w.staking.escrowPools p).iPROVEEscrow else claim.iPROVE) ≤ claim.iPROVE := by
    split <;> omega
  generalize (if w.iprove.bal p + (w.staking.escrowPools p).iPROVEEscrow < claim.iPROVE then
      w.iprove.bal p + (w.staking.escrowPools p).iPROVEEscrow else claim.iPROVE) = x at h hle
  split at h
  · obtain ⟨b, w1, h6, h5⟩ := liftBind_ok.mp h
    have hq := slashBurnE_q _ _ _ _ _ _ _ h6
    have hb := (slashBurn_ok (slashBurnE_ok h6)).1
    refine tail hq ?_ h5
    rw [hb]
    exact hle
  · obtain ⟨b, w1, e1, e2, h4, h5, rfl⟩ := bindE_ok.mp h
    obtain ⟨rfl, rfl, rfl⟩ := pureE_ok.mp h4
    exact tail rfl (Nat.zero_le _) h5

theorem dispenseE_told (cfg : Cfg) (c : Ctx) (n : Nat) : Told (dispenseE cfg c n) := by
  intro w a w' es h
  simp only [dispenseE, liftBind_ok, get_ok, require_ok, add256_ok, modStaking_ok, emit_ok] at h
  obtain ⟨_, _, ⟨rfl, rfl⟩, _, _, ⟨_, rfl⟩, av, _, hm, _, _, ⟨h2, rfl⟩, _, _, ⟨h3, rfl⟩, _, _, ⟨rfl, rfl⟩,
    _, _, ⟨_, rfl, rfl⟩, _, _, rfl, _, _, h4, rfl, rfl⟩ := h
  obtain ⟨rfl, _, _, rfl⟩ := maxDispense_ok hm
  have e := proveTransfer_q _ _ _ _ _ _ h4
  exact ⟨Seen.fitsAll_one h2, e.symm⟩

theorem setDispenserE_told (c : Ctx) (a : Address) : Told (setDispenserE c a) := by
  intro w u w' es h
  simp only [setDispenserE, liftBind_ok, emitBind_ok, get_ok, stakingOnlyOwner_ok, modStaking_ok, liftE_ok] at h
  obtain ⟨_, _, ⟨h1, rfl⟩, _, _, ⟨rfl, rfl⟩, _, ⟨rfl, rfl⟩, rfl⟩ := h
  exact ⟨Seen.fitsAll_one rfl, rfl⟩
theorem updateDispenseRateE_told (c : Ctx) (n : Nat) : Told (updateDispenseRateE c n) := by
  intro w u w' es h
  simp only [updateDispenseRateE, liftBind_ok, emit_ok, get_ok] at h
  obtain ⟨_, _, ⟨rfl, rfl⟩, _, _, h1, rfl, rfl⟩ := h
  obtain ⟨_, _, rfl⟩ := updateDispenseRate_ok h1
  exact ⟨Seen.fitsAll_one rfl, rfl⟩
theorem stakingSetOwnerE_told (c : Ctx) (a : Address) : Told (stakingSetOwnerE c a) := by
  intro w u w' es h
  simp only [stakingSetOwnerE, stakingSetOwner, liftBind_ok, bind_ok, emit_ok, get_ok, stakingOnlyOwner_ok, modStaking_ok] at h
  obtain ⟨_, _, ⟨rfl, rfl⟩, _, _, ⟨_, _, ⟨_, rfl⟩, rfl⟩, rfl, rfl⟩ := h
  exact ⟨Seen.fitsAll_one rfl, rfl⟩

/-! ## Tokens -/

theorem stTransfer_q (f) : Silent (onSt false f) := by
  intro w _ w' h
  exact absurd (onSt_ok.mp h).1 nofun

theorem stApprove_q (o s : Address) (v : Nat) :
    Silent (do
      let t ← lift ((← get).st.approve o s v)
      modify fun w => { w with st := t }) := by
  intro w _ w' h
  simp only [bind_ok, get_ok, lift_ok, modify_ok] at h
  obtain ⟨_, _, ⟨rfl, rfl⟩, t, _, ⟨h1, rfl⟩, rfl⟩ := h
  obtain ⟨_, _, rfl⟩ := Erc20.approve_ok h1
  rfl

theorem stTransferFrom_q (o s to : Address) (v : Nat) :
    Silent (do
      let t ← lift ((← get).st.spend o s v)
      modify fun w => { w with st := t }
      onSt false (·.transfer o to v)) := by
  intro w _ w' h
  simp only [bind_ok, onSt_ok] at h
  obtain ⟨_, _, _, _, _, _, _, _, _, hf, _⟩ := h
  exact absurd hf nofun

theorem proveSetOwner_q (c : Ctx) (a : Address) :
    Silent (do
      require (c.sender = (← get).proveOwner) .ownableUnauthorized
      modify fun w => { w with proveOwner := a }) := by
  intro w _ w' h
  simp only [bind_ok, get_ok, require_ok, modify_ok] at h
  obtain ⟨_, _, ⟨rfl, rfl⟩, _, _, ⟨h1, rfl⟩, rfl⟩ := h
  rfl

theorem Told.quiet {α : Type} {m : L1 α} (h : Silent m) : Told (LM.quiet m) := Told.lift h

/-- Of every call: the events fit the record before, and reading them gives the record after. -/
theorem execE_told (cfg : Cfg) (c : Ctx) (k : Call) : Told (execE cfg c k) := by
  cases k
  case deposit => exact Told.drop (vappDepositE_told _ _ _)
  case permitAndDeposit => exact Told.drop (vappPermitAndDepositE_told _ _ _ _)
  case vappCreateProver => exact Told.drop (vappCreateProverE_told _ _ _ _ _)
  case step => exact Told.drop (vappStepE_told _ _ _ _)
  case fork => exact Told.drop (vappForkE_told _ _ _)
  case updateAuctioneer => exact vappUpdateAuctioneerE_told _ _
  case updateStaking => exact vappUpdateStakingE_told _ _
  case updateVerifier => exact vappUpdateVerifierE_told _ _
  case updateMinDeposit => exact vappUpdateMinDepositE_told _ _
  case pause => exact vappPauseE_told _
  case unpause => exact vappUnpauseE_told _
  case vappSetOwner => exact vappSetOwnerE_told _ _
  case createProver => exact Told.drop (createProverE_told _ _ _)
  case stake => exact Told.drop (stakeE_told _ _ _ _)
  case permitAndStake => exact Told.drop (permitAndStakeE_told _ _ _ _ _)
  case requestUnstake => exact requestUnstakeE_told _ _ _
  case finishUnstake => exact Told.drop (finishUnstakeE_told _ _ _)
  case requestSlash => exact Told.drop (requestSlashE_told _ _ _ _)
  case cancelSlash => exact cancelSlashE_told _ _ _
  case finishSlash => exact Told.drop (finishSlashE_told _ _ _ _)
  case dispense => exact dispenseE_told _ _ _
  case setDispenser => exact setDispenserE_told _ _
  case updateDispenseRate => exact updateDispenseRateE_told _ _
  case stakingSetOwner => exact stakingSetOwnerE_told _ _
  case proveSetOwner => exact Told.quiet (proveSetOwner_q _ _)
  case stTransfer => unfold execE; refine Told.quiet ?_; unfold exec; exact stTransfer_q _
  case stTransferFrom => unfold execE; refine Told.quiet ?_; unfold exec; exact stTransferFrom_q _ _ _ _
  case stApprove => unfold execE; refine Told.quiet ?_; unfold exec; exact stApprove_q _ _ _
  all_goals
    unfold execE
    refine Told.quiet ?_
    unfold exec
    q

/-! ## Without the events -/

theorem erase_updateAuctioneer (c : Ctx) (a : Address) : erase (vappUpdateAuctioneerE c a) = vappUpdateAuctioneer c a := by
  unfold vappUpdateAuctioneerE vappUpdateAuctioneer; erase_simp; rfl
theorem erase_updateStaking (c : Ctx) (a : Address) : erase (vappUpdateStakingE c a) = vappUpdateStaking c a := by
  unfold vappUpdateStakingE vappUpdateStaking; erase_simp; rfl
theorem erase_updateVerifier (c : Ctx) (a : Address) : erase (vappUpdateVerifierE c a) = vappUpdateVerifier c a := by
  unfold vappUpdateVerifierE vappUpdateVerifier; erase_simp; rfl
theorem erase_updateMinDeposit (c : Ctx) (v : Nat) : erase (vappUpdateMinDepositE c v) = vappUpdateMinDeposit c v := by
  unfold vappUpdateMinDepositE vappUpdateMinDeposit; erase_simp; rfl
theorem erase_pause (c : Ctx) : erase (vappPauseE c) = vappPause c := by
  unfold vappPauseE; erase_simp
theorem erase_unpause (c : Ctx) : erase (vappUnpauseE c) = vappUnpause c := by
  unfold vappUnpauseE; erase_simp
theorem erase_vappSetOwner (c : Ctx) (a : Address) : erase (vappSetOwnerE c a) = vappSetOwner c a := by
  unfold vappSetOwnerE; erase_simp; rfl
theorem erase_setDispenser (c : Ctx) (a : Address) : erase (setDispenserE c a) = setDispenser c a := by
  unfold setDispenserE setDispenser; erase_simp; rfl
theorem erase_updateDispenseRate (c : Ctx) (v : Nat) : erase (updateDispenseRateE c v) = updateDispenseRate c v := by
  unfold updateDispenseRateE; erase_simp; rfl
theorem erase_stakingSetOwner (c : Ctx) (a : Address) : erase (stakingSetOwnerE c a) = stakingSetOwner c a := by
  unfold stakingSetOwnerE; erase_simp; rfl

/-- Apart from the events, `execE` is `exec`. -/
theorem execE_erase (cfg : Cfg) (c : Ctx) (k : Call) : erase (execE cfg c k) = exec cfg c k := by
  cases k <;> unfold execE
  case deposit => unfold exec; rw [erase_dropE, erase_vappDeposit]
  case permitAndDeposit => unfold exec; rw [erase_dropE, erase_vappPermitAndDeposit]
  case vappCreateProver => unfold exec; rw [erase_dropE, erase_vappCreateProver]
  case step => unfold exec; rw [erase_dropE, erase_vappStep]
  case fork => unfold exec; rw [erase_dropE, erase_vappFork]
  case updateAuctioneer => exact erase_updateAuctioneer _ _
  case updateStaking => exact erase_updateStaking _ _
  case updateVerifier => exact erase_updateVerifier _ _
  case updateMinDeposit => exact erase_updateMinDeposit _ _
  case pause => exact erase_pause _
  case unpause => exact erase_unpause _
  case vappSetOwner => exact erase_vappSetOwner _ _
  case createProver => unfold exec; rw [erase_dropE, erase_createProver]
  case stake => unfold exec; rw [erase_dropE, erase_stake]
  case permitAndStake => unfold exec; rw [erase_dropE, erase_permitAndStake]
  case requestUnstake => exact erase_requestUnstake _ _ _
  case finishUnstake => unfold exec; rw [erase_dropE, erase_finishUnstake]
  case requestSlash => unfold exec; rw [erase_dropE, erase_requestSlash]
  case cancelSlash => exact erase_cancelSlash _ _ _
  case finishSlash => unfold exec; rw [erase_dropE, erase_finishSlash]
  case dispense => exact erase_dispense _ _ _
  case setDispenser => exact erase_setDispenser _ _
  case updateDispenseRate => exact erase_updateDispenseRate _ _
  case stakingSetOwner => exact erase_stakingSetOwner _ _
  all_goals exact erase_quiet _

theorem execE_exec {cfg : Cfg} {c : Ctx} {k : Call} {w w' : World} {u : Unit} {es : List Ev}
    (h : execE cfg c k w = .ok (u, w', es)) : exec cfg c k w = .ok (u, w') := by
  rw [← execE_erase]
  unfold erase
  rw [h]

theorem exec_execE {cfg : Cfg} {c : Ctx} {k : Call} {w w' : World} {u : Unit}
    (h : exec cfg c k w = .ok (u, w')) : execE cfg c k w = .ok (u, w', callEvents cfg c k w) := by
  rw [← execE_erase] at h
  unfold erase at h
  unfold callEvents
  cases he : execE cfg c k w with
  | error e => rw [he] at h; exact nomatch h
  | ok p =>
    rcases p with ⟨a, w1, es⟩
    rw [he] at h
    cases h
    rfl

theorem call_told (cfg : Cfg) (c : Ctx) (k : Call) (w : World) :
    w.seen.fitsAll (callEvents cfg c k w) ∧ w.seen.readAll (callEvents cfg c k w) = (call cfg c k w).seen := by
  unfold call
  cases h : exec cfg c k w with
  | ok p =>
    rcases p with ⟨u, w'⟩
    exact execE_told _ _ _ _ _ _ _ (exec_execE h)
  | error e =>
    have he : callEvents cfg c k w = [] := by
      unfold callEvents
      cases h2 : execE cfg c k w with
      | error _ => rfl
      | ok p =>
        rcases p with ⟨a, w1, es⟩
        rw [execE_exec h2] at h; exact nomatch h
    rw [he]
    exact ⟨trivial, rfl⟩

theorem log_told (cfg : Cfg) (w : World) (h : List (Ctx × Call)) :
    w.seen.fitsAll (logOf cfg w h) ∧ w.seen.readAll (logOf cfg w h) = (runCalls cfg w h).seen := by
  induction h generalizing w with
  | nil => exact ⟨trivial, rfl⟩
  | cons x h ih =>
    have h1 := call_told cfg x.1 x.2 w
    have h2 := ih (call cfg x.1 x.2 w)
    rw [← h1.2] at h2
    exact ⟨Seen.fitsAll_append h1.1 h2.1, by unfold logOf; rw [Seen.readAll_append]; exact h2.2⟩

end Verif
