import Verif.L1Lemmas
/-
# Lemmas about the vApp contract
-/

namespace Verif
open L1

/-! ## What a call can touch -/

/-- Calls that write the vApp contract's storage. -/
def Call.touchesVapp : Call → Bool
  | .deposit _ | .permitAndDeposit _ _ _ | .vappCreateProver _ _ _ | .step _ _ | .fork _ _
  | .updateAuctioneer _ | .updateStaking _ | .updateVerifier _ | .updateMinDeposit _ | .pause | .unpause
  | .vappSetOwner _ | .createProver _ => true
  | _ => false

/-- Calls that write the staking contract's storage. -/
def Call.touchesStaking : Call → Bool
  | .createProver _ | .stake _ _ | .permitAndStake _ _ _ _ | .requestUnstake _ | .finishUnstake _
  | .requestSlash _ _ | .cancelSlash _ _ | .finishSlash _ _ | .dispense _ | .setDispenser _
  | .updateDispenseRate _ | .stakingSetOwner _ => true
  | _ => false

theorem tok_vapp : Tok (fun w w' => w'.vapp = w.vapp) where
  refl _ := rfl
  trans _ _ _ h1 h2 := h2.trans h1
  prove _ _ _ := rfl
  iprove _ _ := rfl
  vault _ _ := rfl
  st _ _ := rfl

theorem tok_staking : Tok (fun w w' => w'.staking = w.staking ∧ w'.info = w.info) where
  refl _ := ⟨rfl, rfl⟩
  trans _ _ _ h1 h2 := ⟨h2.1.trans h1.1, h2.2.trans h1.2⟩
  prove _ _ _ := ⟨rfl, rfl⟩
  iprove _ _ := ⟨rfl, rfl⟩
  vault _ _ := ⟨rfl, rfl⟩
  st _ _ := ⟨rfl, rfl⟩

theorem exec_vapp_frame {cfg : Cfg} {c : Ctx} {k : Call} (hk : k.touchesVapp = false) :
    Within (fun w w' => w'.vapp = w.vapp) (exec cfg c k) := by
  have hR := tok_vapp
  have ha : AllowApprove (fun w w' => w'.vapp = w.vapp) := fun _ _ _ _ _ _ => rfl
  have hs : AllowStaking (fun w w' => w'.vapp = w.vapp) := fun _ _ => rfl
  cases k <;> first | (exact nomatch (show true = false from hk)) | (unfold exec; within; try exact Within.modify fun _ => rfl)

theorem exec_staking_frame {cfg : Cfg} {c : Ctx} {k : Call} (hk : k.touchesStaking = false) :
    Within (fun w w' => w'.staking = w.staking ∧ w'.info = w.info) (exec cfg c k) := by
  have hR := tok_staking
  have ha : AllowApprove (fun w w' => w'.staking = w.staking ∧ w'.info = w.info) := fun _ _ _ _ _ _ => ⟨rfl, rfl⟩
  have hv : AllowVapp (fun w w' => w'.staking = w.staking ∧ w'.info = w.info) := fun _ _ => ⟨rfl, rfl⟩
  cases k <;> first | (exact nomatch (show true = false from hk)) | (unfold exec; within; try exact Within.modify fun _ => ⟨rfl, rfl⟩)

/-! ## Inversions -/

theorem createTransaction_ok {v : TxVariant} {d : Bytes} {id : U64} {w w' : World}
    (h : createTransaction v d w = .ok (id, w')) :
    w.vapp.currentOnchainTxId.toNat + 1 < 2 ^ 64 ∧ id = w.vapp.currentOnchainTxId + 1 ∧
      w' = { w with vapp := { w.vapp with
        currentOnchainTxId := w.vapp.currentOnchainTxId + 1
        transactions := upd w.vapp.transactions (w.vapp.currentOnchainTxId + 1)
          ⟨v, .pending, w.vapp.currentOnchainTxId + 1, d⟩ } } := by
  simp only [createTransaction, bind_ok, get_ok, inc64_ok, modVapp_ok, pure_ok] at h
  obtain ⟨_, _, ⟨rfl, rfl⟩, _, _, ⟨h1, rfl, rfl⟩, _, _, rfl, rfl, rfl⟩ := h
  exact ⟨h1, rfl, rfl⟩

theorem whenNotPaused_ok {u : Unit} {w w' : World} :
    whenNotPaused w = .ok (u, w') ↔ w.vapp.paused = false ∧ w' = w := by
  simp only [whenNotPaused, bind_ok, get_ok, require_ok]
  constructor
  · rintro ⟨_, _, ⟨rfl, rfl⟩, h, rfl⟩; exact ⟨h, rfl⟩
  · rintro ⟨h, rfl⟩; exact ⟨w', w', ⟨rfl, rfl⟩, h, rfl⟩

theorem vappOnlyOwner_ok {c : Ctx} {u : Unit} {w w' : World} :
    vappOnlyOwner c w = .ok (u, w') ↔ c.sender = w.vapp.owner ∧ w' = w := by
  simp only [vappOnlyOwner, bind_ok, get_ok, require_ok]
  constructor
  · rintro ⟨_, _, ⟨rfl, rfl⟩, h, rfl⟩; exact ⟨h, rfl⟩
  · rintro ⟨h, rfl⟩; exact ⟨w', w', ⟨rfl, rfl⟩, h, rfl⟩

theorem vappDepositFrom_ok {cfg : Cfg} {f : Address} {v : U256} {id : U64} {w w' : World}
    (h : vappDepositFrom cfg f v w = .ok (id, w')) :
    w.vapp.minDepositAmount ≤ v.toNat ∧ w.vapp.currentOnchainTxId.toNat + 1 < 2 ^ 64 ∧
      ∃ t1 t2, w.prove.spend f cfg.vapp v.toNat = .ok t1 ∧ t1.transfer f cfg.vapp v.toNat = .ok t2 ∧
      w' = { w with
        prove := t2
        vapp := { w.vapp with
          currentOnchainTxId := w.vapp.currentOnchainTxId + 1
          transactions := upd w.vapp.transactions (w.vapp.currentOnchainTxId + 1)
            ⟨.deposit, .pending, w.vapp.currentOnchainTxId + 1, (Deposit.mk f v).abi⟩ } } := by
  simp only [vappDepositFrom, bind_ok, get_ok, require_ok, pure_ok, proveTransferFrom, onProve_ok] at h
  obtain ⟨_, _, ⟨rfl, rfl⟩, _, _, ⟨hmin, rfl⟩, _, _, hc, _, _, ⟨_, _, ⟨t1, h1, rfl⟩, t2, h2, rfl⟩, _, rfl⟩ := h
  obtain ⟨hlt, _, rfl⟩ := createTransaction_ok hc
  exact ⟨hmin, hlt, t1, t2, h1, h2, rfl⟩

theorem vappCreateProver_ok {c : Ctx} {s p o : Address} {f : U256} {id : U64} {w w' : World}
    (h : vappCreateProver c s p o f w = .ok (id, w')) :
    s = w.vapp.staking ∧ w.vapp.paused = false ∧ o ≠ 0 ∧ proverOwner c w p = some o ∧
    w.vapp.currentOnchainTxId.toNat + 1 < 2 ^ 64 ∧
      w' = { w with vapp := { w.vapp with
        currentOnchainTxId := w.vapp.currentOnchainTxId + 1
        transactions := upd w.vapp.transactions (w.vapp.currentOnchainTxId + 1)
          ⟨.createProver, .pending, w.vapp.currentOnchainTxId + 1, (CreateProver.mk p o f).abi⟩ } } := by
  simp only [vappCreateProver, bind_ok, get_ok, require_ok, whenNotPaused_ok] at h
  obtain ⟨_, _, ⟨rfl, rfl⟩, _, _, ⟨h1, rfl⟩, _, _, ⟨h2, rfl⟩, _, _, ⟨h3, rfl⟩, _, _, ⟨rfl, rfl⟩, _, _, ⟨h4, rfl⟩, hc⟩ := h
  obtain ⟨hlt, _, rfl⟩ := createTransaction_ok hc
  exact ⟨h1, h2, h3, h4, hlt, rfl⟩

/-- `createProver` of the registry: its effect. -/
theorem createProver_ok {cfg : Cfg} {c : Ctx} {f : U256} {p : Address} {w w' : World}
    (h : createProver cfg c f w = .ok (p, w')) :
    f.toNat ≤ 10000 ∧ w.staking.ownerToProver c.sender = 0 ∧ c.sender ≠ 0 ∧
    p = cfg.create2 c.sender (w.staking.proverCount + 1) f.toNat ∧
    w.staking.provers p = false ∧ cfg.staking = w.vapp.staking ∧ w.vapp.paused = false ∧
    w.vapp.currentOnchainTxId.toNat + 1 < 2 ^ 64 ∧ cfg.iprove ≠ 0 ∧
    ∃ t, w.iprove.approve cfg.staking p max256 = .ok t ∧
    w' = { w with
      iprove := t
      info := upd w.info p ⟨c.sender, w.staking.proverCount + 1, f.toNat⟩
      vault := upd w.vault p Erc20.empty
      staking := { w.staking with
        proverCount := w.staking.proverCount + 1
        ownerToProver := upd w.staking.ownerToProver c.sender p
        provers := upd w.staking.provers p true }
      vapp := { w.vapp with
        currentOnchainTxId := w.vapp.currentOnchainTxId + 1
        transactions := upd w.vapp.transactions (w.vapp.currentOnchainTxId + 1)
          ⟨.createProver, .pending, w.vapp.currentOnchainTxId + 1, (CreateProver.mk p c.sender f).abi⟩ } } := by
  simp only [createProver, deployProver, bind_ok, get_ok, require_ok, modStaking_ok, modify_ok, onIprove_ok, pure_ok] at h
  obtain ⟨_, _, ⟨h1, rfl⟩, _, _, ⟨rfl, rfl⟩, _, _, ⟨h2, rfl⟩, _, _, ⟨hi, rfl⟩, _, _, rfl, _, _, ⟨rfl, rfl⟩,
    _, _, ⟨h3, rfl⟩, _, _, ⟨rfl, rfl⟩, _, _, ⟨h4, rfl⟩, _, _, rfl, _, _, rfl, _, _, hv, _, _, ⟨t, h5, rfl⟩, rfl, rfl⟩ := h
  obtain ⟨a1, a2, _, _, a5, rfl⟩ := vappCreateProver_ok hv
  exact ⟨h1, h2, h3, rfl, h4, a1, a2, a5, hi, t, h5, rfl⟩

/-! ## Receipts -/

/-- Both byte strings decode to the same action of the given variant. -/
def SameAction : TxVariant → Bytes → Bytes → Prop
  | .deposit, a, b => ∃ d, decAccountAmount a = some d ∧ decAccountAmount b = some d
  | .createProver, a, b => ∃ d, decCreateProver a = some d ∧ decCreateProver b = some d
  | .withdraw, _, _ => False

theorem assertEq_ok {t : SolTransaction} {r : SolReceipt} {u : Unit} {w w' : World}
    (h : assertEq t r w = .ok (u, w')) :
    t.variant = r.variant ∧ SameAction r.variant t.action r.action ∧ w' = w := by
  unfold assertEq at h
  cases hv : r.variant <;> rw [hv] at h <;> dsimp only at h
  · simp only [bind_ok, require_ok, liftO_ok] at h
    obtain ⟨_, _, ⟨h1, rfl⟩, d, _, ⟨h2, rfl⟩, d', _, ⟨h3, rfl⟩, _, _, ⟨h4, rfl⟩, h5, rfl⟩ := h
    refine ⟨h1, ⟨d, h2, ?_⟩, rfl⟩
    rw [h3]; exact congrArg some (Prod.ext h4.symm h5.symm)
  · exact (throw_ok.mp h).elim
  · simp only [bind_ok, require_ok, liftO_ok] at h
    obtain ⟨_, _, ⟨h1, rfl⟩, d, _, ⟨h2, rfl⟩, d', _, ⟨h3, rfl⟩, _, _, ⟨h4, rfl⟩, _, _, ⟨h5, rfl⟩, h6, rfl⟩ := h
    refine ⟨h1, ⟨d, h2, ?_⟩, rfl⟩
    rw [h3]; exact congrArg some (Prod.ext h4.symm (Prod.ext h5.symm h6.symm))

theorem requireFinal_ok {r : SolReceipt} {u : Unit} {w w' : World} :
    requireFinal r w = .ok (u, w') ↔ (r.status ≠ .none ∧ r.status ≠ .pending) ∧ w' = w := require_ok

theorem handleOnchain_ok {r : SolReceipt} {u : Unit} {w w' : World} (h : handleOnchain r w = .ok (u, w')) :
    w.vapp.finalizedOnchainTxId.toNat + 1 < 2 ^ 64 ∧ r.onchainTxId = w.vapp.finalizedOnchainTxId + 1 ∧
    (r.status ≠ .none ∧ r.status ≠ .pending) ∧
    (w.vapp.transactions r.onchainTxId).variant = r.variant ∧
    SameAction r.variant (w.vapp.transactions r.onchainTxId).action r.action ∧
    w' = { w with vapp := { w.vapp with
      finalizedOnchainTxId := r.onchainTxId
      transactions := upd w.vapp.transactions r.onchainTxId
        { w.vapp.transactions r.onchainTxId with status := r.status } } } := by
  simp only [handleOnchain, bind_ok, get_ok, inc64_ok, modVapp_ok, require_ok, requireFinal_ok] at h
  obtain ⟨_, _, ⟨rfl, rfl⟩, _, _, ⟨h1, rfl, rfl⟩, _, _, rfl, _, _, ⟨h2, rfl⟩, _, _, ⟨h3, rfl⟩, _, _, ⟨rfl, rfl⟩,
    _, _, ha, _, _, rfl, hlast⟩ := h
  obtain ⟨a1, a2, rfl⟩ := assertEq_ok ha
  have key : ∀ {W : World}, (if r.status = TxStatus.reverted then (pure () : L1 Unit)
      else require (r.variant = .deposit ∨ r.variant = .createProver) .transactionVariantInvalid) W = .ok (u, w') →
      w' = W := by
    intro W hlast
    rw [ite_run] at hlast
    split at hlast
    · exact (pure_ok.mp hlast).2
    · exact (require_ok.mp hlast).2
  obtain rfl := key hlast
  rw [← h2]
  exact ⟨h1, rfl, h3, a1, a2, rfl⟩

theorem handleOffchain_frame {cfg : Cfg} {c : Ctx} {r : SolReceipt} :
    Within (fun w w' => w'.vapp = w.vapp) (handleOffchain cfg c r) :=
  handleOffchain_within tok_vapp _ _ _

/-- The receipts of on-chain transactions in a batch. -/
def onchainOf (rs : List SolReceipt) : List SolReceipt := rs.filter (fun r => decide (r.onchainTxId ≠ BitVec.allOnes 64))

theorem handleReceipts_ok {cfg : Cfg} {c : Ctx} {rs : List SolReceipt} : ∀ {u : Unit} {w w' : World},
    handleReceipts cfg c rs w = .ok (u, w') →
    (∃ f t, w'.vapp = { w.vapp with finalizedOnchainTxId := f, transactions := t }) ∧
    w'.vapp.finalizedOnchainTxId.toNat = w.vapp.finalizedOnchainTxId.toNat + (onchainOf rs).length ∧
    (∀ j r, (onchainOf rs)[j]? = some r →
      r.onchainTxId.toNat = w.vapp.finalizedOnchainTxId.toNat + 1 + j ∧
      (r.status ≠ .none ∧ r.status ≠ .pending) ∧
      (w.vapp.transactions r.onchainTxId).variant = r.variant ∧
      SameAction r.variant (w.vapp.transactions r.onchainTxId).action r.action ∧
      w'.vapp.transactions r.onchainTxId = { w.vapp.transactions r.onchainTxId with status := r.status }) ∧
    (∀ i : U64, i.toNat ≤ w.vapp.finalizedOnchainTxId.toNat ∨ w'.vapp.finalizedOnchainTxId.toNat < i.toNat →
      w'.vapp.transactions i = w.vapp.transactions i) := by
  induction rs with
  | nil =>
    intro u w w' h
    obtain ⟨_, rfl⟩ := pure_ok.mp (show (pure () : L1 Unit) w = .ok (u, w') from h)
    exact ⟨⟨_, _, rfl⟩, rfl, fun j r h => by simp [onchainOf] at h, fun _ _ => rfl⟩
  | cons r rs ih =>
    intro u w w' h
    unfold handleReceipts at h
    by_cases hr : r.onchainTxId ≠ BitVec.allOnes 64
    · rw [if_pos hr] at h
      obtain ⟨_, w1, h1, h2⟩ := bind_ok.mp h
      obtain ⟨⟨f, t, i1⟩, i2, i3, i4⟩ := ih h2
      obtain ⟨a1, a2, a3, a4, a5, rfl⟩ := handleOnchain_ok h1
      have hid : r.onchainTxId.toNat = w.vapp.finalizedOnchainTxId.toNat + 1 := by
        rw [a2, BitVec.toNat_add]; exact Nat.mod_eq_of_lt a1
      have hon : onchainOf (r :: rs) = r :: onchainOf rs := by
        simp only [onchainOf]; rw [List.filter_cons_of_pos (by simpa using hr)]
      have hne : ∀ {i : U64}, i.toNat ≠ w.vapp.finalizedOnchainTxId.toNat + 1 → i ≠ r.onchainTxId := by
        intro i hi he; rw [he] at hi; exact hi hid
      simp only [hid] at i2 i3 i4
      rw [hon]
      refine ⟨⟨f, t, i1⟩, by rw [i2, List.length_cons]; omega, ?_, ?_⟩
      · intro j x hx
        cases j with
        | zero =>
          simp only [List.getElem?_cons_zero, Option.some.injEq] at hx
          subst hx
          refine ⟨hid, a3, a4, a5, ?_⟩
          rw [i4 _ (Or.inl (Nat.le_of_eq hid)), upd_same]
        | succ j =>
          simp only [List.getElem?_cons_succ] at hx
          obtain ⟨b1, b2, b3, b4, b5⟩ := i3 j x hx
          have hx' := hne (i := x.onchainTxId) (by omega)
          rw [upd_ne _ _ hx'] at b3 b4 b5
          exact ⟨by omega, b2, b3, b4, b5⟩
      · intro i hi
        rw [i4 i (by omega), upd_ne _ _ (hne (by omega))]
    · rw [if_neg hr] at h
      obtain ⟨_, w1, h1, h2⟩ := bind_ok.mp h
      obtain ⟨⟨f, t, i1⟩, i2, i3, i4⟩ := ih h2
      have hv := handleOffchain_frame _ _ _ h1
      simp only [hv] at i1 i2 i3 i4
      have hon : onchainOf (r :: rs) = onchainOf rs := by simp only [onchainOf]; rw [List.filter_cons_of_neg (by simpa using hr)]
      rw [hon]
      exact ⟨⟨f, t, i1⟩, i2, i3, i4⟩

theorem vappStep_ok {cfg : Cfg} {c : Ctx} {pv pr : Bytes} {x : U64 × B256 × B256} {w w' : World}
    (h : vappStep cfg c pv pr w = .ok (x, w')) :
    c.sender = w.vapp.auctioneer ∧ w.vapp.paused = false ∧
    c.verifyProof w.vapp.verifier w.vapp.vkey pv pr = true ∧
    ∃ v, StepValues.decode pv = some v ∧ v.newRoot ≠ 0 ∧ w.vapp.roots w.vapp.blockNumber = v.oldRoot ∧
      v.timestamp.toNat ≤ c.now ∧ (w.vapp.timestamps w.vapp.blockNumber).toNat ≤ v.timestamp.toNat ∧
      c.now - v.timestamp.toNat ≤ 3600 ∧ w.vapp.blockNumber.toNat + 1 < 2 ^ 64 ∧
      x = (w.vapp.blockNumber + 1, v.oldRoot, v.newRoot) ∧
      handleReceipts cfg c v.receipts { w with vapp := { w.vapp with
        blockNumber := w.vapp.blockNumber + 1
        roots := upd w.vapp.roots (w.vapp.blockNumber + 1) v.newRoot
        timestamps := upd w.vapp.timestamps (w.vapp.blockNumber + 1) v.timestamp } } = .ok ((), w') := by
  simp only [vappStep, bind_ok, get_ok, require_ok, whenNotPaused_ok, liftO_ok, inc64_ok, modVapp_ok, pure_ok] at h
  obtain ⟨_, _, ⟨rfl, rfl⟩, _, _, ⟨h1, rfl⟩, _, _, ⟨h2, rfl⟩, _, _, ⟨rfl, rfl⟩, _, _, ⟨h3, rfl⟩, v, _, ⟨h4, rfl⟩,
    _, _, ⟨h5, rfl⟩, _, _, ⟨h6, rfl⟩, _, _, ⟨h7, rfl⟩, _, _, ⟨h8, rfl⟩, _, _, ⟨h9, rfl⟩, _, _, ⟨h10, rfl, rfl⟩,
    _, _, rfl, _, _, h11, h12, rfl⟩ := h
  exact ⟨h1, h2, h3, v, h4, h5, h6, h7, h8, h9, h10, h12, h11⟩

theorem vappFork_ok {c : Ctx} {k r : B256} {x : U64 × B256 × B256} {w w' : World}
    (h : vappFork c k r w = .ok (x, w')) :
    c.sender = w.vapp.owner ∧ k ≠ 0 ∧ r ≠ 0 ∧ w.vapp.blockNumber.toNat + 1 < 2 ^ 64 ∧
    w' = { w with vapp := { w.vapp with
      vkey := k
      blockNumber := w.vapp.blockNumber + 1
      roots := upd w.vapp.roots (w.vapp.blockNumber + 1) r
      timestamps := upd w.vapp.timestamps (w.vapp.blockNumber + 1) (BitVec.ofNat 64 c.now) } } := by
  simp only [vappFork, bind_ok, get_ok, require_ok, vappOnlyOwner_ok, inc64_ok, modVapp_ok, pure_ok] at h
  obtain ⟨_, _, ⟨h1, rfl⟩, _, _, ⟨h2, rfl⟩, _, _, ⟨rfl, rfl⟩, _, _, ⟨h3, rfl, rfl⟩, _, _, rfl, _, rfl⟩ := h
  exact ⟨h1, h2.1, h2.2, h3, rfl⟩

theorem inc_toNat {x : U64} (h : x.toNat + 1 < 2 ^ 64) : (x + 1).toNat = x.toNat + 1 := by
  rw [BitVec.toNat_add]; exact Nat.mod_eq_of_lt h

end Verif
