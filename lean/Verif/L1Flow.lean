import Verif.L1Held
import Verif.PropsVapp
import Verif.PropsAgg
import Verif.PropsLedger2
/-
# What the vApp contract holds: deposits, receipts, pending transactions
-/

namespace Verif
open L1

/-! ## Specification vocabulary -/

/-- The amount of a queued deposit (0 for other transactions). -/
def SolTransaction.depositAmount (t : SolTransaction) : Nat :=
  if t.variant = .deposit then
    match decAccountAmount t.action with
    | some d => d.2.toNat
    | none => 0
  else 0

/-- The total of the deposits that are queued and not yet processed: the transactions with ids from
`finalizedOnchainTxId + 1` to `currentOnchainTxId`. -/
def World.pendingDeposits (w : World) : Nat :=
  ((List.range (w.vapp.currentOnchainTxId.toNat - w.vapp.finalizedOnchainTxId.toNat)).map fun j =>
    SolTransaction.depositAmount (w.vapp.transactions (BitVec.ofNat 64 (w.vapp.finalizedOnchainTxId.toNat + 1 + j)))).sum

/-- The amount of a completed withdrawal receipt that names the vApp contract itself as payee. -/
def SolReceipt.selfPaid (cfg : Cfg) (r : SolReceipt) : Nat :=
  if r.variant = .withdraw ∧ r.status ≠ .reverted then
    match decAccountAmount r.action with
    | some d => if d.1 = cfg.vapp then d.2.toNat else 0
    | none => 0
  else 0

/-- The receipt is one of an on-chain transaction. -/
def Receipt.onchain : Receipt → Bool
  | .withdraw _ _ => false
  | _ => true

/-! ## ABI -/

theorem decAccountAmount_abi (a : Address) (v : U256) :
    decAccountAmount (abiWord a.toNat ++ abiWord v.toNat) = some (a, v) := by
  have ha : a.toNat < 2 ^ 160 := a.isLt
  have h0 : At (abiWord a.toNat ++ abiWord v.toNat) 0 (abiWord a.toNat ++ abiWord v.toNat) := At.self _
  have h1 := readWord_at (Nat.lt_trans ha (by decide)) h0.left
  have h2 := readWord_at v.isLt (h0.right' (n := 32) (by rw [abiWord_len]))
  simp only [decAccountAmount, h1, h2, wordAddr, Option.bind_eq_bind, Option.bind_some, if_pos ha, Option.pure_def,
    BitVec.ofNat_toNat, BitVec.setWidth_eq]

theorem decAccountAmount_deposit (d : Deposit) : decAccountAmount d.abi = some (d.account, d.amount) :=
  decAccountAmount_abi _ _

theorem decAccountAmount_withdraw (d : Withdraw) : decAccountAmount d.abi = some (d.account, d.amount) :=
  decAccountAmount_abi _ _

/-! ## The queue -/

/-- Nothing is queued beyond the current id, and no more is finalised than queued. -/
def QueueInv (w : World) : Prop :=
  w.vapp.finalizedOnchainTxId.toNat ≤ w.vapp.currentOnchainTxId.toNat ∧
  ∀ i : U64, w.vapp.currentOnchainTxId.toNat < i.toNat → w.vapp.transactions i = SolTransaction.unset

theorem QueueInv.of_ok {w : World} {Q F} (h : QueueOk w Q F) : QueueInv w := by
  obtain ⟨h1, h2, h3, _, h5⟩ := h
  refine ⟨by omega, fun i hi => ?_⟩
  rw [h5 i]
  unfold queueEntry
  split
  · rfl
  · rw [List.getElem?_eq_none (by omega)]

theorem ofNat_ne {m : Nat} {x : U64} (hm : m < 2 ^ 64) (h : m ≠ x.toNat) : (BitVec.ofNat 64 m : U64) ≠ x := by
  intro e
  apply h
  rw [← e, BitVec.toNat_ofNat, Nat.mod_eq_of_lt hm]

theorem ofNat_self (x : U64) : (BitVec.ofNat 64 x.toNat : U64) = x := by simp

theorem pending_queued {w w' : World} {v : TxVariant} {d : Bytes} (hi : QueueInv w) (h : Queued w w' v d) :
    w'.pendingDeposits = w.pendingDeposits +
      SolTransaction.depositAmount ⟨v, .pending, w.vapp.currentOnchainTxId + 1, d⟩ := by
  obtain ⟨hlt, e⟩ := h
  have hid := inc_toNat hlt
  unfold World.pendingDeposits
  rw [e]
  dsimp only
  have hn : (w.vapp.currentOnchainTxId + 1).toNat - w.vapp.finalizedOnchainTxId.toNat =
      (w.vapp.currentOnchainTxId.toNat - w.vapp.finalizedOnchainTxId.toNat) + 1 := by have := hi.1; omega
  have hc := (w.vapp.currentOnchainTxId).isLt
  rw [hn, List.range_succ, List.map_append, List.sum_append]
  congr 1
  · congr 1
    apply List.map_congr_left
    intro j hj
    rw [List.mem_range] at hj
    rw [upd_ne _ _ (ofNat_ne (by omega) (by omega))]
  · have : w.vapp.finalizedOnchainTxId.toNat + 1 + (w.vapp.currentOnchainTxId.toNat - w.vapp.finalizedOnchainTxId.toNat) =
        (w.vapp.currentOnchainTxId + 1).toNat := by have := hi.1; omega
    simp only [List.map_cons, List.map_nil, List.sum_cons, List.sum_nil, Nat.add_zero, this, ofNat_self, upd_same]

theorem QueueInv.queued {w w' : World} {v : TxVariant} {d : Bytes} (hi : QueueInv w) (h : Queued w w' v d) :
    QueueInv w' := by
  obtain ⟨hlt, e⟩ := h
  have hid := inc_toNat hlt
  unfold QueueInv
  rw [e]
  refine ⟨by have := hi.1; show w.vapp.finalizedOnchainTxId.toNat ≤ (w.vapp.currentOnchainTxId + 1).toNat; omega, fun i hgt => ?_⟩
  change (w.vapp.currentOnchainTxId + 1).toNat < i.toNat at hgt
  show upd _ _ _ i = _
  rw [upd_ne _ _ (by rintro rfl; omega)]
  exact hi.2 i (by omega)

theorem QueueInv.congr {w w' : World} (hi : QueueInv w) (h1 : w'.vapp.currentOnchainTxId = w.vapp.currentOnchainTxId)
    (h2 : w'.vapp.finalizedOnchainTxId = w.vapp.finalizedOnchainTxId)
    (h3 : w'.vapp.transactions = w.vapp.transactions) : QueueInv w' := by
  unfold QueueInv at *
  rw [h1, h2, h3]; exact hi

theorem pending_congr {w w' : World} (h1 : w'.vapp.currentOnchainTxId = w.vapp.currentOnchainTxId)
    (h2 : w'.vapp.finalizedOnchainTxId = w.vapp.finalizedOnchainTxId)
    (h3 : w'.vapp.transactions = w.vapp.transactions) : w'.pendingDeposits = w.pendingDeposits := by
  unfold World.pendingDeposits
  rw [h1, h2, h3]

/-- The receipt of an on-chain transaction takes it off the queue. -/
theorem handleOnchain_pending {r : SolReceipt} {u : Unit} {w w' : World} (hi : QueueInv w)
    (h : handleOnchain r w = .ok (u, w')) :
    QueueInv w' ∧ w'.prove = w.prove ∧ w'.staking = w.staking ∧
    w'.pendingDeposits + (if r.variant = .deposit then
      match decAccountAmount r.action with
      | some d => d.2.toNat
      | none => 0 else 0) = w.pendingDeposits := by
  obtain ⟨h1, h2, h3, h4, h5, rfl⟩ := handleOnchain_ok h
  have hid : r.onchainTxId.toNat = w.vapp.finalizedOnchainTxId.toNat + 1 := by rw [h2]; exact inc_toNat h1
  -- the transaction was queued
  have hlt : w.vapp.finalizedOnchainTxId.toNat < w.vapp.currentOnchainTxId.toNat := by
    apply Classical.byContradiction
    intro hge
    have hun := hi.2 r.onchainTxId (by omega)
    rw [hun] at h4 h5
    rw [← show TxVariant.deposit = r.variant from h4] at h5
    obtain ⟨d, hd, _⟩ := h5
    rw [show SolTransaction.unset.action = [] from rfl, decAccountAmount_nil] at hd
    exact nomatch hd
  have hc := (w.vapp.currentOnchainTxId).isLt
  refine ⟨⟨?_, fun i hgt => ?_⟩, rfl, rfl, ?_⟩
  · show r.onchainTxId.toNat ≤ w.vapp.currentOnchainTxId.toNat; omega
  · change w.vapp.currentOnchainTxId.toNat < i.toNat at hgt
    show upd _ _ _ i = _
    rw [upd_ne _ _ (by rintro rfl; omega)]
    exact hi.2 i hgt
  · unfold World.pendingDeposits
    dsimp only
    have hn : w.vapp.currentOnchainTxId.toNat - w.vapp.finalizedOnchainTxId.toNat =
        (w.vapp.currentOnchainTxId.toNat - r.onchainTxId.toNat) + 1 := by omega
    rw [hn, List.range_succ_eq_map, List.map_cons, List.sum_cons, List.map_map, Nat.add_comm]
    congr 1
    · have : w.vapp.finalizedOnchainTxId.toNat + 1 + 0 = r.onchainTxId.toNat := by omega
      rw [this, ofNat_self]
      unfold SolTransaction.depositAmount
      rw [h4]
      split
      · rename_i hv
        rw [hv] at h5
        obtain ⟨d, e1, e2⟩ := h5
        rw [e1, e2]
      · rfl
    · congr 1
      apply List.map_congr_left
      intro j hj
      rw [List.mem_range] at hj
      rw [upd_ne _ _ (ofNat_ne (by omega) (by omega))]
      simp only [Function.comp]
      rw [show w.vapp.finalizedOnchainTxId.toNat + 1 + j.succ = r.onchainTxId.toNat + 1 + j by omega]

/-! ## Token movements -/

theorem Erc20.transfer_exact {t t' : Erc20} {f to : Address} {v : Nat} (h : t.transfer f to v = .ok t') :
    (f ≠ to → t'.bal f + v = t.bal f ∧ t'.bal to = t.bal to + v) ∧ (f = to → t'.bal f = t.bal f) ∧
    (∀ a, a ≠ f → a ≠ to → t'.bal a = t.bal a) := by
  obtain ⟨_, _, hv, rfl⟩ := transfer_ok h
  dsimp only
  refine ⟨fun hne => ⟨?_, ?_⟩, ?_, ?_⟩
  · rw [upd_ne _ _ hne, upd_same]; omega
  · rw [upd_same, upd_ne _ _ (Ne.symm hne)]
  · rintro rfl; rw [upd_same, upd_same]; omega
  · intro a h1 h2; rw [upd_ne _ _ h2, upd_ne _ _ h1]

/-- Registered provers, the vApp contract is none of them. -/
theorem Registry.vapp {cfg : Cfg} {w : World} (hr : Registry cfg w) (hc : cfg.WF) : w.staking.provers cfg.vapp = false := by
  cases h : w.staking.provers cfg.vapp with
  | false => rfl
  | true =>
    obtain ⟨o, n, f, e⟩ := hr.addr _ h
    exact absurd e.symm (hc.create2 o n f).2.2.2.2

theorem vapp_ne_iprove {cfg : Cfg} (hc : cfg.WF) : cfg.vapp ≠ cfg.iprove := by
  have := hc.distinct
  simp at this
  exact Ne.symm this.2.1.2

/-- A withdrawal takes its amount from the vApp contract, unless it pays the contract itself. -/
theorem processWithdraw_exact {cfg : Cfg} (hc : cfg.WF) {c : Ctx} {to : Address} {n : Nat} {u : Unit} {w w' : World}
    (hr : Registry cfg w) (h : processWithdraw cfg c to n w = .ok (u, w')) :
    w'.prove.bal cfg.vapp + n = w.prove.bal cfg.vapp + (if to = cfg.vapp then n else 0) := by
  simp only [processWithdraw, bind_ok, get_ok] at h
  obtain ⟨_, _, ⟨rfl, rfl⟩, h⟩ := h
  split at h
  · simp only [bind_ok, pure_ok] at h
    obtain ⟨n', _, h, _, rfl⟩ := h
    obtain ⟨_, hm, t1, t2, t3, h1, h2, _, _, rfl⟩ := iproveDeposit_ok h
    have hp : to ≠ cfg.vapp := by
      rintro rfl
      have hv := hr.vapp hc
      rcases hm with e | ⟨e, _⟩ | ⟨_, _, e⟩
      · have := hc.distinct
        simp at this
        exact this.2.2 e.symm
      · rw [hv] at e; exact nomatch e
      · rw [hv] at e; exact nomatch e
    rw [if_neg hp]
    have := ((Erc20.transfer_exact h2).1 (vapp_ne_iprove hc)).1
    rw [(Erc20.spend_ok h1).2.1] at this
    exact this
  · obtain ⟨t, g, rfl⟩ := proveTransfer_ok h
    by_cases e : to = cfg.vapp
    · rw [if_pos e]
      have := (Erc20.transfer_exact g).2.1 e.symm
      show t.bal cfg.vapp + n = _
      omega
    · rw [if_neg e]
      have := ((Erc20.transfer_exact g).1 (Ne.symm e)).1
      show t.bal cfg.vapp + n = _
      omega

/-! ## Receipts of the ledger -/

/-- The status of a receipt. -/
def Receipt.status : Receipt → TxStatus
  | .deposit _ st _ | .createProver _ st _ | .withdraw st _ => st

theorem handleReceipts_flow {cfg : Cfg} (hc : cfg.WF) {c : Ctx} : ∀ (rs : List Receipt) {u : Unit} {w w' : World},
    (∀ r ∈ rs, r.status = .completed) → QueueInv w → Registry cfg w →
    handleReceipts cfg c (rs.map Receipt.sol) w = .ok (u, w') →
    QueueInv w' ∧ Registry cfg w' ∧
    w'.pendingDeposits + (rs.map Receipt.inflow).sum = w.pendingDeposits ∧
    w'.prove.bal cfg.vapp + (rs.map Receipt.outflow).sum =
      w.prove.bal cfg.vapp + ((rs.map Receipt.sol).map (SolReceipt.selfPaid cfg)).sum := by
  intro rs
  induction rs with
  | nil =>
    intro u w w' _ hi hr h
    obtain ⟨_, rfl⟩ := pure_ok.mp (show (pure () : L1 Unit) w = .ok (u, w') from h)
    exact ⟨hi, hr, rfl, rfl⟩
  | cons r rs ih =>
    intro u w w' hst hi hr h
    have hs := hst r (List.mem_cons_self ..)
    rw [List.map_cons] at h
    unfold handleReceipts at h
    by_cases ho : r.sol.onchainTxId ≠ BitVec.allOnes 64
    · rw [if_pos ho] at h
      obtain ⟨_, w1, h1, h2⟩ := bind_ok.mp h
      obtain ⟨a1, a2, a3, a4⟩ := handleOnchain_pending hi h1
      have hst1 := handleOnchain_within tok_staking (fun _ _ => ⟨rfl, rfl⟩) _ _ _ _ h1
      have hr1 : Registry cfg w1 := hr.congr ⟨hst1.2, by rw [a3], by rw [a3], by rw [a3]⟩
      obtain ⟨b1, b2, b3, b4⟩ := ih (fun r hr => hst r (List.mem_cons_of_mem _ hr)) a1 hr1 h2
      refine ⟨b1, b2, ?_, ?_⟩
      · rw [List.map_cons, List.sum_cons, ← a4, ← b3]
        cases r with
        | deposit id st d =>
          have : (Receipt.deposit id st d).sol.action = d.abi := rfl
          rw [if_pos (show (Receipt.deposit id st d).sol.variant = .deposit from rfl), this, decAccountAmount_deposit]
          simp only [Receipt.inflow]; omega
        | createProver id st d =>
          rw [if_neg (by simp [Receipt.sol])]
          simp only [Receipt.inflow]; omega
        | withdraw st d => exact absurd rfl ho
      · rw [a2] at b4
        rw [List.map_cons, List.sum_cons, List.map_cons, List.map_cons, List.sum_cons]
        cases r with
        | deposit id st d => simpa [Receipt.outflow, SolReceipt.selfPaid, Receipt.sol] using b4
        | createProver id st d => simpa [Receipt.outflow, SolReceipt.selfPaid, Receipt.sol] using b4
        | withdraw st d => exact absurd rfl ho
    · rw [if_neg ho] at h
      obtain ⟨_, w1, h1, h2⟩ := bind_ok.mp h
      have hv := handleOffchain_frame _ _ _ h1
      have hst1 := handleOffchain_within tok_staking _ _ _ _ _ _ h1
      have hr1 : Registry cfg w1 := hr.congr ⟨hst1.2, by rw [hst1.1], by rw [hst1.1], by rw [hst1.1]⟩
      obtain ⟨b1, b2, b3, b4⟩ := ih (fun r hr => hst r (List.mem_cons_of_mem _ hr))
        (hi.congr (by rw [hv]) (by rw [hv]) (by rw [hv])) hr1 h2
      rw [pending_congr (w := w) (w' := w1) (by rw [hv]) (by rw [hv]) (by rw [hv])] at b3
      rcases handleOffchain_cases h1 with ⟨e, _⟩ | ⟨_, hvar, d, hd, hw⟩
      · have : r.sol.status = r.status := by cases r <;> rfl
        rw [this, hs] at e
        exact nomatch e
      · cases r with
        | deposit id st d => exact nomatch (show TxVariant.deposit = TxVariant.withdraw from hvar)
        | createProver id st d => exact nomatch (show TxVariant.createProver = TxVariant.withdraw from hvar)
        | withdraw st x =>
          have hx : d = (x.account, x.amount) :=
            Option.some.inj (hd.symm.trans (decAccountAmount_withdraw x))
          subst hx
          have he := processWithdraw_exact hc hr hw
          refine ⟨b1, b2, ?_, ?_⟩
          · simpa [Receipt.inflow] using b3
          · rw [List.map_cons, List.sum_cons, List.map_cons, List.map_cons, List.sum_cons]
            have hself : (Receipt.withdraw st x).sol.selfPaid cfg = if x.account = cfg.vapp then x.amount.toNat else 0 := by
              have hst' : st ≠ .reverted := by
                intro e; rw [show st = TxStatus.completed from hs] at e; exact nomatch e
              have : (Receipt.withdraw st x).sol = ⟨.withdraw, st, BitVec.allOnes 64, x.abi⟩ := rfl
              unfold SolReceipt.selfPaid
              rw [this, if_pos ⟨rfl, hst'⟩]
              simp only [decAccountAmount_withdraw]
            rw [hself]
            have : (Receipt.withdraw st x).outflow = x.amount.toNat := rfl
            rw [this]
            dsimp only at he
            omega

/-! ## Batches of transactions -/

/-- A batch: balances, deposits and withdrawals add up; all receipts are completions; and at every point
the withdrawals so far are covered. -/
theorem runTxs_flow (env : Env) : ∀ (txs : List (Int × Tx)) (s s' : Ledger) (rs : List Receipt),
    runTxs (mapOps Address Account) (mapOps B256 Bool) env txs s = some (rs, s') →
    (∀ r ∈ rs, r.status = .completed) ∧
    s'.total + (rs.map Receipt.outflow).sum = s.total + (rs.map Receipt.inflow).sum ∧
    ∀ rs₁ rs₂, rs = rs₁ ++ rs₂ → (rs₁.map Receipt.outflow).sum ≤ s.total + (rs₁.map Receipt.inflow).sum := by
  intro txs
  induction txs with
  | nil =>
    intro s s' rs h
    simp only [runTxs, Option.some.injEq, Prod.mk.injEq] at h
    obtain ⟨rfl, rfl⟩ := h
    refine ⟨by simp, rfl, fun rs₁ rs₂ e => ?_⟩
    obtain ⟨rfl, _⟩ := List.append_eq_nil_iff.mp e.symm
    simp
  | cons t txs ih =>
    intro s s' rs h
    obtain ⟨pos, tx⟩ := t
    rw [runTxs] at h
    have hstep : ∀ r s1, execute (mapOps Address Account) (mapOps B256 Bool) env tx s = (r, s1) →
        Ledger.execute env tx s = (r, s1) := fun _ _ h => h
    generalize he : execute (mapOps Address Account) (mapOps B256 Bool) env tx s = q at h
    obtain ⟨o, (s1 : Ledger)⟩ := q
    have hx := hstep _ _ he
    have quiet : ∀ rs, o.accepted = true → o.inflow = 0 → o.outflow = 0 →
        runTxs (mapOps Address Account) (mapOps B256 Bool) env txs s1 = some (rs, s') →
        (∀ r ∈ rs, r.status = .completed) ∧
        s'.total + (rs.map Receipt.outflow).sum = s.total + (rs.map Receipt.inflow).sum ∧
        ∀ rs₁ rs₂, rs = rs₁ ++ rs₂ → (rs₁.map Receipt.outflow).sum ≤ s.total + (rs₁.map Receipt.inflow).sum := by
      intro rs ha h1 h2 h
      have e := c01_step env tx s s1 o hx ha
      have e' : s1.total = s.total := by omega
      rw [← e']
      exact ih s1 s' rs h
    match o, h with
    | .panic _, h => exact nomatch h
    | .revert _, h => exact quiet rs rfl rfl rfl h
    | .ok none, h => exact quiet rs rfl rfl rfl h
    | .ok (some r), h =>
      dsimp only at h
      split at h
      · exact nomatch h
      · rename_i rs' s'' h'
        simp only [Option.some.injEq, Prod.mk.injEq] at h
        obtain ⟨rfl, rfl⟩ := h
        obtain ⟨a1, a2, a3⟩ := ih s1 s'' rs' h'
        have e := c01_step env tx s s1 _ hx rfl
        change s1.total + r.outflow = s.total + r.inflow at e
        have hst : r.status = .completed := by
          have := c19_receipts env tx s s1 _ hx rfl
          cases tx with
          | deposit d => exact (by have := this.1; cases this; rfl)
          | createProver d => exact (by have := this.1; cases this; rfl)
          | withdraw d =>
            rcases this with ⟨v, e⟩ | ⟨_, _, _, _, _, _, e⟩
            · exact nomatch e
            · cases e; rfl
          | delegate d => rcases this with ⟨v, e⟩ | e <;> exact nomatch e
          | transfer d => rcases this with ⟨v, e⟩ | e <;> exact nomatch e
          | clear d => rcases this with ⟨v, e⟩ | e <;> exact nomatch e
        refine ⟨?_, ?_, ?_⟩
        · intro x hx
          rcases List.mem_cons.mp hx with rfl | hx
          · exact hst
          · exact a1 x hx
        · simp only [List.map_cons, List.sum_cons]; omega
        · intro rs₁ rs₂ heq
          cases rs₁ with
          | nil => simp
          | cons x rs₁ =>
            rw [List.cons_append] at heq
            obtain ⟨rfl, heq'⟩ := List.cons.inj heq
            have := a3 rs₁ rs₂ heq'
            simp only [List.map_cons, List.sum_cons]; omega

end Verif
