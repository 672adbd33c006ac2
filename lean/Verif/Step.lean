import Verif.InversionClear
import Verif.FeeProofs
/-
# One accepted transaction: closed form for every kind (proof infrastructure)
-/

namespace Verif

open Prog

/-- Post-state of an accepted deposit. -/
def DepositPost (d : Onchain Deposit) (s : Ledger) (out : Outcome) (s' : Ledger) : Prop :=
  InOrder d s.sc ∧ out = .applied (some (.deposit d.onchainTx .completed d.action)) ∧
    MovesOk [.credit d.action.account d.action.amount] (s.setSc (nextCursor d s.sc)) ∧
    s' = moves [.credit d.action.account d.action.amount] (s.setSc (nextCursor d s.sc))

/-- Post-state of an accepted prover creation. -/
def CreatePost (c : Onchain CreateProver) (s : Ledger) (out : Outcome) (s' : Ledger) : Prop :=
  InOrder c s.sc ∧ out = .applied (some (.createProver c.onchainTx .completed c.action)) ∧
    s' = (s.setSc (nextCursor c s.sc)).setAcct c.action.prover
      (Account.setProver c.action.owner c.action.stakerFeeBips (s.acctD c.action.prover))

/-- Post-state of an accepted delegation. -/
def DelegatePost (env : Env) (d : Signed DelegateBody) (s : Ledger) (out : Outcome) (s' : Ledger) :
    Prop :=
  ∃ x, DelegatePre env d s x ∧
    ((∃ bal, out = .reverted (.insufficientDelegateBalance x.signer x.fee bal) ∧
        bal.toNat = s.bal x.signer ∧ s.bal x.signer < x.fee.toNat ∧
        s' = s.mark (identity env x.signer (.delegate x.body)) true) ∨
     (out = .applied none ∧ x.fee.toNat ≤ s.bal x.signer ∧
      let s1 := s.mark (identity env x.signer (.delegate x.body)) true
      MovesOk x.moves s1 ∧ ∃ delegate v, x.body.delegate = Address.bytes delegate ∧
        (moves x.moves s1).acct x.prover = some v ∧
        s' = (moves x.moves s1).setAcct x.prover (Account.setSigner delegate v)))

/-- Post-state of an accepted transfer. -/
def TransferPost (env : Env) (d : Signed TransferBody) (s : Ledger) (out : Outcome) (s' : Ledger) :
    Prop :=
  ∃ x, TransferPre env d s x ∧
    let s1 := s.mark (identity env x.signer (.transfer x.body)) true
    ((∃ req bal, out = .reverted (.insufficientTransferBalance x.signer req bal) ∧
        bal.toNat = s.bal x.signer ∧ req.toNat = x.amount.toNat + x.fee.toNat ∧
        s.bal x.signer < x.amount.toNat + x.fee.toNat ∧ s' = s1) ∨
     (out = .applied none ∧ x.amount.toNat + x.fee.toNat ≤ s.bal x.signer ∧
      MovesOk x.moves s1 ∧ s' = moves x.moves s1))

/-- Post-state of an accepted withdrawal. -/
def WithdrawPost (env : Env) (d : Signed WithdrawBody) (s : Ledger) (out : Outcome) (s' : Ledger) :
    Prop :=
  ∃ x, WithdrawPre env d s x ∧
    let s1 := s.mark (identity env x.signer (.withdraw x.body)) true
    ((∃ a req bal, out = .reverted (.insufficientWithdrawBalance a req bal) ∧
        bal.toNat = s.bal a ∧ s.bal a < req.toNat ∧ s' = s1) ∨
     (out = .applied (some (.withdraw .completed ⟨x.account, x.amount⟩)) ∧
      x.amount.toNat ≤ s.bal x.account ∧
      (x.account = x.signer → x.amount.toNat + x.fee.toNat ≤ s.bal x.account) ∧
      (x.account ≠ x.signer → x.fee.toNat ≤ s.bal x.signer) ∧
      MovesOk x.moves s1 ∧ s' = moves x.moves s1))

/-- Post-state of an accepted clear. -/
def ClearPost (env : Env) (c : ClearTx) (s : Ledger) (out : Outcome) (s' : Ledger) : Prop :=
  ∃ x g, ClearPre env c s x g ∧
    ((x.execute.executionStatus = 3 ∧ PunishPost env x s out s') ∨
     ((∃ f b g p, ProofPre env c s x f b g p) ∧ PayPost x s out s'))

/-- Post-state of any accepted transaction (before the transaction cursor advances). -/
def TxPost (env : Env) (s : Ledger) (out : Outcome) (s' : Ledger) : Tx → Prop
  | .deposit d => DepositPost d s out s'
  | .createProver c => CreatePost c s out s'
  | .delegate d => DelegatePost env d s out s'
  | .transfer d => TransferPost env d s out s'
  | .withdraw d => WithdrawPost env d s out s'
  | .clear c => ClearPost env c s out s'

theorem execInner_post (env : Env) (tx : Tx) (s : Ledger) :
    wp (execInner env tx) s (fun out s' => TxPost env s out s' tx) (fun _ _ => True) := by
  cases tx with
  | deposit d => exact deposit_wp d s
  | createProver c => exact createProver_wp c s
  | delegate d => exact delegate_wp env d s
  | transfer d => exact transfer_wp env d s
  | withdraw d => exact withdraw_wp env d s
  | clear c => exact clear_wp env c s

/-- Advance the transaction cursor. -/
def Ledger.bump (s : Ledger) : Ledger := s.setSc { s.sc with txId := s.sc.txId + 1 }

/-- The result corresponding to an outcome. -/
def Outcome.result : Outcome → Result
  | .applied r => .ok r
  | .reverted v => .revert v

theorem execute_accepted {env : Env} {tx : Tx} {s s' : Ledger} {r : Result}
    (h : Ledger.execute env tx s = (r, s')) (hr : r.accepted = true) :
    ∃ out s1, TxPost env s out s1 tx ∧ r = out.result ∧ s' = s1.bump := by
  unfold Ledger.execute execute at h
  have hp := (wp_iff.mp (execInner_post env tx s)).1
  unfold Prog.runL at hp
  split at h
  · rename_i heq
    cases h
    exact ⟨_, _, hp _ _ heq, rfl, rfl⟩
  · rename_i heq
    cases h
    exact ⟨_, _, hp _ _ heq, rfl, rfl⟩
  · cases h; simp [Result.accepted] at hr

/-! ## Consequences shared by several properties -/

section
variable {env : Env} {s s1 : Ledger} {out : Outcome}

@[simp] theorem bump_total : s.bump.total = s.total := rfl
@[simp] theorem bump_bal (a : Address) : s.bump.bal a = s.bal a := rfl
@[simp] theorem bump_owner (a : Address) : s.bump.owner a = s.owner a := rfl
@[simp] theorem bump_signer (a : Address) : s.bump.signer a = s.signer a := rfl
@[simp] theorem bump_bips (a : Address) : s.bump.bips a = s.bips a := rfl
@[simp] theorem bump_done (id : B256) : s.bump.done id = s.done id := rfl
@[simp] theorem bump_accounts : s.bump.accounts = s.accounts := rfl
@[simp] theorem bump_transactions : s.bump.transactions = s.transactions := rfl
@[simp] theorem bump_acct (a : Address) : s.bump.acct a = s.acct a := rfl
@[simp] theorem bump_acctD (a : Address) : s.bump.acctD a = s.acctD a := rfl

/-- The parts of the fee split sum to the cost. -/
theorem fee_sum {cost pb b p st o : U256} (h : fee cost pb b = .ok (p, st, o)) :
    cost.toNat = p.toNat + st.toNat + o.toNat := ((fee_ok_iff _ _ _ _ _ _).mp h).2.2.2.2.2.2

/-- A record with the same balance does not change the total. -/
theorem total_setAcct_same (a : Address) (w : Account) (h : w.balance.toNat = s.bal a) :
    (s.setAcct a w).total = s.total := by
  have := s.total_setAcct a w
  omega

theorem bal_of_acct {a : Address} {v : Account} (h : s.acct a = some v) :
    s.bal a = v.balance.toNat := by
  simp [Ledger.bal, Ledger.acctD, h]

end

theorem post_total {env : Env} {tx : Tx} {s s1 : Ledger} {out : Outcome}
    (h : TxPost env s out s1 tx) :
    s1.total + out.result.outflow = s.total + out.result.inflow := by
  cases tx with
  | deposit d =>
    obtain ⟨_, rfl, hok, rfl⟩ := h
    have := total_moves _ _ hok
    simp [Mv.dbT, Mv.crT] at this
    simp [this, Outcome.result, Result.outflow, Result.inflow, Result.receipt, Receipt.outflow,
      Receipt.inflow]
  | createProver c =>
    obtain ⟨_, rfl, rfl⟩ := h
    rw [total_setAcct_same]
    · simp [Outcome.result, Result.outflow, Result.inflow, Result.receipt, Receipt.outflow,
      Receipt.inflow]
    · rfl
  | delegate d =>
    obtain ⟨x, hpre, ⟨bal, rfl, _, _, rfl⟩ | ⟨rfl, hle, hok, dl, v, hdl, hv, rfl⟩⟩ := h
    · simp [Outcome.result, Result.outflow, Result.inflow, Result.receipt]
    · have := total_moves _ _ hok
      simp [Mv.dbT, Mv.crT, DelegateData.moves] at this
      rw [total_setAcct_same _ _ (by rw [bal_of_acct hv]; rfl)]
      simp [Outcome.result, Result.outflow, Result.inflow, Result.receipt, DelegateData.moves]
      omega
  | transfer d =>
    obtain ⟨x, hpre, ⟨req, bal, rfl, _, _, _, rfl⟩ | ⟨rfl, hle, hok, rfl⟩⟩ := h
    · simp [Outcome.result, Result.outflow, Result.inflow, Result.receipt]
    · have := total_moves _ _ hok
      simp [Mv.dbT, Mv.crT, TransferData.moves] at this
      simp [Outcome.result, Result.outflow, Result.inflow, Result.receipt, TransferData.moves]
      omega
  | withdraw d =>
    obtain ⟨x, hpre, ⟨a, req, bal, rfl, _, _, rfl⟩ | ⟨rfl, _, _, _, hok, rfl⟩⟩ := h
    · simp [Outcome.result, Result.outflow, Result.inflow, Result.receipt]
    · have := total_moves _ _ hok
      simp [Mv.dbT, Mv.crT, WithdrawData.moves] at this
      simp [Outcome.result, Result.outflow, Result.inflow, Result.receipt, WithdrawData.moves,
        Receipt.outflow, Receipt.inflow]
      omega
  | clear c =>
    obtain ⟨x, g, hpre, ⟨_, str, p, _, _, _, ⟨bal, rfl, _, _, rfl⟩ | ⟨tr, rfl, _, _, hok, rfl⟩⟩ |
      ⟨_, pgus, cost, _, _, _, _, ⟨bal, rfl, _, _, rfl⟩ | ⟨tr, p, st, o, rfl, _, _, hfee, hok, rfl⟩⟩⟩ := h
    · simp [Outcome.result, Result.outflow, Result.inflow, Result.receipt]
    · have := total_moves _ _ hok
      simp [Mv.dbT, Mv.crT, punishMoves] at this
      simp [Outcome.result, Result.outflow, Result.inflow, Result.receipt, punishMoves]
      omega
    · simp [Outcome.result, Result.outflow, Result.inflow, Result.receipt]
    · have := total_moves _ _ hok
      simp [Mv.dbT, Mv.crT, payMoves] at this
      have hs := fee_sum hfee
      simp [Outcome.result, Result.outflow, Result.inflow, Result.receipt, payMoves]
      omega

end Verif
