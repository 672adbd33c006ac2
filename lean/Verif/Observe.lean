import Verif.Exec
/-
# Observations of the vApp ledger

The small vocabulary the ledger properties are stated in: what can be read off a state through the
API (`VAppState`'s public fields, `crates/vapp/src/state.rs:41-70`). Absent accounts read as default.
-/

namespace Verif

namespace Ledger

/-- The record stored for an address, if any. -/
def acct (s : Ledger) (a : Address) : Option Account := s.accounts.get? (Address.index a)

/-- The record stored for an address, or the default one. -/
def acctD (s : Ledger) (a : Address) : Account := (s.acct a).getD {}

/-- Balance of an address in base units of $PROVE. -/
def bal (s : Ledger) (a : Address) : Nat := (s.acctD a).balance.toNat

/-- Recorded owner (zero if the address is not a prover). -/
def owner (s : Ledger) (a : Address) : Address := (s.acctD a).owner

/-- Recorded delegated signer. -/
def signer (s : Ledger) (a : Address) : Address := (s.acctD a).signer

/-- Recorded staker fee. -/
def bips (s : Ledger) (a : Address) : U256 := (s.acctD a).stakerFeeBips

/-- Sum of all balances stored in the ledger. -/
def total (s : Ledger) : Nat := s.accounts.sum (fun a => a.balance.toNat)

/-- Whether the slot of an identity is marked processed. -/
def done (s : Ledger) (id : B256) : Bool := (s.transactions.get? (B256.index id)).getD false

end Ledger

/-- `execute` returned `Ok` or `Err(Revert)`: the transaction is part of the history. -/
def Result.accepted : Result → Bool
  | .ok _ => true
  | .revert _ => true
  | .panic _ => false

/-- Executing a list of transactions, as the driver and the STF do
(`programs/vapp/stf/src/main.rs:56-74`): a panic aborts everything. Returns the results in order. -/
def Ledger.runAll (env : Env) : List Tx → Ledger → Option (List Result × Ledger)
  | [], s => some ([], s)
  | tx :: txs, s =>
    match Ledger.execute env tx s with
    | (.panic _, _) => none
    | (r, s') =>
      match Ledger.runAll env txs s' with
      | none => none
      | some (rs, s'') => some (r :: rs, s'')

/-- The receipt carried by a result. -/
def Result.receipt : Result → Option Receipt
  | .ok r => r
  | _ => none

end Verif
