import Verif.Observe
/-
# Specification vocabulary for the ledger properties

Independent of the execution model: who signed what, what a numeric string means, which messages a
transaction carries and what its identity is.
-/

namespace Verif

/-- `signer` is the key recovered from signature `sig` over body `b` in message format `format`
(1 = protobuf bytes, 2 = JSON; nothing else is a signature).
Specification of `crates/vapp/src/signing.rs:20-57`. -/
def SignedBy (env : Env) (b : Body) (format : I32) (sig : Bytes) (signer : Address) : Prop :=
  (format = 1 ∧ env.recover b.encode sig = some signer) ∨
  (format = 2 ∧ ∃ m, env.json b = some m ∧ env.recover m sig = some signer)

/-- The identity of an off-chain transaction: the hash of signer and message. -/
def identity (env : Env) (signer : Address) (b : Body) : B256 :=
  env.keccak (Address.bytes signer ++ b.encode)

/-- The signed message that gives a transaction its identity (for a clear: the proof request),
with its signer. On-chain transactions have none. -/
def Tx.signedAs (env : Env) (tx : Tx) (b : Body) (signer : Address) : Prop :=
  match tx with
  | .deposit _ => False
  | .createProver _ => False
  | .delegate d => ∃ x, d.body = some x ∧ b = .delegate x ∧ SignedBy env b d.format d.signature signer
  | .transfer d => ∃ x, d.body = some x ∧ b = .transfer x ∧ SignedBy env b d.format d.signature signer
  | .withdraw d => ∃ x, d.body = some x ∧ b = .withdraw x ∧ SignedBy env b d.format d.signature signer
  | .clear c => ∃ x, c.request.body = some x ∧ b = .request x ∧
      SignedBy env b c.request.format c.request.signature signer

/-- `id` is the identity of transaction `tx`. -/
def Tx.hasId (env : Env) (tx : Tx) (id : B256) : Prop :=
  ∃ b signer, tx.signedAs env b signer ∧ id = identity env signer b

/-- Off-chain transactions are the four signed kinds. -/
def Tx.offchain : Tx → Bool
  | .deposit _ => false
  | .createProver _ => false
  | _ => true

/-- The domain fields of all signed messages that a transaction carries. -/
def Tx.domains : Tx → List Bytes
  | .deposit _ => []
  | .createProver _ => []
  | .delegate d => (d.body.map (·.domain)).toList
  | .transfer d => (d.body.map (·.domain)).toList
  | .withdraw d => (d.body.map (·.domain)).toList
  | .clear c => (c.request.body.map (·.domain)).toList ++ (c.bid.body.map (·.domain)).toList ++
      (c.settle.body.map (·.domain)).toList ++ (c.execute.body.map (·.domain)).toList

/-- The amount a receipt adds to the vApp (deposits). -/
def Receipt.inflow : Receipt → Nat
  | .deposit _ _ d => d.amount.toNat
  | _ => 0

/-- The amount a receipt takes out of the vApp (withdrawals). -/
def Receipt.outflow : Receipt → Nat
  | .withdraw _ w => w.amount.toNat
  | _ => 0

/-- Inflow of a result. -/
def Result.inflow (r : Result) : Nat := (r.receipt.map Receipt.inflow).getD 0
/-- Outflow of a result. -/
def Result.outflow (r : Result) : Nat := (r.receipt.map Receipt.outflow).getD 0

end Verif
