import Verif.Stf
/-
# ABI encoding and decoding of the step public values

The Solidity contract ABI (head/tail encoding) of `StepPublicValues`
(`contracts/src/libraries/PublicValues.sol:17-26,67-72`), used by `abi_encode`/`abi_decode` in
`programs/vapp/stf/src/main.rs:100-101`, `programs/vapp/aggregation/src/main.rs:34,79-80` and by
`abi.decode` in `contracts/src/SuccinctVApp.sol:230`. The code of the ABI libraries is not in the
repository; this follows the ABI specification.
-/

namespace Verif

/-- Discriminant of `TransactionVariant`, `contracts/src/libraries/PublicValues.sol:29-33`. -/
def TxVariant.code : TxVariant → Nat
  | .deposit => 0
  | .withdraw => 1
  | .createProver => 2

/-- The enum value of a word; other words are refused. -/
def TxVariant.ofCode : Nat → Option TxVariant
  | 0 => some .deposit
  | 1 => some .withdraw
  | 2 => some .createProver
  | _ => none

/-- Discriminant of `TransactionStatus`, `contracts/src/libraries/PublicValues.sol:36-45`. -/
def TxStatus.code : TxStatus → Nat
  | .none => 0
  | .pending => 1
  | .completed => 2
  | .reverted => 3

/-- The enum value of a word; other words are refused. -/
def TxStatus.ofCode : Nat → Option TxStatus
  | 0 => some .none
  | 1 => some .pending
  | 2 => some .completed
  | 3 => some .reverted
  | _ => Option.none

/-! ## Encoder -/

/-- Number of zero bytes that pad `n` bytes to whole words. -/
def padLen (n : Nat) : Nat := (32 - n % 32) % 32

/-- ABI encoding of `bytes`: length word, content, zero padding. -/
def encBytes (b : Bytes) : Bytes := abiWord b.length ++ b ++ List.replicate (padLen b.length) 0

/-- ABI encoding of a `Receipt` (a dynamic tuple: four head words, then `action`),
`contracts/src/libraries/PublicValues.sol:17-26`. -/
def encReceipt (r : SolReceipt) : Bytes :=
  abiWord r.variant.code ++ (abiWord r.status.code ++ (abiWord r.onchainTxId.toNat ++
    (abiWord 128 ++ encBytes r.action)))

/-- Offsets of the elements, the first one at `o`. -/
def encOffsets : List SolReceipt → Nat → Bytes
  | [], _ => []
  | r :: rs, o => abiWord o ++ encOffsets rs (o + (encReceipt r).length)

/-- ABI encoding of `Receipt[]`: length word, offsets (relative to the end of the length word), elements. -/
def encReceipts (rs : List SolReceipt) : Bytes :=
  abiWord rs.length ++ (encOffsets rs (32 * rs.length) ++ rs.flatMap encReceipt)

/-- `StepPublicValues::abi_encode`, `programs/vapp/stf/src/main.rs:100`,
`programs/vapp/aggregation/src/main.rs:79`. -/
def StepValues.encode (s : StepValues) : Bytes :=
  abiWord 32 ++ (B256.bytes s.oldRoot ++ (B256.bytes s.newRoot ++ (abiWord s.timestamp.toNat ++
    (abiWord 128 ++ encReceipts s.receipts))))

/-! ## Decoder -/

/-- The word at offset `o`. -/
def readWord (bs : Bytes) (o : Nat) : Option Nat :=
  if o + 32 ≤ bs.length then some (beNat ((bs.drop o).take 32)) else none

/-- A `bytes` value at offset `o`. -/
def decBytes (bs : Bytes) (o : Nat) : Option Bytes :=
  match readWord bs o with
  | none => none
  | some n => if o + 32 + n ≤ bs.length then some ((bs.drop (o + 32)).take n) else none

/-- A `uint64` word; dirty high bits are refused. -/
def word64 (n : Nat) : Option U64 := if n < 2 ^ 64 then some (BitVec.ofNat 64 n) else none

/-- A `Receipt` at offset `o`. -/
def decReceipt (bs : Bytes) (o : Nat) : Option SolReceipt := do
  let v ← TxVariant.ofCode (← readWord bs o)
  let st ← TxStatus.ofCode (← readWord bs (o + 32))
  let id ← word64 (← readWord bs (o + 64))
  let off ← readWord bs (o + 96)
  let action ← decBytes bs (o + off)
  return ⟨v, st, id, action⟩

/-- The elements number `i`, `i+1`, ... (`n` of them) of an array whose offsets start at `base`. -/
def decElems (bs : Bytes) (base : Nat) : (n i : Nat) → Option (List SolReceipt)
  | 0, _ => some []
  | n + 1, i => do
    let off ← readWord bs (base + 32 * i)
    let r ← decReceipt bs (base + off)
    let rs ← decElems bs base n (i + 1)
    return r :: rs

/-- A `Receipt[]` at offset `o`. -/
def decReceipts (bs : Bytes) (o : Nat) : Option (List SolReceipt) := do
  let n ← readWord bs o
  decElems bs (o + 32) n 0

/-- `StepPublicValues::abi_decode`, `programs/vapp/aggregation/src/main.rs:34`, and
`abi.decode(_publicValues, (StepPublicValues))`, `contracts/src/SuccinctVApp.sol:230`.
Simplification: one decoder for both; on non-canonical input (dirty high bits) the two libraries may
differ from it, and no theorem depends on such input. -/
def StepValues.decode (bs : Bytes) : Option StepValues := do
  let o ← readWord bs 0
  let oldRoot ← readWord bs o
  let newRoot ← readWord bs (o + 32)
  let ts ← word64 (← readWord bs (o + 64))
  let off ← readWord bs (o + 96)
  let receipts ← decReceipts bs (o + off)
  return ⟨BitVec.ofNat 256 oldRoot, BitVec.ofNat 256 newRoot, ts, receipts⟩

end Verif
