import Verif.Basic
/-
# Protobuf messages and their wire encoding

Models the message bodies of `crates/types/network/src/types.rs` that the vApp consumes and the
encoding `prost::Message::encode` derives for them (external crate; rules as documented for proto3:
fields in increasing tag order, singular scalar fields skipped when they have the default value,
`optional` fields written whenever present, repeated fields written element by element).

Simplification: a Rust `String` is represented by its UTF-8 bytes.
-/

namespace Verif

/-- `enum TransactionVariant`, `crates/types/network/src/types.rs` (`as i32` values). -/
inductive Variant where
  | request | bid | settle | execute | fulfill | delegate | transfer | withdraw
  deriving DecidableEq, Repr

/-- `TransactionVariant as i32`. -/
def Variant.toI32 : Variant → I32
  | .request => 0 | .bid => 1 | .settle => 2 | .execute => 3
  | .fulfill => 4 | .delegate => 5 | .transfer => 6 | .withdraw => 7

/-- `TransactionVariant::try_from(i32)` as used by `crates/vapp/src/utils.rs:27-29`. -/
def Variant.ofI32? (v : I32) : Option Variant :=
  if v = 0 then some .request else if v = 1 then some .bid else if v = 2 then some .settle
  else if v = 3 then some .execute else if v = 4 then some .fulfill else if v = 5 then some .delegate
  else if v = 6 then some .transfer else if v = 7 then some .withdraw else none

/-- `SetDelegationRequestBody`, `crates/types/network/src/types.rs:2022`. -/
structure DelegateBody where
  nonce : U64 := 0
  delegate : Bytes := []
  prover : Bytes := []
  domain : Bytes := []
  variant : I32 := 0
  auctioneer : Bytes := []
  fee : Bytes := []
  deriving DecidableEq

/-- `TransferRequestBody`, `crates/types/network/src/types.rs:1230`. -/
structure TransferBody where
  nonce : U64 := 0
  to : Bytes := []
  amount : Bytes := []
  domain : Bytes := []
  variant : I32 := 0
  auctioneer : Bytes := []
  fee : Bytes := []
  deriving DecidableEq

/-- `WithdrawRequestBody`, `crates/types/network/src/types.rs:53`. -/
structure WithdrawBody where
  nonce : U64 := 0
  account : Bytes := []
  amount : Bytes := []
  domain : Bytes := []
  variant : I32 := 0
  auctioneer : Bytes := []
  fee : Bytes := []
  deriving DecidableEq

/-- `RequestProofRequestBody`, `crates/types/network/src/types.rs:104`. -/
structure RequestBody where
  nonce : U64 := 0
  vkHash : Bytes := []
  version : Bytes := []
  mode : I32 := 0
  strategy : I32 := 0
  stdinUri : Bytes := []
  deadline : U64 := 0
  cycleLimit : U64 := 0
  gasLimit : U64 := 0
  minAuctionPeriod : U64 := 0
  whitelist : List Bytes := []
  domain : Bytes := []
  auctioneer : Bytes := []
  executor : Bytes := []
  verifier : Bytes := []
  publicValuesHash : Option Bytes := none
  baseFee : Bytes := []
  maxPricePerPgu : Bytes := []
  variant : I32 := 0
  treasury : Bytes := []
  stdinPrivate : Bool := false
  deriving DecidableEq

/-- `BidRequestBody`, `crates/types/network/src/types.rs:1338`. -/
structure BidBody where
  nonce : U64 := 0
  requestId : Bytes := []
  amount : Bytes := []
  domain : Bytes := []
  prover : Bytes := []
  variant : I32 := 0
  deriving DecidableEq

/-- `SettleRequestBody`, `crates/types/network/src/types.rs:1386`. -/
structure SettleBody where
  nonce : U64 := 0
  requestId : Bytes := []
  winner : Bytes := []
  domain : Bytes := []
  variant : I32 := 0
  deriving DecidableEq

/-- `ExecuteProofRequestBody`, `crates/types/network/src/types.rs:259`. -/
structure ExecuteBody where
  nonce : U64 := 0
  requestId : Bytes := []
  executionStatus : I32 := 0
  publicValuesHash : Option Bytes := none
  cycles : Option U64 := none
  pgus : Option U64 := none
  domain : Bytes := []
  punishment : Option Bytes := none
  failureCause : Option I32 := none
  variant : I32 := 0
  deriving DecidableEq

/-- `ReservedMetadata`, `crates/types/network/src/types.rs`: an optional `f32`, kept as its bit
pattern. -/
structure ReservedMetadata where
  onDemandRatio : Option (BitVec 32) := none
  deriving DecidableEq

/-- `FulfillProofRequestBody`, `crates/types/network/src/types.rs:211`. -/
structure FulfillBody where
  nonce : U64 := 0
  requestId : Bytes := []
  proof : Bytes := []
  reservedMetadata : Option ReservedMetadata := none
  domain : Bytes := []
  variant : I32 := 0
  deriving DecidableEq

/-- A body of any of the eight signed message kinds. -/
inductive Body where
  | delegate (b : DelegateBody)
  | transfer (b : TransferBody)
  | withdraw (b : WithdrawBody)
  | request (b : RequestBody)
  | bid (b : BidBody)
  | settle (b : SettleBody)
  | execute (b : ExecuteBody)
  | fulfill (b : FulfillBody)
  deriving DecidableEq

/-! ## Wire format -/

/-- Payload of one field on the wire: varint (wire type 0), length-delimited (2) or 32-bit (5). -/
inductive Wire where
  | varint (n : Nat)
  | len (bs : Bytes)
  | fixed32 (w : BitVec 32)
  deriving DecidableEq

/-- LEB128 with a recursion bound. -/
def varintAux : Nat → Nat → Bytes
  | 0, n => [UInt8.ofNat n]
  | fuel + 1, n =>
    if n < 128 then [UInt8.ofNat n] else UInt8.ofNat (n % 128 + 128) :: varintAux fuel (n / 128)

/-- LEB128 varint, `prost::encoding::encode_varint`. The bound `n` is never reached, see
`varint_eq`. -/
def varint (n : Nat) : Bytes := varintAux n n

theorem varintAux_eq (f g n : Nat) (hf : n ≤ f) (hg : n ≤ g) : varintAux f n = varintAux g n := by
  induction f generalizing g n with
  | zero =>
    have : n = 0 := by omega
    subst this
    cases g <;> simp [varintAux]
  | succ f ih =>
    cases g with
    | zero =>
      have : n = 0 := by omega
      subst this
      simp [varintAux]
    | succ g =>
      simp only [varintAux]
      split
      · rfl
      · rw [ih g (n / 128) (by omega) (by omega)]

/-- The defining equation of LEB128. -/
theorem varint_eq (n : Nat) : varint n =
    if n < 128 then [UInt8.ofNat n] else UInt8.ofNat (n % 128 + 128) :: varint (n / 128) := by
  unfold varint
  cases n with
  | zero => simp [varintAux]
  | succ n =>
    conv => lhs; unfold varintAux
    split
    · rfl
    · rw [varintAux_eq n ((n + 1) / 128) _ (by omega) (by omega)]

/-- The little-endian bytes of a 32-bit word (`prost` `float` encoding). -/
def le32 (w : BitVec 32) : Bytes := (beBytes 4 w.toNat).reverse

/-- Wire type number. -/
def Wire.typ : Wire → Nat
  | .varint _ => 0 | .len _ => 2 | .fixed32 _ => 5

/-- Encoding of one field: key `(tag << 3) | wire_type`, then the payload. -/
def encField : Nat × Wire → Bytes
  | (tag, .varint n) => varint (tag * 8 + 0) ++ varint n
  | (tag, .len bs) => varint (tag * 8 + 2) ++ (varint bs.length ++ bs)
  | (tag, .fixed32 w) => varint (tag * 8 + 5) ++ le32 w

/-- Encoding of a field list. -/
def encFields (fs : List (Nat × Wire)) : Bytes := fs.flatMap encField

/-- Singular `uint64`: skipped when zero. -/
def fU64 (tag : Nat) (x : U64) : List (Nat × Wire) := if x = 0 then [] else [(tag, .varint x.toNat)]
/-- Singular enumeration: skipped when zero; `i32 as u64` sign-extends. -/
def fEnum (tag : Nat) (x : I32) : List (Nat × Wire) :=
  if x = 0 then [] else [(tag, .varint (x.signExtend 64).toNat)]
/-- Singular `bool`: skipped when false. -/
def fBool (tag : Nat) (x : Bool) : List (Nat × Wire) := if x then [(tag, .varint 1)] else []
/-- Singular `bytes`/`string`: skipped when empty. -/
def fBytes (tag : Nat) (x : Bytes) : List (Nat × Wire) := if x = [] then [] else [(tag, .len x)]
/-- `optional uint64`. -/
def fOptU64 (tag : Nat) (x : Option U64) : List (Nat × Wire) :=
  match x with | none => [] | some v => [(tag, .varint v.toNat)]
/-- `optional` enumeration. -/
def fOptEnum (tag : Nat) (x : Option I32) : List (Nat × Wire) :=
  match x with | none => [] | some v => [(tag, .varint (v.signExtend 64).toNat)]
/-- `optional bytes`/`string`. -/
def fOptBytes (tag : Nat) (x : Option Bytes) : List (Nat × Wire) :=
  match x with | none => [] | some v => [(tag, .len v)]
/-- `repeated bytes`. -/
def fRep (tag : Nat) (x : List Bytes) : List (Nat × Wire) := x.map (fun b => (tag, .len b))
/-- `optional float`. -/
def fOptFloat (tag : Nat) (x : Option (BitVec 32)) : List (Nat × Wire) :=
  match x with | none => [] | some v => [(tag, .fixed32 v)]

/-- Fields of `ReservedMetadata`. -/
def ReservedMetadata.fields (m : ReservedMetadata) : List (Nat × Wire) := fOptFloat 1 m.onDemandRatio

/-- `optional` embedded message. -/
def fOptMsg (tag : Nat) (x : Option ReservedMetadata) : List (Nat × Wire) :=
  match x with | none => [] | some m => [(tag, .len (encFields m.fields))]

/-- Fields of `SetDelegationRequestBody` (tags at `types.rs:2022`). -/
def DelegateBody.fields (b : DelegateBody) : List (Nat × Wire) :=
  fU64 1 b.nonce ++ (fBytes 2 b.delegate ++ (fBytes 3 b.prover ++ (fBytes 4 b.domain ++
  (fEnum 5 b.variant ++ (fBytes 6 b.auctioneer ++ fBytes 7 b.fee)))))

/-- Fields of `TransferRequestBody` (tags at `types.rs:1230`). -/
def TransferBody.fields (b : TransferBody) : List (Nat × Wire) :=
  fU64 1 b.nonce ++ (fBytes 2 b.to ++ (fBytes 3 b.amount ++ (fBytes 4 b.domain ++
  (fEnum 5 b.variant ++ (fBytes 6 b.auctioneer ++ fBytes 7 b.fee)))))

/-- Fields of `WithdrawRequestBody` (tags at `types.rs:53`). -/
def WithdrawBody.fields (b : WithdrawBody) : List (Nat × Wire) :=
  fU64 1 b.nonce ++ (fBytes 2 b.account ++ (fBytes 3 b.amount ++ (fBytes 4 b.domain ++
  (fEnum 5 b.variant ++ (fBytes 6 b.auctioneer ++ fBytes 7 b.fee)))))

/-- Fields of `RequestProofRequestBody` (tags at `types.rs:104`). -/
def RequestBody.fields (b : RequestBody) : List (Nat × Wire) :=
  fU64 1 b.nonce ++ (fBytes 2 b.vkHash ++ (fBytes 3 b.version ++ (fEnum 4 b.mode ++
  (fEnum 5 b.strategy ++ (fBytes 6 b.stdinUri ++ (fU64 7 b.deadline ++ (fU64 8 b.cycleLimit ++
  (fU64 9 b.gasLimit ++ (fU64 10 b.minAuctionPeriod ++ (fRep 11 b.whitelist ++
  (fBytes 12 b.domain ++ (fBytes 13 b.auctioneer ++ (fBytes 14 b.executor ++
  (fBytes 15 b.verifier ++ (fOptBytes 16 b.publicValuesHash ++ (fBytes 17 b.baseFee ++
  (fBytes 18 b.maxPricePerPgu ++ (fEnum 19 b.variant ++ (fBytes 20 b.treasury ++
  fBool 21 b.stdinPrivate)))))))))))))))))))

/-- Fields of `BidRequestBody` (tags at `types.rs:1338`). -/
def BidBody.fields (b : BidBody) : List (Nat × Wire) :=
  fU64 1 b.nonce ++ (fBytes 2 b.requestId ++ (fBytes 3 b.amount ++ (fBytes 4 b.domain ++
  (fBytes 5 b.prover ++ fEnum 6 b.variant))))

/-- Fields of `SettleRequestBody` (tags at `types.rs:1386`). -/
def SettleBody.fields (b : SettleBody) : List (Nat × Wire) :=
  fU64 1 b.nonce ++ (fBytes 2 b.requestId ++ (fBytes 3 b.winner ++ (fBytes 4 b.domain ++
  fEnum 5 b.variant)))

/-- Fields of `ExecuteProofRequestBody` (tags at `types.rs:259`). -/
def ExecuteBody.fields (b : ExecuteBody) : List (Nat × Wire) :=
  fU64 1 b.nonce ++ (fBytes 2 b.requestId ++ (fEnum 3 b.executionStatus ++
  (fOptBytes 4 b.publicValuesHash ++ (fOptU64 5 b.cycles ++ (fOptU64 6 b.pgus ++
  (fBytes 7 b.domain ++ (fOptBytes 8 b.punishment ++ (fOptEnum 9 b.failureCause ++
  fEnum 10 b.variant))))))))

/-- Fields of `FulfillProofRequestBody` (tags at `types.rs:211`). -/
def FulfillBody.fields (b : FulfillBody) : List (Nat × Wire) :=
  fU64 1 b.nonce ++ (fBytes 2 b.requestId ++ (fBytes 3 b.proof ++ (fOptMsg 4 b.reservedMetadata ++
  (fBytes 5 b.domain ++ fEnum 6 b.variant))))

/-- Fields of a body. -/
def Body.fields : Body → List (Nat × Wire)
  | .delegate b => b.fields
  | .transfer b => b.fields
  | .withdraw b => b.fields
  | .request b => b.fields
  | .bid b => b.fields
  | .settle b => b.fields
  | .execute b => b.fields
  | .fulfill b => b.fields

/-- `prost::Message::encode` of a body (never fails: a `Vec<u8>` has unlimited capacity). -/
def Body.encode (b : Body) : Bytes := encFields b.fields

end Verif
