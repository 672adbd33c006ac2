import Verif.Messages
/-
# Reading messages from the wire

`prost::Message::decode` for the message bodies of `crates/types/network/src/types.rs` (the code is derived by
`#[derive(::prost::Message)]`, prost 0.13.5, an external crate; rules as we read them there).

Simplifications: the whole input is first cut into fields and then these are merged into the message one after the
other, where prost does both field by field (the result is the same: an error in either is an error of `decode`). A
field of an embedded message that overruns it is refused by its own length check instead of the one after the loop.
-/

namespace Verif

/-! ## Cutting bytes into fields -/

/-- `prost::encoding::varint::decode_varint`: at most `fuel` bytes, the tenth below 2. -/
def readVarintAux : Nat → Bytes → Option (Nat × Bytes)
  | 0, _ => none
  | _ + 1, [] => none
  | fuel + 1, b :: bs =>
    if b.toNat < 128 then (if fuel = 0 ∧ 2 ≤ b.toNat then none else some (b.toNat, bs))
    else match readVarintAux fuel bs with
      | none => none
      | some (v, r) => some (b.toNat % 128 + 128 * v, r)

/-- `decode_varint`: ten bytes at most. -/
def readVarint (bs : Bytes) : Option (Nat × Bytes) := readVarintAux 10 bs

/-- `prost::encoding::decode_key`: tag and wire type. -/
def readKey (bs : Bytes) : Option (Nat × Nat × Bytes) :=
  match readVarint bs with
  | none => none
  | some (key, r) =>
    if 2 ^ 32 ≤ key then none
    else if 6 ≤ key % 8 then none
    else if key / 8 = 0 then none
    else some (key / 8, key % 8, r)

/-- The payload of a field as read: also the wire types no message of this crate uses, which only unknown fields
have. The contents of groups are skipped. -/
inductive Raw where
  | varint (n : Nat)
  | fixed64 (bs : Bytes)
  | len (bs : Bytes)
  | group
  | fixed32 (w : BitVec 32)
  deriving DecidableEq

/-- The next `n` bytes (`buf.remaining() < n` is an error). -/
def readBytes (n : Nat) (bs : Bytes) : Option (Bytes × Bytes) :=
  if bs.length < n then none else some (bs.take n, bs.drop n)

/-- The payload of a field that is not a group: `uint64::merge`, `bytes::merge`, `float::merge` and `skip_field`. -/
def readScalar (wt : Nat) (bs : Bytes) : Option (Raw × Bytes) :=
  if wt = 0 then match readVarint bs with
    | none => none
    | some (n, r) => some (.varint n, r)
  else if wt = 1 then match readBytes 8 bs with
    | none => none
    | some (x, r) => some (.fixed64 x, r)
  else if wt = 2 then match readVarint bs with
    | none => none
    | some (n, r) => match readBytes n r with
      | none => none
      | some (x, r) => some (.len x, r)
  else if wt = 5 then match readBytes 4 bs with
    | none => none
    | some (x, r) => some (.fixed32 (BitVec.ofNat 32 (beNat x.reverse)), r)
  else none

/-- `skip_field` for a group: `open` are the tags of the groups that are open, innermost first. In a stack of `limit`
groups nothing but ends is read (`DecodeContext::limit_reached`). -/
def skipGroup (limit : Nat) : Nat → List Nat → Bytes → Option Bytes
  | _, [], bs => some bs
  | 0, _ :: _, _ => none
  | fuel + 1, t :: ts, bs => match readKey bs with
    | none => none
    | some (tag, wt, r) =>
      if wt = 4 then (if tag = t then skipGroup limit fuel ts r else none)
      else if limit ≤ ts.length + 1 then none
      else if wt = 3 then skipGroup limit fuel (tag :: t :: ts) r
      else match readScalar wt r with
        | none => none
        | some (_, r) => skipGroup limit fuel (t :: ts) r

/-- One field: the key, then `merge_field`'s reading of the payload or `skip_field`. -/
def readField (limit : Nat) (bs : Bytes) : Option ((Nat × Raw) × Bytes) :=
  match readKey bs with
  | none => none
  | some (tag, wt, r) =>
    if wt = 3 then match skipGroup limit (r.length + 1) [tag] r with
      | none => none
      | some r => some ((tag, .group), r)
    else match readScalar wt r with
      | none => none
      | some (x, r) => some ((tag, x), r)

/-- The loop of `Message::merge`. -/
def readFieldsAux (limit : Nat) : Nat → Bytes → Option (List (Nat × Raw))
  | _, [] => some []
  | 0, _ :: _ => none
  | fuel + 1, b :: bs => match readField limit (b :: bs) with
    | none => none
    | some (f, r) => match readFieldsAux limit fuel r with
      | none => none
      | some fs => some (f :: fs)

/-- All fields of a message. -/
def readFields (limit : Nat) (bs : Bytes) : Option (List (Nat × Raw)) := readFieldsAux limit bs.length bs

/-! ## UTF-8 -/

/-- A continuation byte. -/
def isCont (b : UInt8) : Bool := 128 ≤ b.toNat && b.toNat ≤ 191

/-- `core::str::from_utf8` accepts the bytes (`run_utf8_validation`). -/
def utf8 : Bytes → Bool
  | [] => true
  | a :: bs =>
    if a.toNat < 128 then utf8 bs
    else if 0xC2 ≤ a.toNat ∧ a.toNat ≤ 0xDF then
      match bs with
      | b :: bs => isCont b && utf8 bs
      | _ => false
    else if 0xE0 ≤ a.toNat ∧ a.toNat ≤ 0xEF then
      match bs with
      | b :: c :: bs =>
        (if a.toNat = 0xE0 then decide (0xA0 ≤ b.toNat ∧ b.toNat ≤ 0xBF)
         else if a.toNat = 0xED then decide (0x80 ≤ b.toNat ∧ b.toNat ≤ 0x9F) else isCont b) && isCont c && utf8 bs
      | _ => false
    else if 0xF0 ≤ a.toNat ∧ a.toNat ≤ 0xF4 then
      match bs with
      | b :: c :: d :: bs =>
        (if a.toNat = 0xF0 then decide (0x90 ≤ b.toNat ∧ b.toNat ≤ 0xBF)
         else if a.toNat = 0xF4 then decide (0x80 ≤ b.toNat ∧ b.toNat ≤ 0x8F) else isCont b) && isCont c && isCont d && utf8 bs
      | _ => false
    else false

/-! ## Merging fields -/

/-- `uint64::merge`. -/
def Raw.u64 : Raw → Option U64
  | .varint n => some (BitVec.ofNat 64 n)
  | _ => none
/-- `int32::merge` (enumerations): `as i32`. -/
def Raw.i32 : Raw → Option I32
  | .varint n => some (BitVec.ofNat 32 n)
  | _ => none
/-- `bool::merge`. -/
def Raw.bool : Raw → Option Bool
  | .varint n => some (n != 0)
  | _ => none
/-- `bytes::merge`. -/
def Raw.bytes : Raw → Option Bytes
  | .len bs => some bs
  | _ => none
/-- `string::merge`. -/
def Raw.string : Raw → Option Bytes
  | .len bs => if utf8 bs then some bs else none
  | _ => none
/-- `float::merge`. -/
def Raw.float : Raw → Option (BitVec 32)
  | .fixed32 w => some w
  | _ => none

/-- `ReservedMetadata::merge_field`, `crates/types/network/src/types.rs:191-195`. -/
def ReservedMetadata.merge (m : ReservedMetadata) : Nat × Raw → Option ReservedMetadata
  | (1, x) => x.float.map fun v => { m with onDemandRatio := some v }
  | _ => some m

/-- `message::merge` into an optional embedded message; the recursion limit is one lower. -/
def Raw.metadata (cur : Option ReservedMetadata) : Raw → Option ReservedMetadata
  | .len bs => match readFields 99 bs with
    | none => none
    | some fs => fs.foldlM ReservedMetadata.merge (cur.getD {})
  | _ => none

/-- `SetDelegationRequestBody::merge_field`, `crates/types/network/src/types.rs:2022`. -/
def DelegateBody.merge (b : DelegateBody) : Nat × Raw → Option DelegateBody
  | (1, x) => x.u64.map fun v => { b with nonce := v }
  | (2, x) => x.bytes.map fun v => { b with delegate := v }
  | (3, x) => x.bytes.map fun v => { b with prover := v }
  | (4, x) => x.bytes.map fun v => { b with domain := v }
  | (5, x) => x.i32.map fun v => { b with variant := v }
  | (6, x) => x.bytes.map fun v => { b with auctioneer := v }
  | (7, x) => x.string.map fun v => { b with fee := v }
  | _ => some b

/-- `TransferRequestBody::merge_field`, `crates/types/network/src/types.rs:1230`. -/
def TransferBody.merge (b : TransferBody) : Nat × Raw → Option TransferBody
  | (1, x) => x.u64.map fun v => { b with nonce := v }
  | (2, x) => x.bytes.map fun v => { b with to := v }
  | (3, x) => x.string.map fun v => { b with amount := v }
  | (4, x) => x.bytes.map fun v => { b with domain := v }
  | (5, x) => x.i32.map fun v => { b with variant := v }
  | (6, x) => x.bytes.map fun v => { b with auctioneer := v }
  | (7, x) => x.string.map fun v => { b with fee := v }
  | _ => some b

/-- `WithdrawRequestBody::merge_field`, `crates/types/network/src/types.rs:53`. -/
def WithdrawBody.merge (b : WithdrawBody) : Nat × Raw → Option WithdrawBody
  | (1, x) => x.u64.map fun v => { b with nonce := v }
  | (2, x) => x.bytes.map fun v => { b with account := v }
  | (3, x) => x.string.map fun v => { b with amount := v }
  | (4, x) => x.bytes.map fun v => { b with domain := v }
  | (5, x) => x.i32.map fun v => { b with variant := v }
  | (6, x) => x.bytes.map fun v => { b with auctioneer := v }
  | (7, x) => x.string.map fun v => { b with fee := v }
  | _ => some b

/-- `RequestProofRequestBody::merge_field`, `crates/types/network/src/types.rs:104`. -/
def RequestBody.merge (b : RequestBody) : Nat × Raw → Option RequestBody
  | (1, x) => x.u64.map fun v => { b with nonce := v }
  | (2, x) => x.bytes.map fun v => { b with vkHash := v }
  | (3, x) => x.string.map fun v => { b with version := v }
  | (4, x) => x.i32.map fun v => { b with mode := v }
  | (5, x) => x.i32.map fun v => { b with strategy := v }
  | (6, x) => x.string.map fun v => { b with stdinUri := v }
  | (7, x) => x.u64.map fun v => { b with deadline := v }
  | (8, x) => x.u64.map fun v => { b with cycleLimit := v }
  | (9, x) => x.u64.map fun v => { b with gasLimit := v }
  | (10, x) => x.u64.map fun v => { b with minAuctionPeriod := v }
  | (11, x) => x.bytes.map fun v => { b with whitelist := b.whitelist ++ [v] }
  | (12, x) => x.bytes.map fun v => { b with domain := v }
  | (13, x) => x.bytes.map fun v => { b with auctioneer := v }
  | (14, x) => x.bytes.map fun v => { b with executor := v }
  | (15, x) => x.bytes.map fun v => { b with verifier := v }
  | (16, x) => x.bytes.map fun v => { b with publicValuesHash := some v }
  | (17, x) => x.string.map fun v => { b with baseFee := v }
  | (18, x) => x.string.map fun v => { b with maxPricePerPgu := v }
  | (19, x) => x.i32.map fun v => { b with variant := v }
  | (20, x) => x.bytes.map fun v => { b with treasury := v }
  | (21, x) => x.bool.map fun v => { b with stdinPrivate := v }
  | _ => some b

/-- `BidRequestBody::merge_field`, `crates/types/network/src/types.rs:1338`. -/
def BidBody.merge (b : BidBody) : Nat × Raw → Option BidBody
  | (1, x) => x.u64.map fun v => { b with nonce := v }
  | (2, x) => x.bytes.map fun v => { b with requestId := v }
  | (3, x) => x.string.map fun v => { b with amount := v }
  | (4, x) => x.bytes.map fun v => { b with domain := v }
  | (5, x) => x.bytes.map fun v => { b with prover := v }
  | (6, x) => x.i32.map fun v => { b with variant := v }
  | _ => some b

/-- `SettleRequestBody::merge_field`, `crates/types/network/src/types.rs:1386`. -/
def SettleBody.merge (b : SettleBody) : Nat × Raw → Option SettleBody
  | (1, x) => x.u64.map fun v => { b with nonce := v }
  | (2, x) => x.bytes.map fun v => { b with requestId := v }
  | (3, x) => x.bytes.map fun v => { b with winner := v }
  | (4, x) => x.bytes.map fun v => { b with domain := v }
  | (5, x) => x.i32.map fun v => { b with variant := v }
  | _ => some b

/-- `ExecuteProofRequestBody::merge_field`, `crates/types/network/src/types.rs:259`. -/
def ExecuteBody.merge (b : ExecuteBody) : Nat × Raw → Option ExecuteBody
  | (1, x) => x.u64.map fun v => { b with nonce := v }
  | (2, x) => x.bytes.map fun v => { b with requestId := v }
  | (3, x) => x.i32.map fun v => { b with executionStatus := v }
  | (4, x) => x.bytes.map fun v => { b with publicValuesHash := some v }
  | (5, x) => x.u64.map fun v => { b with cycles := some v }
  | (6, x) => x.u64.map fun v => { b with pgus := some v }
  | (7, x) => x.bytes.map fun v => { b with domain := v }
  | (8, x) => x.string.map fun v => { b with punishment := some v }
  | (9, x) => x.i32.map fun v => { b with failureCause := some v }
  | (10, x) => x.i32.map fun v => { b with variant := v }
  | _ => some b

/-- `FulfillProofRequestBody::merge_field`, `crates/types/network/src/types.rs:211`. -/
def FulfillBody.merge (b : FulfillBody) : Nat × Raw → Option FulfillBody
  | (1, x) => x.u64.map fun v => { b with nonce := v }
  | (2, x) => x.bytes.map fun v => { b with requestId := v }
  | (3, x) => x.bytes.map fun v => { b with proof := v }
  | (4, x) => (x.metadata b.reservedMetadata).map fun v => { b with reservedMetadata := some v }
  | (5, x) => x.bytes.map fun v => { b with domain := v }
  | (6, x) => x.i32.map fun v => { b with variant := v }
  | _ => some b

/-- `merge_field` of a body of any kind. -/
def Body.merge : Body → Nat × Raw → Option Body
  | .delegate b, f => (b.merge f).map .delegate
  | .transfer b, f => (b.merge f).map .transfer
  | .withdraw b, f => (b.merge f).map .withdraw
  | .request b, f => (b.merge f).map .request
  | .bid b, f => (b.merge f).map .bid
  | .settle b, f => (b.merge f).map .settle
  | .execute b, f => (b.merge f).map .execute
  | .fulfill b, f => (b.merge f).map .fulfill

/-- `Default::default()` of the body of a kind. -/
def Body.default : Variant → Body
  | .delegate => .delegate {}
  | .transfer => .transfer {}
  | .withdraw => .withdraw {}
  | .request => .request {}
  | .bid => .bid {}
  | .settle => .settle {}
  | .execute => .execute {}
  | .fulfill => .fulfill {}

/-- `<Body as prost::Message>::decode` for the body of a kind. -/
def Body.decode (k : Variant) (bs : Bytes) : Option Body :=
  match readFields 100 bs with
  | none => none
  | some fs => fs.foldlM Body.merge (Body.default k)

end Verif
