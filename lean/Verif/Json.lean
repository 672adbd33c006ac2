import Verif.Node
import Verif.Domain
/-
# JSON rendering of message bodies

`serde_json::to_vec` (external crate, compact format) of the bodies in `crates/types/network/src/types.rs`, which derive
`serde::Serialize` without attributes (`crates/types/network/build.rs:10`): an object with the fields in order of
declaration; `Vec<u8>` is an array of numbers, an enumeration its `i32`, an absent option `null`.
-/

namespace Verif.Json
open Domain (ascii)
open Node (decimal)

/-- A hexadecimal digit in lower case. -/
def hex (n : Nat) : UInt8 := if n < 10 then UInt8.ofNat (48 + n) else UInt8.ofNat (87 + n)

/-- Escapes inside a string, `serde_json::ser::ESCAPE`: control characters, the quote and the backslash; other bytes
stand for themselves. -/
def escape (b : UInt8) : Bytes :=
  if b = 34 then [92, 34] else if b = 92 then [92, 92]
  else if b = 8 then [92, 98] else if b = 9 then [92, 116] else if b = 10 then [92, 110]
  else if b = 12 then [92, 102] else if b = 13 then [92, 114]
  else if b.toNat < 32 then [92, 117, 48, 48, hex (b.toNat / 16), hex (b.toNat % 16)]
  else [b]

/-- A string. -/
def string (s : Bytes) : Bytes := 34 :: (s.flatMap escape ++ [34])

/-- Texts with commas between them. -/
def commas : List Bytes → Bytes
  | [] => []
  | [t] => t
  | t :: ts => t ++ 44 :: commas ts

/-- An array. -/
def array (ts : List Bytes) : Bytes := 91 :: (commas ts ++ [93])

/-- A `Vec<u8>`. -/
def bytes (b : Bytes) : Bytes := array (b.map fun x => decimal x.toNat)

/-- An `i32`. -/
def int (x : I32) : Bytes := if x.toInt < 0 then 45 :: decimal x.toInt.natAbs else decimal x.toInt.natAbs

/-- `null`. -/
def null : Bytes := [110, 117, 108, 108]

/-- An option. -/
def option {α : Type} (f : α → Bytes) : Option α → Bytes
  | none => null
  | some x => f x

/-- An object. -/
def object (fs : List (Bytes × Bytes)) : Bytes := 123 :: (commas (fs.map fun f => string f.1 ++ 58 :: f.2) ++ [125])

/-- `f32::is_finite` of a bit pattern: the exponent is not all ones. -/
def finite (w : BitVec 32) : Bool := decide (w.toNat / 2 ^ 23 % 2 ^ 8 ≠ 255)

/-- An `f32`: the shortest decimal that reads back (`ryu`, a parameter); `null` if it is not finite. -/
def float (ryu : BitVec 32 → Bytes) (w : BitVec 32) : Bytes := if finite w then ryu w else null

/-- The types of fields in message bodies. -/
inductive Val where
  | u64 (x : U64) | i32 (x : I32) | bool (x : Bool) | bytes (b : Bytes) | string (b : Bytes) | list (l : List Bytes)
  | optBytes (o : Option Bytes) | optU64 (o : Option U64) | optI32 (o : Option I32) | optString (o : Option Bytes)
  | metadata (o : Option ReservedMetadata)

/-- The text of a field. -/
def Val.text (ryu : BitVec 32 → Bytes) : Val → Bytes
  | .u64 x => decimal x.toNat
  | .i32 x => int x
  | .bool x => if x then ascii "true".toList else ascii "false".toList
  | .bytes b => Json.bytes b
  | .string b => Json.string b
  | .list l => array (l.map Json.bytes)
  | .optBytes o => option Json.bytes o
  | .optU64 o => option (fun x => decimal x.toNat) o
  | .optI32 o => option int o
  | .optString o => option Json.string o
  | .metadata o => option (fun m => object [(ascii "on_demand_ratio".toList, option (float ryu) m.onDemandRatio)]) o

/-- Fields of `SetDelegationRequestBody`, `crates/types/network/src/types.rs:2022-2044`. -/
def delegate (b : DelegateBody) : List (String × Val) :=
  [("nonce", .u64 b.nonce), ("delegate", .bytes b.delegate), ("prover", .bytes b.prover), ("domain", .bytes b.domain),
   ("variant", .i32 b.variant), ("auctioneer", .bytes b.auctioneer), ("fee", .string b.fee)]

/-- Fields of `TransferRequestBody`, `types.rs:1230-1252`. -/
def transfer (b : TransferBody) : List (String × Val) :=
  [("nonce", .u64 b.nonce), ("to", .bytes b.to), ("amount", .string b.amount), ("domain", .bytes b.domain),
   ("variant", .i32 b.variant), ("auctioneer", .bytes b.auctioneer), ("fee", .string b.fee)]

/-- Fields of `WithdrawRequestBody`, `types.rs:53-75`. -/
def withdraw (b : WithdrawBody) : List (String × Val) :=
  [("nonce", .u64 b.nonce), ("account", .bytes b.account), ("amount", .string b.amount), ("domain", .bytes b.domain),
   ("variant", .i32 b.variant), ("auctioneer", .bytes b.auctioneer), ("fee", .string b.fee)]

/-- Fields of `RequestProofRequestBody`, `types.rs:104-171`. -/
def request (b : RequestBody) : List (String × Val) :=
  [("nonce", .u64 b.nonce), ("vk_hash", .bytes b.vkHash), ("version", .string b.version), ("mode", .i32 b.mode),
   ("strategy", .i32 b.strategy), ("stdin_uri", .string b.stdinUri), ("deadline", .u64 b.deadline),
   ("cycle_limit", .u64 b.cycleLimit), ("gas_limit", .u64 b.gasLimit), ("min_auction_period", .u64 b.minAuctionPeriod),
   ("whitelist", .list b.whitelist), ("domain", .bytes b.domain), ("auctioneer", .bytes b.auctioneer),
   ("executor", .bytes b.executor), ("verifier", .bytes b.verifier), ("public_values_hash", .optBytes b.publicValuesHash),
   ("base_fee", .string b.baseFee), ("max_price_per_pgu", .string b.maxPricePerPgu), ("variant", .i32 b.variant),
   ("treasury", .bytes b.treasury), ("stdin_private", .bool b.stdinPrivate)]

/-- Fields of `BidRequestBody`, `types.rs:1338-1357`. -/
def bid (b : BidBody) : List (String × Val) :=
  [("nonce", .u64 b.nonce), ("request_id", .bytes b.requestId), ("amount", .string b.amount), ("domain", .bytes b.domain),
   ("prover", .bytes b.prover), ("variant", .i32 b.variant)]

/-- Fields of `SettleRequestBody`, `types.rs:1386-1402`. -/
def settle (b : SettleBody) : List (String × Val) :=
  [("nonce", .u64 b.nonce), ("request_id", .bytes b.requestId), ("winner", .bytes b.winner), ("domain", .bytes b.domain),
   ("variant", .i32 b.variant)]

/-- Fields of `ExecuteProofRequestBody`, `types.rs:259-293`. -/
def execute (b : ExecuteBody) : List (String × Val) :=
  [("nonce", .u64 b.nonce), ("request_id", .bytes b.requestId), ("execution_status", .i32 b.executionStatus),
   ("public_values_hash", .optBytes b.publicValuesHash), ("cycles", .optU64 b.cycles), ("pgus", .optU64 b.pgus),
   ("domain", .bytes b.domain), ("punishment", .optString b.punishment), ("failure_cause", .optI32 b.failureCause),
   ("variant", .i32 b.variant)]

/-- Fields of `FulfillProofRequestBody`, `types.rs:211-230`. -/
def fulfill (b : FulfillBody) : List (String × Val) :=
  [("nonce", .u64 b.nonce), ("request_id", .bytes b.requestId), ("proof", .bytes b.proof),
   ("reserved_metadata", .metadata b.reservedMetadata), ("domain", .bytes b.domain), ("variant", .i32 b.variant)]

/-- Fields of a body. -/
def fields : Body → List (String × Val)
  | .delegate b => delegate b
  | .transfer b => transfer b
  | .withdraw b => withdraw b
  | .request b => request b
  | .bid b => bid b
  | .settle b => settle b
  | .execute b => execute b
  | .fulfill b => fulfill b

/-- `serde_json::to_vec` of a body, `crates/vapp/src/signing.rs:35-38`; it does not fail on these types. -/
def body (ryu : BitVec 32 → Bytes) (b : Body) : Bytes :=
  object ((fields b).map fun f => (ascii f.1.toList, f.2.text ryu))

/-- What `personal_sign` hashes, `alloy_primitives::eip191_hash_message`, used by `recover_address_from_msg`,
`signing.rs:49-57`. -/
def personal (m : Bytes) : Bytes := 25 :: (ascii "Ethereum Signed Message:\n".toList ++ (decimal m.length ++ m))

end Verif.Json
