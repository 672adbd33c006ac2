import Verif.Messages
/-
# What reading a message is about
-/

namespace Verif

/-- The fields of a message that are text. -/
def Body.strings : Body → List Bytes
  | .delegate b => [b.fee]
  | .transfer b => [b.amount, b.fee]
  | .withdraw b => [b.amount, b.fee]
  | .request b => [b.version, b.stdinUri, b.baseFee, b.maxPricePerPgu]
  | .bid b => [b.amount]
  | .settle _ => []
  | .execute b => b.punishment.toList
  | .fulfill _ => []

/-- The fields of a message that are texts or byte strings. -/
def Body.blobs : Body → List Bytes
  | .delegate b => [b.delegate, b.prover, b.domain, b.auctioneer, b.fee]
  | .transfer b => [b.to, b.amount, b.domain, b.auctioneer, b.fee]
  | .withdraw b => [b.account, b.amount, b.domain, b.auctioneer, b.fee]
  | .request b => [b.vkHash, b.version, b.stdinUri, b.domain, b.auctioneer, b.executor, b.verifier, b.baseFee,
      b.maxPricePerPgu, b.treasury] ++ b.publicValuesHash.toList ++ b.whitelist
  | .bid b => [b.requestId, b.amount, b.domain, b.prover]
  | .settle b => [b.requestId, b.winner, b.domain]
  | .execute b => [b.requestId, b.domain] ++ b.publicValuesHash.toList ++ b.punishment.toList
  | .fulfill b => [b.requestId, b.proof, b.domain]

/-- The UTF-8 encoding of a code point. -/
def utf8Char (c : Nat) : Bytes :=
  if c < 0x80 then [UInt8.ofNat c]
  else if c < 0x800 then [UInt8.ofNat (0xC0 + c / 64), UInt8.ofNat (0x80 + c % 64)]
  else if c < 0x10000 then
    [UInt8.ofNat (0xE0 + c / 4096), UInt8.ofNat (0x80 + c / 64 % 64), UInt8.ofNat (0x80 + c % 64)]
  else [UInt8.ofNat (0xF0 + c / 262144), UInt8.ofNat (0x80 + c / 4096 % 64), UInt8.ofNat (0x80 + c / 64 % 64),
    UInt8.ofNat (0x80 + c % 64)]

/-- The bytes are some text in UTF-8. -/
def IsText (bs : Bytes) : Prop := ∃ l : List Char, bs = l.flatMap fun c => utf8Char c.toNat

/-- The types of fields. -/
inductive FieldType where
  | uint | enum | flag | bytes | text | message
  deriving DecidableEq

/-- The types of the fields of each kind of message, in the order of their tags 1, 2, .. (the `#[prost(..)]`
attributes of `crates/types/network/src/types.rs`). -/
def fieldTypes : Variant → List FieldType
  | .delegate => [.uint, .bytes, .bytes, .bytes, .enum, .bytes, .text]
  | .transfer => [.uint, .bytes, .text, .bytes, .enum, .bytes, .text]
  | .withdraw => [.uint, .bytes, .text, .bytes, .enum, .bytes, .text]
  | .request => [.uint, .bytes, .text, .enum, .enum, .text, .uint, .uint, .uint, .uint, .bytes, .bytes,
      .bytes, .bytes, .bytes, .bytes, .text, .text, .enum, .bytes, .flag]
  | .bid => [.uint, .bytes, .text, .bytes, .bytes, .enum]
  | .settle => [.uint, .bytes, .bytes, .bytes, .enum]
  | .execute => [.uint, .bytes, .enum, .bytes, .uint, .uint, .bytes, .text, .enum, .enum]
  | .fulfill => [.uint, .bytes, .bytes, .message, .bytes, .enum]

/-- The type of the field with a tag; none if the message has no such field. -/
def fieldType (k : Variant) : Nat → Option FieldType
  | 0 => none
  | t + 1 => (fieldTypes k)[t]?

/-- A field that can be on the wire: a tag of 29 bits, numbers and lengths of 64 bits. -/
def OnWire (f : Nat × Wire) : Prop :=
  1 ≤ f.1 ∧ f.1 < 2 ^ 29 ∧ match f.2 with
    | .varint n => n < 2 ^ 64
    | .len bs => bs.length < 2 ^ 64
    | .fixed32 _ => True

/-- A payload has the type of a field. The only embedded message has one field, a 32-bit number with tag 1. -/
def FieldType.Fits : FieldType → Wire → Prop
  | .uint, .varint _ => True
  | .enum, .varint _ => True
  | .flag, .varint _ => True
  | .bytes, .len _ => True
  | .text, .len bs => IsText bs
  | .message, .len bs => ∃ gs : List (Nat × Wire), bs = encFields gs ∧
      ∀ g ∈ gs, OnWire g ∧ (g.1 = 1 → ∃ w, g.2 = .fixed32 w)
  | _, _ => False

/-- Fields one after the other, with groups (which no message has, but which readers must be able to skip) nested at
most `d` deep. -/
inductive FieldsText : Nat → Bytes → Prop
  | nil (d : Nat) : FieldsText d []
  | plain (d : Nat) (f : Nat × Wire) (rest : Bytes) : OnWire f → FieldsText d rest → FieldsText d (encField f ++ rest)
  | fixed64 (d t : Nat) (x rest : Bytes) : 1 ≤ t → t < 2 ^ 29 → x.length = 8 → FieldsText d rest →
      FieldsText d (varint (t * 8 + 1) ++ (x ++ rest))
  | group (d t : Nat) (inner rest : Bytes) : 1 ≤ t → t < 2 ^ 29 → FieldsText d inner → FieldsText (d + 1) rest →
      FieldsText (d + 1) (varint (t * 8 + 3) ++ (inner ++ (varint (t * 8 + 4) ++ rest)))

/-- One field with a tag, of any type. -/
inductive OneField (t : Nat) : Bytes → Prop
  | plain (w : Wire) : OnWire (t, w) → OneField t (encField (t, w))
  | fixed64 (x : Bytes) : 1 ≤ t → t < 2 ^ 29 → x.length = 8 → OneField t (varint (t * 8 + 1) ++ x)
  | group (inner : Bytes) : 1 ≤ t → t < 2 ^ 29 → FieldsText 98 inner →
      OneField t (varint (t * 8 + 3) ++ (inner ++ varint (t * 8 + 4)))

/-- A field that holds one value: not the whitelist of a request, which holds many, and not the embedded message of a
fulfilment, which is merged field by field. -/
def singular (k : Variant) (t : Nat) : Prop := (k = .request → t ≠ 11) ∧ (k = .fulfill → t ≠ 4)

end Verif
