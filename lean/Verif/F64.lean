import Verif.Basic
/-
# Double precision numbers

The `f64` operations that `crates/network/pricing/src/math.rs`, `crates/node/core/src/serial.rs`,
`crates/node/calibrator/src/lib.rs` and `bin/node/src/main.rs` use: IEEE 754
binary64 with rounding to nearest, ties to even. Every finite value is a whole multiple of 2^-1074, the smallest
positive one; a value is modelled by that multiple and a sign. Rust guarantees correctly rounded `+ - * /`, correctly
rounded `from_str`, and saturating `as u64`.
-/

namespace Verif

/-- A double: not a number, an infinity, or `n` times 2^-1074. -/
inductive F64 where
  | nan
  | inf (neg : Bool)
  | fin (neg : Bool) (n : Nat)
deriving DecidableEq, Repr

namespace F64

/-- The multiple that stands for 1. -/
def one : Nat := 2 ^ 1074

/-- The integer nearest to `a / b`, the even one of two. -/
def roundEven (a b : Nat) : Nat :=
  if 2 * (a % b) < b then a / b
  else if b < 2 * (a % b) then a / b + 1
  else if a / b % 2 = 0 then a / b else a / b + 1

/-- How many binary places a multiple near `a / b` has to give up to fit into 53 bits. -/
def shift (a b : Nat) : Nat := Nat.log2 (a / b) - 52

/-- The multiple nearest to `a / b` that fits into 53 bits. -/
def nearest (a b : Nat) : Nat := 2 ^ shift a b * roundEven a (b * 2 ^ shift a b)

/-- Rounding of `a / b` times 2^-1074: results of 2^1024 or more are infinite. -/
def round (neg : Bool) (a b : Nat) : F64 := if nearest a b < 2 ^ 1024 * one then .fin neg (nearest a b) else .inf neg

/-- `x as f64` for a `u64`. -/
def ofU64 (x : U64) : F64 := round false (x.toNat * one) 1

/-- `*`. -/
def mul : F64 → F64 → F64
  | .nan, _ => .nan
  | _, .nan => .nan
  | .inf s, .inf t => .inf (s != t)
  | .inf s, .fin t n => if n = 0 then .nan else .inf (s != t)
  | .fin s m, .inf t => if m = 0 then .nan else .inf (s != t)
  | .fin s m, .fin t n => round (s != t) (m * n) one

/-- `/`. -/
def div : F64 → F64 → F64
  | .nan, _ => .nan
  | _, .nan => .nan
  | .inf _, .inf _ => .nan
  | .inf s, .fin t _ => .inf (s != t)
  | .fin s _, .inf t => .fin (s != t) 0
  | .fin s m, .fin t n => if n = 0 then (if m = 0 then .nan else .inf (s != t)) else round (s != t) (m * one) n

/-- `f64::round`: to the nearest integer, ties away from zero. -/
def roundAway : F64 → F64
  | .nan => .nan
  | .inf s => .inf s
  | .fin s n => .fin s ((2 * n + one) / (2 * one) * one)

/-- `as u64`: towards zero, saturating, 0 for NaN. -/
def toU64 : F64 → U64
  | .nan => 0
  | .inf s => if s then 0 else BitVec.ofNat 64 (2 ^ 64 - 1)
  | .fin s n => if s then 0 else BitVec.ofNat 64 (min (n / one) (2 ^ 64 - 1))

/-- The signed multiple of a finite value. -/
def signed (s : Bool) (n : Nat) : Int := if s then -(n : Int) else n

/-- `<`. -/
def lt : F64 → F64 → Bool
  | .nan, _ => false
  | _, .nan => false
  | .inf s, .inf t => s && !t
  | .inf s, .fin _ _ => s
  | .fin _ _, .inf t => !t
  | .fin s m, .fin t n => decide (signed s m < signed t n)

/-- `<=`. -/
def le : F64 → F64 → Bool
  | .nan, _ => false
  | _, .nan => false
  | .inf s, .inf t => s || !t
  | .inf s, .fin _ _ => s
  | .fin _ _, .inf t => !t
  | .fin s m, .fin t n => decide (signed s m ≤ signed t n)

/-- `+`. -/
def add : F64 → F64 → F64
  | .nan, _ => .nan
  | _, .nan => .nan
  | .inf s, .inf t => if s = t then .inf s else .nan
  | .inf s, .fin _ _ => .inf s
  | .fin _ _, .inf t => .inf t
  | .fin s m, .fin t n =>
    if signed s m + signed t n = 0 then .fin (s && t) 0
    else round (decide (signed s m + signed t n < 0)) (signed s m + signed t n).natAbs 1

/-- `f64::is_finite`. -/
def isFinite : F64 → Bool
  | .fin _ _ => true
  | _ => false

/-- `U256::from(f64)` (`ruint` 1.17.0, `TryFrom<f64>`): a number below 0.5 is 0; others have 0.5 added and lose their
fraction; anything negative, not a number or from 2^256 on panics. -/
def toU256 : F64 → Option U256
  | .nan => none
  | .inf _ => none
  | .fin s n =>
    if lt (.fin s n) (.fin false 0) then none
    else if 2 ^ 256 * one ≤ n then none
    else if 2 * n < one then some 0
    else match add (.fin s n) (.fin false (one / 2)) with
      | .fin _ m => if m / one < 2 ^ 256 then some (BitVec.ofNat 256 (m / one)) else none
      | _ => none

/-! ## Parsing -/

/-- ASCII digits. -/
def isDigit (c : Char) : Bool := decide ('0'.toNat ≤ c.toNat ∧ c.toNat ≤ '9'.toNat)

/-- Value of a list of digits. -/
def digits (ds : List Char) : Nat := ds.foldl (fun n c => n * 10 + (c.toNat - '0'.toNat)) 0

/-- An optional sign: whether it is minus, and the rest. -/
def takeSign : List Char → Bool × List Char
  | '-' :: s => (true, s)
  | '+' :: s => (false, s)
  | s => (false, s)

/-- The optional exponent at the end of a number. The digits of an exponent of more than 65535 are read in full; the
standard library stops there, which makes a difference only for numbers of some 65000 digits. -/
def readExp : List Char → Option Int
  | [] => some 0
  | c :: s =>
    if c = 'e' ∨ c = 'E' then
      if (takeSign s).2 ≠ [] ∧ (takeSign s).2.all isDigit then some (signed (takeSign s).1 (digits (takeSign s).2)) else none
    else none

/-- The part after the integer digits: the digits after a point, and the rest. -/
def readFrac : List Char → List Char × List Char
  | '.' :: s => (s.takeWhile isDigit, s.dropWhile isDigit)
  | s => ([], s)

/-- A number without sign: its digits and the power of ten they are to be multiplied with. -/
def readNumber (s : List Char) : Option (Nat × Int) :=
  let ip := s.takeWhile isDigit
  let (fp, rest) := readFrac (s.dropWhile isDigit)
  if ip = [] ∧ fp = [] then none
  else (readExp rest).map fun e => (digits (ip ++ fp), e - fp.length)

/-- `d` times ten to the `e`, rounded. -/
def ofDecimal (neg : Bool) (d : Nat) (e : Int) : F64 :=
  if 0 ≤ e then round neg (d * 10 ^ e.toNat * one) 1 else round neg (d * one) (10 ^ (-e).toNat)

/-- The words for what is not a finite number; case does not matter. -/
def readWord (neg : Bool) (s : List Char) : Option F64 :=
  let t := s.map Char.toLower
  if t = "inf".toList ∨ t = "infinity".toList then some (.inf neg) else if t = "nan".toList then some .nan else none

/-- `f64::from_str` (standard library). -/
def fromStr (s : List Char) : Option F64 :=
  let (neg, t) := takeSign s
  match readWord neg t with
  | some x => some x
  | none => (readNumber t).map fun (d, e) => ofDecimal neg d e

/-- `char::is_whitespace`. -/
def isSpace (c : Char) : Bool :=
  decide (9 ≤ c.toNat ∧ c.toNat ≤ 13) ||
    [0x20, 0x85, 0xA0, 0x1680, 0x2028, 0x2029, 0x202F, 0x205F, 0x3000].contains c.toNat ||
    decide (0x2000 ≤ c.toNat ∧ c.toNat ≤ 0x200A)

/-- `str::trim`. -/
def trim (s : List Char) : List Char := ((s.dropWhile isSpace).reverse.dropWhile isSpace).reverse

end F64
end Verif
