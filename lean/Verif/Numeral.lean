import Verif.F64
/-
# Decimal numerals and what they denote

Part of the specification of C85.
-/

namespace Verif

/-- A decimal numeral: sign, digits before and after the point, exponent (in capitals or not). -/
structure Numeral where
  sign : Option Bool
  whole : List Char
  frac : Option (List Char)
  exp : Option (Bool × Option Bool × List Char)

/-- `-` for `some true`, `+` for `some false`. -/
def signText : Option Bool → List Char
  | none => []
  | some true => ['-']
  | some false => ['+']

/-- How the numeral is written. -/
def Numeral.text (l : Numeral) : List Char :=
  signText l.sign ++ (l.whole ++ ((match l.frac with | none => [] | some f => '.' :: f) ++
    (match l.exp with | none => [] | some (cap, s, ds) => (if cap then 'E' else 'e') :: (signText s ++ ds))))

/-- A list of decimal digits. -/
def Digits (ds : List Char) : Prop := ∀ c ∈ ds, c ∈ ['0', '1', '2', '3', '4', '5', '6', '7', '8', '9']

/-- There are digits, and nothing else, where digits belong. -/
structure Numeral.Valid (l : Numeral) : Prop where
  whole : Digits l.whole
  frac : ∀ f, l.frac = some f → Digits f
  nonempty : l.whole ≠ [] ∨ ∃ f, l.frac = some f ∧ f ≠ []
  exp : ∀ e, l.exp = some e → e.2.2 ≠ [] ∧ Digits e.2.2

/-- The number that a list of digits stands for. -/
def positional : List Char → Nat
  | [] => 0
  | c :: cs => (c.toNat - '0'.toNat) * 10 ^ cs.length + positional cs

/-- The numeral denotes `num / den`, up to the sign. -/
def Numeral.num (l : Numeral) : Nat :=
  positional (l.whole ++ l.frac.getD []) *
    (match l.exp with | some (_, s, ds) => if s = some true then 1 else 10 ^ positional ds | none => 1)
/-- See `Numeral.num`. -/
def Numeral.den (l : Numeral) : Nat :=
  10 ^ (l.frac.getD []).length *
    (match l.exp with | some (_, s, ds) => if s = some true then 10 ^ positional ds else 1 | none => 1)

/-- The numeral, with white space around it. -/
def Written (s : List Char) (l : Numeral) : Prop :=
  ∃ w w', s = w ++ l.text ++ w' ∧ (∀ c ∈ w, F64.isSpace c) ∧ (∀ c ∈ w', F64.isSpace c)

end Verif
