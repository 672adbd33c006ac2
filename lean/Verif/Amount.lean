import Verif.Types
/-
# Amounts in messages

`str::parse::<U256>`, which is ruint's `FromStr` (external crate, `Uint::from_str`, `from_str_radix` and
`from_base_be`, as we read them), used at `crates/vapp/src/state.rs:307,415,423,521,528,730-733,748`.
-/

namespace Verif.Amount

/-- The digit for a character in `from_str_radix` up to radix 36: `0` to `9`, then letters in either case. -/
def digit (c : UInt8) : Option Nat :=
  if 48 ≤ c.toNat ∧ c.toNat ≤ 57 then some (c.toNat - 48)
  else if 97 ≤ c.toNat ∧ c.toNat ≤ 122 then some (c.toNat - 97 + 10)
  else if 65 ≤ c.toNat ∧ c.toNat ≤ 90 then some (c.toNat - 65 + 10)
  else none

/-- `from_str_radix` with the loop of `from_base_be`: underscores are skipped, each digit multiplies and adds, with an
error for a character that is no digit, for a digit not below the radix and on overflow. `n` is what was read before.
Which error it is is not kept. Characters outside ASCII are more than one byte here; none of these is a digit. -/
def fromRadix (radix : Nat) : Bytes → Nat → Option Nat
  | [], n => some n
  | c :: cs, n =>
    if c = 95 then fromRadix radix cs n
    else match digit c with
      | none => none
      | some d => if d < radix then (if n * radix + d < 2 ^ 256 then fromRadix radix cs (n * radix + d) else none) else none

/-- `Uint::from_str`: `0x`, `0o` and `0b`, in either case, choose the radix. -/
def read (bs : Bytes) : Option Nat :=
  match bs with
  | 48 :: c :: rest =>
    if c = 120 ∨ c = 88 then fromRadix 16 rest 0
    else if c = 111 ∨ c = 79 then fromRadix 8 rest 0
    else if c = 98 ∨ c = 66 then fromRadix 2 rest 0
    else fromRadix 10 bs 0
  | _ => fromRadix 10 bs 0

/-- `str::parse::<U256>`. -/
def parse (bs : Bytes) : Option U256 := (read bs).map (BitVec.ofNat 256)

end Verif.Amount
