import Verif.F64
/-
# Price conversion

Models `crates/network/pricing/src/math.rs` and `ProvePrice::parse` of `provider.rs`.
-/

namespace Verif.Pricing
open Verif

/-- The errors of `crates/network/pricing/src/error.rs` that the modelled functions return, without their texts. -/
inductive PriceError | zeroProvePrice | overflow | priceConversion | invalidTimestamp (t : Int)
deriving DecidableEq, Repr

/-- `U256::checked_mul` (external crate `ruint`). -/
def checkedMul (a b : U256) : Option U256 := if a.toNat * b.toNat < 2 ^ 256 then some (a * b) else none

/-- `scale`, `math.rs:20`. -/
def scale18 : U256 := BitVec.ofNat 256 (10 ^ 18)

/-- `pgu_per_bpgu`, `math.rs:34`. -/
def pguPerBpgu : U256 := BitVec.ofNat 256 (10 ^ 9)

/-- `usd_micros_to_prove_wei`, `math.rs:16-23`. -/
def usdMicrosToProveWei (usdMicros proveUsdMicros : U64) : Except PriceError U256 :=
  if proveUsdMicros = 0 then .error .zeroProvePrice
  else
    match checkedMul (usdMicros.setWidth 256) scale18 with
    | none => .error .overflow
    | some numerator => .ok (numerator / proveUsdMicros.setWidth 256)

/-- `compute_max_price_per_pgu_wei`, `math.rs:29-36`. -/
def computeMaxPricePerPguWei (targetUsdMicrosPerBpgu proveUsdMicros : U64) : Except PriceError U256 :=
  match usdMicrosToProveWei targetUsdMicrosPerBpgu proveUsdMicros with
  | .error e => .error e
  | .ok weiPerBpgu => .ok (weiPerBpgu / pguPerBpgu)

/-- `round_down_to_tick`, `math.rs:43-49`. -/
def roundDownToTick (wei requiredBidMultiple : U256) : U256 :=
  if requiredBidMultiple ≤ 1 then wei else wei - wei % requiredBidMultiple

/-- The literals of `math.rs:69-76`: `0.0`, `1_000_000.0`, `1.0` and `u64::MAX as f64`. -/
def zero : F64 := .fin false 0
/-- See `zero`. -/
def million : F64 := .fin false (1000000 * F64.one)
/-- See `zero`. -/
def unit : F64 := .fin false F64.one
/-- See `zero`. -/
def u64Max : F64 := F64.ofU64 (BitVec.ofNat 64 (2 ^ 64 - 1))

/-- `parse_usd_micros`, `math.rs:57-79`. -/
def parseUsdMicros (s : List Char) : Except PriceError U64 :=
  match F64.fromStr (F64.trim s) with
  | none => .error .priceConversion
  | some price =>
    if !price.isFinite || price.le zero then .error .priceConversion
    else
      let micros := (price.mul million).roundAway
      if micros.lt unit then .error .priceConversion
      else if u64Max.le micros then .error .priceConversion
      else .ok micros.toU64

/-- `ProvePrice`, `crates/network/pricing/src/provider.rs:8-16`; the time in seconds since 1970. -/
structure ProvePrice where
  usdMicros : U64
  asOf : Int
deriving DecidableEq, Repr

/-- `ProvePrice::parse`, `provider.rs:20-25`. `OffsetDateTime::from_unix_timestamp` (crate `time`) takes the years -9999
to 9999. -/
def ProvePrice.parse (priceStr : List Char) (lastUpdatedUnix : Int) : Except PriceError ProvePrice :=
  match parseUsdMicros priceStr with
  | .error e => .error e
  | .ok usdMicros =>
    if -377705116800 ≤ lastUpdatedUnix ∧ lastUpdatedUnix ≤ 253402300799 then .ok ⟨usdMicros, lastUpdatedUnix⟩
    else .error (.invalidTimestamp lastUpdatedUnix)

end Verif.Pricing
