import Verif.Cli
/-
# The calibrator, with rounding

`Cli.calibrate` and `Cli.printedBid` over doubles.
-/

namespace Verif.Calibrate
open F64

/-- `Duration::as_secs_f64` (standard library): whole seconds plus nanoseconds (below 10^9) divided by 10^9. -/
def asSecsF64 (secs : U64) (nanos : U64) : F64 := add (ofU64 secs) (div (ofU64 nanos) (ofU64 1000000000))

/-- `CalibratorMetrics`, `crates/node/calibrator/src/lib.rs:20-26`. -/
structure Metrics where
  pgusPerSecond : F64
  pguPrice : F64
deriving DecidableEq

/-- `SinglePassCalibrator::calibrate`, `crates/node/calibrator/src/lib.rs:73-104`, given the gas in the report of the
execution (if any) and how long the proof took. -/
def calibrate (gas : Option U64) (secs nanos : U64) (costPerHour utilizationRate profitMargin : F64) : Metrics :=
  let proverGas := gas.getD 0
  let pgusPerSecond := div (ofU64 proverGas) (asSecsF64 secs nanos)
  let pgusPerHour := mul pgusPerSecond (ofU64 3600)
  let utilizedPgusPerHour := mul pgusPerHour utilizationRate
  let optimalPguPrice := div costPerHour utilizedPgusPerHour
  let pguPrice := mul optimalPguPrice (add (ofU64 1) profitMargin)
  { pgusPerSecond := pgusPerSecond, pguPrice := pguPrice }

/-- The bid that is printed, before it is cut to two decimals, `bin/node/src/main.rs:161`. -/
def printedBid (m : Metrics) (provePrice : F64) : F64 := mul (mul m.pguPrice provePrice) (ofU64 1000000000)

/-- The throughput that is printed, `bin/node/src/main.rs:151`. -/
def printedThroughput (m : Metrics) : F64 := roundAway m.pgusPerSecond

end Verif.Calibrate
