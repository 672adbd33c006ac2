import Verif.F64
/-
# The command line of the node

Models the arithmetic of `bin/node/src/main.rs` and `crates/node/calibrator/src/lib.rs`.

Simplification: `calibrate` and `printedBid` compute with exact rationals where the code computes with `f64`; the
versions with rounding are in `Calibrate`.
-/

namespace Verif.Cli

/-- `U256::from(args.bid)`, `bin/node/src/main.rs:57-59,188`: the text given with `--bid`, read by `f64::from_str`. A
text that is not read ends the program, and so does a number that is not converted. -/
def bidArg (text : List Char) : Option U256 := (F64.fromStr text).bind F64.toU256

/-- `CalibratorMetrics`, `crates/node/calibrator/src/lib.rs:20-26`. -/
structure Metrics where
  pgusPerSecond : Rat
  pguPrice : Rat

/-- `SinglePassCalibrator::calibrate`, `crates/node/calibrator/src/lib.rs:77-100`, given the gas of the program and the
seconds its proof took. -/
def calibrate (gas seconds costPerHour utilization margin : Rat) : Metrics :=
  let pgusPerSecond := gas / seconds
  let pgusPerHour := pgusPerSecond * 3600
  let utilizedPgusPerHour := pgusPerHour * utilization
  let optimalPguPrice := costPerHour / utilizedPgusPerHour
  { pgusPerSecond := pgusPerSecond, pguPrice := optimalPguPrice * (1 + margin) }

/-- The bid that `calibrate` prints, in $PROVE per billion proving gas units, `bin/node/src/main.rs:156-163`. -/
def printedBid (m : Metrics) (provePrice : Rat) : Rat := m.pguPrice * provePrice * 1000000000

end Verif.Cli
