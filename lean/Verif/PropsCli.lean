import Verif.Cli
/-
# C77: the bid that the calibrator recommends
-/

namespace Verif.Cli

/-! ## Specification -/

/-- What a prover earns per hour, in USD, that proves `gas` units in `seconds`: it proves for the share `utilization`
of the time, is paid `bid` $PROVE per billion units of gas, and a $PROVE is worth `provePrice` USD. -/
def earnedPerHour (gas seconds utilization bid provePrice : Rat) : Rat :=
  3600 * utilization / seconds * gas * (bid / 1000000000) * provePrice

/-- A recommendation meets the target: it earns the cost plus the margin. -/
def MeetsTarget (gas seconds cost utilization margin provePrice bid : Rat) : Prop :=
  earnedPerHour gas seconds utilization bid provePrice = cost * (1 + margin)

/-! ## C77 -/

/-- C77, what does hold: the recommended bid earns the cost plus the margin if a $PROVE is worth one USD. Missing from
the full property: any other price. -/
theorem c77_parity_partial (gas seconds cost utilization margin : Rat) (hg : gas ≠ 0) (hs : seconds ≠ 0)
    (hu : utilization ≠ 0) :
    MeetsTarget gas seconds cost utilization margin 1
      (printedBid (calibrate gas seconds cost utilization margin) 1) := by
  simp only [MeetsTarget, earnedPerHour, calibrate, printedBid]
  grind

/-- C77: in general the recommended bid earns the target times the square of the price of a $PROVE. -/
theorem c77_square (gas seconds cost utilization margin provePrice : Rat)
    (hg : gas ≠ 0) (hs : seconds ≠ 0) (hu : utilization ≠ 0) :
    earnedPerHour gas seconds utilization
      (printedBid (calibrate gas seconds cost utilization margin) provePrice) provePrice =
    cost * (1 + margin) * (provePrice * provePrice) := by
  simp only [earnedPerHour, calibrate, printedBid]
  grind

/-- C77: the price per unit of gas in USD is right, so dividing by the price of a $PROVE would meet the target. -/
theorem c77_divided (gas seconds cost utilization margin provePrice : Rat)
    (hg : gas ≠ 0) (hs : seconds ≠ 0) (hu : utilization ≠ 0) (hp : provePrice ≠ 0) :
    MeetsTarget gas seconds cost utilization margin provePrice
      ((calibrate gas seconds cost utilization margin).pguPrice / provePrice * 1000000000) := by
  simp only [MeetsTarget, earnedPerHour, calibrate]
  grind

/-- C77: the throughput shown is gas proved per second. -/
theorem c77_throughput (gas seconds cost utilization margin : Rat) (hs : seconds ≠ 0) :
    (calibrate gas seconds cost utilization margin).pgusPerSecond * seconds = gas := by
  simp only [calibrate]
  grind

/-- C77 is false as stated: at 50 cents a $PROVE a prover that costs 80 cents an hour and wants a margin of 10 percent
earns 22 cents an hour with the recommended bid. -/
theorem c77_false :
    ¬ MeetsTarget 1000000 2 (4 / 5) (1 / 2) (1 / 10) (1 / 2)
      (printedBid (calibrate 1000000 2 (4 / 5) (1 / 2) (1 / 10)) (1 / 2)) ∧
    earnedPerHour 1000000 2 (1 / 2)
      (printedBid (calibrate 1000000 2 (4 / 5) (1 / 2) (1 / 10)) (1 / 2)) (1 / 2) = 22 / 100 := by
  constructor
  · unfold MeetsTarget; decide +kernel
  · decide +kernel

/-- Witness: a concrete calibration. -/
example : (calibrate 1000000 2 (4 / 5) (1 / 2) (1 / 10)).pgusPerSecond = 500000 ∧
    printedBid (calibrate 1000000 2 (4 / 5) (1 / 2) (1 / 10)) 1 = 44 / 45 := by
  constructor <;> decide +kernel

end Verif.Cli
