import Verif.CalibrateProofs
import Verif.PropsCli
/-
# C93: the calibrator computes its formula

The exact formulas are `Cli.calibrate` and `Cli.printedBid`.
-/

namespace Verif.Calibrate
open F64

/-! ## Specification -/

/-- The double `x` is the number `q`. -/
def Is (x : F64) (q : Rat) : Prop := ∃ n, x = .fin false n ∧ (n : Rat) / (2 ^ 1074 : Rat) = q

/-- `x` is a finite double and equal to `q` up to one part in 2^49. -/
def Near (x : F64) (q : Rat) : Prop :=
  ∃ v, Is x v ∧ q * (1 - 1 / 2 ^ 49) ≤ v ∧ v ≤ q * (1 + 1 / 2 ^ 49)

/-- Numbers of an ordinary size. -/
def Usual (q : Rat) : Prop := 1 / 2 ^ 100 ≤ q ∧ q ≤ 2 ^ 100

/-- The exact length of a duration in seconds. -/
def durationSeconds (secs nanos : U64) : Rat := (secs.toNat : Rat) + (nanos.toNat : Rat) / 1000000000

/-! ## C93 -/

theorem one_rat : (one : Rat) = 2 ^ 1074 := by decide +kernel

theorem Rounded.near {k : Nat} {x : F64} {q : Rat} (h : Rounded k x q) (hq : 0 ≤ q) (hk : k ≤ 12) : Near x q := by
  obtain ⟨n, e, h⟩ := h.mono hq hk
  refine ⟨val n, ⟨n, e, by unfold val; rw [one_rat]⟩, ?_, ?_⟩
  · have : (1 - 1 / 2 ^ 49 : Rat) ≤ ρ ^ 12 := by decide +kernel
    exact Rat.le_trans (Rat.mul_le_mul_of_nonneg_left this hq) h.1
  · have t : (1 : Rat) ≤ ρ ^ 12 * (1 + 1 / 2 ^ 49) := by decide +kernel
    have a := Rat.mul_le_mul_of_nonneg_left t (h.nonneg hq)
    have b := Rat.mul_le_mul_of_nonneg_right h.2 (show (0 : Rat) ≤ 1 + 1 / 2 ^ 49 by decide +kernel)
    rw [Rat.mul_one, ← Rat.mul_assoc] at a
    exact Rat.le_trans a b

theorem Is.rounded {x : F64} {q : Rat} (h : Is x q) : Rounded 0 x q := by
  obtain ⟨n, e, h⟩ := h
  refine ⟨n, e, ?_⟩
  unfold val
  rw [one_rat, h]
  exact Close.refl _

theorem Usual.within {q : Rat} (h : Usual q) : Within 100 q := by
  refine ⟨?_, h.2⟩
  have := Rat.mul_le_mul_of_nonneg_right h.1 (Rat.le_of_lt (two_pos 100))
  have e : (1 / 2 ^ 100 : Rat) * 2 ^ 100 = 1 := by decide +kernel
  rwa [e] at this

/-- **C93, the formula.** For a program that used gas, a proof that took any time at all, and parameters of an ordinary
size (between 2^-100 and 2^100, a margin possibly 0), the throughput, the price and the bid that `calibrate` computes
are finite and equal to those of the exact formulas up to one part in 2^49. -/
theorem c93_formula (gas secs nanos : U64) (hg : gas ≠ 0) (hn : nanos.toNat < 1000000000) (hpos : secs ≠ 0 ∨ nanos ≠ 0)
    {cost util margin prove : F64} {c u m p : Rat} (hc : Is cost c) (hu : Is util u) (hm : Is margin m) (hp : Is prove p)
    (Uc : Usual c) (Uu : Usual u) (Um : 0 ≤ m ∧ m ≤ 2 ^ 100) (Up : Usual p) :
    Near (calibrate (some gas) secs nanos cost util margin).pgusPerSecond
      (Cli.calibrate gas.toNat (durationSeconds secs nanos) c u m).pgusPerSecond ∧
    Near (calibrate (some gas) secs nanos cost util margin).pguPrice
      (Cli.calibrate gas.toNat (durationSeconds secs nanos) c u m).pguPrice ∧
    Near (printedBid (calibrate (some gas) secs nanos cost util margin) prove)
      (Cli.printedBid (Cli.calibrate gas.toNat (durationSeconds secs nanos) c u m) p) := by
  have ne : ∀ {x : U64}, x ≠ 0 → 0 < x.toNat := fun h => Nat.pos_of_ne_zero fun e => h (BitVec.eq_of_toNat_eq e)
  have hpos' := hpos.imp ne ne
  have Wg := within_nat (e := 64) (ne hg) (Nat.le_of_lt gas.isLt)
  have Ws := within_seconds hn hpos'
  have W1 := Wg.div Ws
  have R1 := Rounded.div (ofU64_close gas) (asSecs_close hn hpos') Wg.nonneg Ws.pos (by decide) W1 (by decide)
  have K : Rounded 0 (ofU64 3600) ((3600 : Nat) : Rat) := const_exact (by decide +kernel)
  have Wk : Within 12 ((3600 : Nat) : Rat) := within_nat (by decide) (by decide)
  have W2 := W1.mul Wk
  have R2 := Rounded.mul R1 K W1.nonneg Wk.nonneg (by decide) W2 (by decide)
  have W3 := W2.mul Uu.within
  have R3 := Rounded.mul R2 hu.rounded W2.nonneg Uu.within.nonneg (by decide) W3 (by decide)
  have W4 := Uc.within.div W3
  have R4 := Rounded.div hc.rounded R3 Uc.within.nonneg W3.pos (by decide) W4 (by decide)
  have O : Rounded 0 (ofU64 1) ((1 : Nat) : Rat) := const_exact (by decide +kernel)
  have W5 : Within 101 (((1 : Nat) : Rat) + m) := by
    have e1 : ((1 : Nat) : Rat) = 1 := rfl
    have e2 : (2 : Rat) ^ 101 = 2 ^ 100 + 2 ^ 100 := by decide +kernel
    have e3 : (1 : Rat) ≤ 2 ^ 100 := by decide +kernel
    unfold Within
    rw [e1, e2]
    obtain ⟨a, b⟩ := Um
    generalize (2 : Rat) ^ 100 = t at *
    refine ⟨?_, by grind⟩
    have := mulLe (show (1 : Rat) ≤ 1 + m by grind) (show (1 : Rat) ≤ t + t by grind) (by decide) (by grind)
    rwa [Rat.mul_one] at this
  have R5 := Rounded.add O hm.rounded (by decide) W5 (by decide)
  have W6 := W4.mul W5
  have R6 := Rounded.mul R4 R5 W4.nonneg W5.nonneg (by decide) W6 (by decide)
  have W7 := W6.mul Up.within
  have R7 := Rounded.mul R6 hp.rounded W6.nonneg Up.within.nonneg (by decide) W7 (by decide)
  have B : Rounded 0 (ofU64 1000000000) ((1000000000 : Nat) : Rat) := const_exact (by decide +kernel)
  have Wb : Within 30 ((1000000000 : Nat) : Rat) := within_nat (by decide) (by decide)
  have W8 := W7.mul Wb
  have R8 := Rounded.mul R7 B W7.nonneg Wb.nonneg (by decide) W8 (by decide)
  have k1 : ((1 : Nat) : Rat) = 1 := rfl
  have k2 : ((3600 : Nat) : Rat) = 3600 := rfl
  have k3 : ((1000000000 : Nat) : Rat) = 1000000000 := rfl
  rw [k1, k2] at R6 W6
  rw [k1, k2, k3] at R8 W8
  unfold calibrate printedBid Cli.calibrate Cli.printedBid
  simp only [Option.getD_some]
  change Near _ (_ / seconds secs nanos) ∧ _
  exact ⟨R1.near W1.nonneg (by decide), R6.near W6.nonneg (by decide), R8.near W8.nonneg (by decide)⟩

/-- **C93, the target.** At a $PROVE worth one USD, the bid that is printed (before it is cut to two decimals) earns the
cost plus the margin up to one part in 2^49. -/
theorem c93_target (gas secs nanos : U64) (hg : gas ≠ 0) (hn : nanos.toNat < 1000000000) (hpos : secs ≠ 0 ∨ nanos ≠ 0)
    {cost util margin prove : F64} {c u m : Rat} (hc : Is cost c) (hu : Is util u) (hm : Is margin m) (hp : Is prove 1)
    (Uc : Usual c) (Uu : Usual u) (Um : 0 ≤ m ∧ m ≤ 2 ^ 100) :
    ∃ bid, Is (printedBid (calibrate (some gas) secs nanos cost util margin) prove) bid ∧
      c * (1 + m) * (1 - 1 / 2 ^ 49) ≤ Cli.earnedPerHour gas.toNat (durationSeconds secs nanos) u bid 1 ∧
      Cli.earnedPerHour gas.toNat (durationSeconds secs nanos) u bid 1 ≤ c * (1 + m) * (1 + 1 / 2 ^ 49) := by
  obtain ⟨_, _, v, hv, lo, hi⟩ := c93_formula gas secs nanos hg hn hpos hc hu hm hp Uc Uu Um
    (show Usual 1 by unfold Usual; decide +kernel)
  refine ⟨v, hv, ?_⟩
  have ne : ∀ {x : U64}, x ≠ 0 → 0 < x.toNat := fun h => Nat.pos_of_ne_zero fun e => h (BitVec.eq_of_toNat_eq e)
  have Ws : 0 < durationSeconds secs nanos := (within_seconds hn (hpos.imp ne ne)).pos
  have Wg := (within_nat (e := 64) (ne hg) (Nat.le_of_lt gas.isLt)).pos
  have Wu := Uu.within.pos
  have t := Cli.c77_parity_partial gas.toNat (durationSeconds secs nanos) c u m (Rat.ne_of_gt Wg) (Rat.ne_of_gt Ws) (Rat.ne_of_gt Wu)
  unfold Cli.MeetsTarget at t
  rw [← t]
  have lin : ∀ b, Cli.earnedPerHour gas.toNat (durationSeconds secs nanos) u b 1 =
      3600 * u / durationSeconds secs nanos * gas.toNat * (1 / 1000000000) * b := by
    intro b
    unfold Cli.earnedPerHour
    grind
  rw [lin, lin]
  have hk : 0 ≤ 3600 * u / durationSeconds secs nanos * (gas.toNat : Rat) * (1 / 1000000000) := by
    refine Rat.mul_nonneg (Rat.mul_nonneg ?_ (Rat.le_of_lt Wg)) (by decide +kernel)
    rw [Rat.div_def]
    exact Rat.mul_nonneg (Rat.mul_nonneg (by decide) (Rat.le_of_lt Wu)) (Rat.le_of_lt (Rat.inv_pos.mpr Ws))
  generalize 3600 * u / durationSeconds secs nanos * (gas.toNat : Rat) * (1 / 1000000000) = k at *
  exact ⟨by rw [Rat.mul_assoc]; exact Rat.mul_le_mul_of_nonneg_left lo hk,
    by rw [Rat.mul_assoc]; exact Rat.mul_le_mul_of_nonneg_left hi hk⟩

theorem round_zero (b : Nat) : F64.round false 0 b = .fin false 0 := by
  have h : nearest 0 b = 0 := by
    unfold nearest roundEven
    simp
  have h0 : 0 < 2 ^ 1024 * one := by decide +kernel
  unfold F64.round
  rw [h, if_pos h0]

theorem div_fin (m n : Nat) : F64.div (.fin false m) (.fin false n) =
    if n = 0 then (if m = 0 then .nan else .inf (false != false)) else F64.round (false != false) (m * one) n := rfl

theorem zero_div (n : Nat) (h : n ≠ 0) : F64.div (.fin false 0) (.fin false n) = .fin false 0 := by
  show (if n = 0 then _ else F64.round (false != false) (0 * one) n) = _
  rw [if_neg h, Nat.zero_mul]
  exact round_zero n

theorem zero_mul (n : Nat) : F64.mul (.fin false 0) (.fin false n) = .fin false 0 := by
  show F64.round (false != false) (0 * n) one = _
  rw [Nat.zero_mul]
  exact round_zero one

theorem div_zero (n : Nat) (h : n ≠ 0) : F64.div (.fin false n) (.fin false 0) = .inf false := by
  rw [div_fin, if_pos rfl, if_neg h]
  rfl

theorem inf_mul (n : Nat) (h : n ≠ 0) : F64.mul (.inf false) (.fin false n) = .inf false := by
  rw [show F64.mul (.inf false) (.fin false n) = (if n = 0 then F64.nan else .inf false) from rfl, if_neg h]

/-- **C93, no gas.** If the report of the execution gives no gas, or zero, the price is infinite and not some number. -/
theorem c93_no_gas (secs nanos : U64) (hn : nanos.toNat < 1000000000) (hpos : secs ≠ 0 ∨ nanos ≠ 0)
    {cost util margin : F64} {c u m : Rat} (hc : Is cost c) (hu : Is util u) (hm : Is margin m)
    (Uc : Usual c) (Um : 0 ≤ m ∧ m ≤ 2 ^ 100) (gas : Option U64) (hg : gas = none ∨ gas = some 0) :
    (calibrate gas secs nanos cost util margin).pgusPerSecond = .fin false 0 ∧
    (calibrate gas secs nanos cost util margin).pguPrice = .inf false := by
  have ne : ∀ {x : U64}, x ≠ 0 → 0 < x.toNat := fun h => Nat.pos_of_ne_zero fun e => h (BitVec.eq_of_toNat_eq e)
  have hpos' := hpos.imp ne ne
  have hg' : gas.getD 0 = 0 := by rcases hg with rfl | rfl <;> rfl
  obtain ⟨S, hS, cS⟩ := asSecs_close hn hpos'
  have hS0 : S ≠ 0 := by
    rintro rfl
    have := cS.pos (within_seconds hn hpos').pos
    revert this
    decide +kernel
  obtain ⟨C, hC, vC⟩ := hc
  have hC0 : C ≠ 0 := by
    rintro rfl
    have := Uc.within.pos
    rw [← vC] at this
    revert this
    decide +kernel
  obtain ⟨U, hU, _⟩ := hu
  obtain ⟨M, hM, _⟩ := id hm
  have W5 : Within 101 (((1 : Nat) : Rat) + m) := by
    have e1 : ((1 : Nat) : Rat) = 1 := rfl
    have e2 : (2 : Rat) ^ 101 = 2 ^ 100 + 2 ^ 100 := by decide +kernel
    have e3 : (1 : Rat) ≤ 2 ^ 100 := by decide +kernel
    unfold Within
    rw [e1, e2]
    obtain ⟨a, b⟩ := Um
    generalize (2 : Rat) ^ 100 = t at *
    refine ⟨?_, by grind⟩
    have := mulLe (show (1 : Rat) ≤ 1 + m by grind) (show (1 : Rat) ≤ t + t by grind) (by decide) (by grind)
    rwa [Rat.mul_one] at this
  have O : Rounded 0 (ofU64 1) ((1 : Nat) : Rat) := const_exact (by decide +kernel)
  obtain ⟨A, hA, cA⟩ := Rounded.add O hm.rounded (by decide) W5 (by decide)
  have hA0 : A ≠ 0 := by
    rintro rfl
    have := cA.pos W5.pos
    revert this
    decide +kernel
  have z : ofU64 0 = .fin false 0 := by decide +kernel
  have k : ofU64 3600 = .fin false (3600 * one) := by decide +kernel
  have divz := zero_div S hS0
  have divi := div_zero C hC0
  have muli := inf_mul A hA0
  unfold calibrate
  dsimp only
  rw [hg', hS, hA, hC, hU, z, k, divz, zero_mul, zero_mul, divi, muli]
  exact ⟨rfl, rfl⟩

/-- Witness: half a second for a million units of gas, 0.80 USD an hour, half of the time in use, a margin of 10 percent. -/
example : (calibrate (some 1000000) 0 500000000 (ofDecimal false 80 (-2)) (ofDecimal false 5 (-1)) (ofDecimal false 1 (-1))).pgusPerSecond =
      ofDecimal false 2000000 0 ∧
    printedThroughput (calibrate (some 1000000) 0 500000000 (ofDecimal false 80 (-2)) (ofDecimal false 5 (-1)) (ofDecimal false 1 (-1))) =
      ofDecimal false 2000000 0 := by decide +kernel

example : Is (ofDecimal false 5 (-1)) (1 / 2) ∧ Usual (1 / 2) ∧ Is (ofU64 1) 1 ∧ Usual 1 := by
  refine ⟨⟨2 ^ 1073, by decide +kernel, by decide +kernel⟩, by unfold Usual; decide +kernel, ⟨one, by decide +kernel, by decide +kernel⟩, by unfold Usual; decide +kernel⟩

end Verif.Calibrate
