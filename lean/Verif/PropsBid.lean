import Verif.NumeralProofs
import Verif.Cli
/-
# C92: the bid on the command line

The specification of numerals is in `Numeral`.
-/

namespace Verif.Cli
open F64

theorem one_pos : 0 < one := by unfold one; exact Nat.two_pow_pos _

theorem half_one : one = 2 * (one / 2) := by decide +kernel

theorem one_large : 2 ^ 200 ≤ one := by unfold one; exact Nat.pow_le_pow_right (by decide) (by decide)

/-! ## Rounding of whole numbers -/

/-- A number with few enough binary places is not changed. -/
theorem nearest_exact {m j a : Nat} (hm : m < 2 ^ 53) (ha : a = m * 2 ^ j) : nearest a 1 = a := by
  have hs : shift a 1 ≤ j := by
    unfold shift
    rw [Nat.div_one]
    rcases Nat.eq_zero_or_pos a with h | h
    · rw [h]; exact Nat.zero_le _
    · have : Nat.log2 a < 53 + j := by
        rw [Nat.log2_lt (by omega), ha, Nat.pow_add]
        exact Nat.mul_lt_mul_of_pos_right hm (Nat.two_pow_pos _)
      omega
  obtain ⟨d, hd⟩ : ∃ d, j = shift a 1 + d := ⟨j - shift a 1, by omega⟩
  have e : a = 1 * 2 ^ shift a 1 * (m * 2 ^ d) := by
    conv => lhs; rw [ha, hd, Nat.pow_add]
    rw [Nat.one_mul, Nat.mul_left_comm]
  unfold nearest
  have h := roundEven_exact (m * 2 ^ d) (1 * 2 ^ shift a 1) (by rw [Nat.one_mul]; exact Nat.two_pow_pos _)
  rw [← e] at h
  rw [h]
  rw [Nat.one_mul] at e
  exact e.symm

/-- Half a unit is lost by a whole number that is even and has 53 bits or more. -/
theorem nearest_half {m k n : Nat} (hm : m < 2 ^ 53) (hn : n = m * 2 ^ k) (hk : 1 ≤ k) (h52 : 2 ^ 52 ≤ n) :
    nearest (n * one + one / 2) 1 = n * one := by
  have h1 := half_one
  have hp := one_pos
  have e1 : one = 2 ^ 1074 := rfl
  generalize ha : n * one + one / 2 = a at *
  have hlow : 1074 ≤ shift a 1 := by
    unfold shift
    rw [Nat.div_one]
    have : 52 + 1074 ≤ Nat.log2 a := by
      rw [Nat.le_log2 (by omega), Nat.pow_add, ← e1]
      have := Nat.mul_le_mul_right one h52
      omega
    omega
  have hup : shift a 1 ≤ k + 1074 := by
    unfold shift
    rw [Nat.div_one]
    have : Nat.log2 a < 53 + (k + 1074) := by
      rw [Nat.log2_lt (by omega), Nat.pow_add, Nat.pow_add 2 k, ← e1]
      have hm' := Nat.mul_le_mul_right (2 ^ k * one) (show m + 1 ≤ 2 ^ 53 by omega)
      have hge : one ≤ 2 ^ k * one := Nat.le_mul_of_pos_left _ (Nat.two_pow_pos _)
      have e2 : n * one = m * (2 ^ k * one) := by rw [hn, Nat.mul_assoc]
      rw [Nat.add_mul, Nat.one_mul] at hm'
      omega
    omega
  generalize hsh : shift a 1 = s at *
  obtain ⟨d, hd⟩ : ∃ d, k + 1074 = s + d := ⟨k + 1074 - s, by omega⟩
  have e : n * one = 2 ^ s * (m * 2 ^ d) := by
    rw [hn, e1, Nat.mul_assoc, ← Nat.pow_add, hd, Nat.pow_add, Nat.mul_left_comm]
  have hr : roundEven a (1 * 2 ^ s) = m * 2 ^ d := by
    rw [Nat.one_mul]
    rcases Nat.eq_or_lt_of_le hlow with hs | hs
    · have hq : m * 2 ^ d = n := by
        rw [← hs, ← e1, Nat.mul_comm] at e
        exact (Nat.eq_of_mul_eq_mul_left hp e).symm
      rw [hq, roundEven_tie a (2 ^ s) n (Nat.two_pow_pos _) ?_, if_pos]
      · obtain ⟨k', rfl⟩ : ∃ k', k = k' + 1 := ⟨k - 1, by omega⟩
        rw [hn, Nat.pow_succ, ← Nat.mul_assoc]
        exact Nat.mul_mod_left _ _
      · rw [← hs, ← e1, Nat.mul_add, Nat.mul_one, Nat.mul_left_comm, Nat.mul_comm one n]
        omega
    · have hlt : one < 2 ^ s := by rw [e1]; exact Nat.pow_lt_pow_right (by decide) hs
      have hmod : a % 2 ^ s = one / 2 := by
        rw [← ha, e, Nat.mul_add_mod]
        exact Nat.mod_eq_of_lt (by omega)
      have hdiv : a / 2 ^ s = m * 2 ^ d := by
        rw [← ha, e, Nat.mul_add_div (Nat.two_pow_pos _), Nat.div_eq_of_lt (by omega), Nat.add_zero]
      unfold roundEven
      rw [hmod, hdiv, if_pos (by omega)]
  unfold nearest
  rw [hsh, hr, e]

/-! ## The conversion -/

/-- The whole number that `n` times 2^-1074 becomes. -/
def units (n : Nat) : Nat := if 2 * n < one then 0 else nearest (n + one / 2) 1 / one

theorem units_mono {n n' : Nat} (h : n ≤ n') : units n ≤ units n' := by
  unfold units
  split
  · exact Nat.zero_le _
  · rw [if_neg (by omega)]
    exact Nat.div_le_div_right (nearest_mono Nat.one_pos Nat.one_pos (by omega))

theorem units_whole {m k n : Nat} (hm : m < 2 ^ 53) (hn : n = m * 2 ^ k) (hk : 1 ≤ k ∨ m ≤ 2 ^ 52) : units (n * one) = n := by
  have h1 := half_one
  have hp := one_pos
  unfold units
  rcases Nat.eq_zero_or_pos n with h0 | h0
  · rw [h0, if_pos (by omega)]
  · have hle : 1 * one ≤ n * one := Nat.mul_le_mul_right _ h0
    rw [if_neg (by omega)]
    rcases Nat.lt_or_ge n (2 ^ 52) with hs | hs
    · have e : n * one + one / 2 = (2 * n + 1) * 2 ^ 1073 := by
        have e2 : one / 2 = 2 ^ 1073 := by decide +kernel
        have e1 : n * one = 2 * n * 2 ^ 1073 := by
          rw [h1, e2, ← Nat.mul_assoc, Nat.mul_comm n 2]
        rw [Nat.add_mul, Nat.one_mul, e1, e2]
      rw [nearest_exact (by omega) e, Nat.mul_comm, Nat.mul_add_div hp, Nat.div_eq_of_lt (by omega), Nat.add_zero]
    · rcases hk with hk | hk
      · rw [nearest_half hm hn hk hs, Nat.mul_div_cancel _ hp]
      · rcases Nat.eq_zero_or_pos k with rfl | hk'
        · have : n = 2 ^ 52 := by omega
          rw [nearest_half (m := 2 ^ 51) (k := 1) (by decide) (by omega) (Nat.le_refl _) hs, Nat.mul_div_cancel _ hp]
        · rw [nearest_half hm hn hk' hs, Nat.mul_div_cancel _ hp]

theorem toU256_fin (s : Bool) (n : Nat) : toU256 (.fin s n) =
    if lt (.fin s n) (.fin false 0) then none
    else if 2 ^ 256 * one ≤ n then none
    else if 2 * n < one then some 0
    else match add (.fin s n) (.fin false (one / 2)) with
      | .fin _ m => if m / one < 2 ^ 256 then some (BitVec.ofNat 256 (m / one)) else none
      | _ => none := rfl

theorem toU256_neg {n : Nat} (h : n ≠ 0) : toU256 (.fin true n) = none := by
  rw [toU256_fin, if_pos]
  simp [lt, signed]
  omega

theorem toU256_big (s : Bool) {n : Nat} (h : 2 ^ 256 * one ≤ n) : toU256 (.fin s n) = none := by
  rw [toU256_fin, if_pos h]
  split <;> rfl

theorem toU256_negZero : toU256 (.fin true 0) = some 0 := by decide +kernel

theorem add_pos (n h : Nat) (hh : 0 < h) : add (.fin false n) (.fin false h) = F64.round false (n + h) 1 := by
  show (if ((n : Int) + (h : Int) = 0) then _ else F64.round (decide ((n : Int) + (h : Int) < 0)) ((n : Int) + (h : Int)).natAbs 1) = _
  rw [if_neg (by omega), decide_eq_false (by omega), show ((n : Int) + (h : Int)).natAbs = n + h by omega]

theorem toU256_pos {n : Nat} (h : n < 2 ^ 256 * one) :
    toU256 (.fin false n) = if units n < 2 ^ 256 then some (BitVec.ofNat 256 (units n)) else none := by
  have h1 := half_one
  have hp := one_pos
  rw [toU256_fin]
  unfold units
  rw [if_neg (by simp [lt, signed]), if_neg (by omega)]
  by_cases h2 : 2 * n < one
  · rw [if_pos h2, if_pos h2, if_pos (by decide)]
    rfl
  · rw [if_neg h2, if_neg h2]
    have hadd : add (.fin false n) (.fin false (one / 2)) = .fin false (nearest (n + one / 2) 1) := by
      rw [add_pos n (one / 2) (by omega)]
      unfold F64.round
      rw [if_pos]
      have e : nearest (2 ^ 257 * one) 1 < 2 ^ 1024 * one := by decide +kernel
      refine Nat.lt_of_le_of_lt (nearest_mono Nat.one_pos Nat.one_pos ?_) e
      omega
    rw [hadd]

/-- What a numeral becomes. -/
theorem bidArg_text {l : Numeral} (hl : l.Valid) : bidArg l.text = toU256 (F64.round (l.sign == some true) (l.num * one) l.den) := by
  unfold bidArg
  rw [fromStr_text hl, Option.bind_some]

theorem round_fin {s : Bool} {a b n : Nat} (h : nearest a b = n) (hn : n < 2 ^ 256 * one) : F64.round s a b = .fin s n := by
  unfold F64.round
  rw [h, if_pos]
  exact Nat.lt_of_lt_of_le hn (Nat.mul_le_mul_right _ (Nat.pow_le_pow_right (by decide) (by decide)))

/-- Whatever is accepted is a numeral, with this result. -/
theorem bidArg_some {s : List Char} {b : U256} (h : bidArg s = some b) :
    ∃ l : Numeral, l.Valid ∧ s = l.text ∧ b.toNat = units (nearest (l.num * one) l.den) ∧
      (l.sign = some true → nearest (l.num * one) l.den = 0) := by
  have h0 := h
  unfold bidArg at h
  cases hf : fromStr s with
  | none => rw [hf] at h; exact (nomatch h)
  | some x =>
    rw [hf, Option.bind_some] at h
    have hfin : x.isFinite = true := by
      cases x with
      | fin => rfl
      | nan => exact (nomatch h)
      | inf => exact (nomatch h)
    obtain ⟨l, hl, ht⟩ := fromStr_some hf hfin
    refine ⟨l, hl, ht, ?_⟩
    rw [ht, bidArg_text hl] at h0
    generalize hn : nearest (l.num * one) l.den = n at *
    by_cases hbig : 2 ^ 256 * one ≤ n
    · exfalso
      unfold F64.round at h0
      split at h0
      · rw [hn, toU256_big _ hbig] at h0; exact (nomatch h0)
      · exact (nomatch h0)
    · rw [round_fin hn (by omega)] at h0
      cases hs : l.sign == some true with
      | true =>
        rw [hs] at h0
        have hz : n = 0 := by
          refine Decidable.byContradiction fun hne => ?_
          rw [toU256_neg hne] at h0
          exact (nomatch h0)
        rw [hz, toU256_negZero] at h0
        rw [hz, ← Option.some.inj h0]
        exact ⟨by decide +kernel, fun _ => rfl⟩
      | false =>
        rw [hs, toU256_pos (by omega)] at h0
        split at h0
        · rename_i hlt
          rw [← Option.some.inj h0, BitVec.toNat_ofNat, Nat.mod_eq_of_lt hlt]
          refine ⟨rfl, fun e => ?_⟩
          rw [e] at hs
          exact absurd hs (by decide)
        · exact (nomatch h0)

/-! ## C92 -/

/-- **C92, exact.** A whole number up to 2^52, or a larger even one of up to 53 binary digits apart from zeros at the
end, however it is written, is the bid. -/
theorem c92_exact {l : Numeral} {m k : Nat} (hl : l.Valid) (hs : l.sign ≠ some true) (hm : m < 2 ^ 53)
    (hk : 1 ≤ k ∨ m ≤ 2 ^ 52) (h : l.num = m * 2 ^ k * l.den) (hn : m * 2 ^ k < 2 ^ 256) :
    bidArg l.text = some (BitVec.ofNat 256 (m * 2 ^ k)) := by
  have hd := l.den_pos
  have hlt : m * 2 ^ k * one < 2 ^ 256 * one := Nat.mul_lt_mul_of_pos_right hn one_pos
  have e : nearest (l.num * one) l.den = m * 2 ^ k * one := by
    rw [nearest_congr (a' := m * 2 ^ k * one) (b' := 1) hd Nat.one_pos (by rw [h]; grind)]
    exact nearest_exact (j := k + 1074) hm (by rw [Nat.pow_add, ← Nat.mul_assoc]; rfl)
  rw [bidArg_text hl, round_fin e hlt, show (l.sign == some true) = false by simpa using hs, toU256_pos hlt,
    units_whole hm rfl hk, if_pos hn]

/-- **C92, close.** A bid that is accepted is given by a decimal numeral, without a minus sign unless the bid is 0; the
bid is off by at most half a unit and one part in 2^51 of one more than the number given. -/
theorem c92_close {s : List Char} {b : U256} (h : bidArg s = some b) :
    ∃ l : Numeral, l.Valid ∧ s = l.text ∧ (l.sign = some true → b = 0) ∧
      2 ^ 51 * (b.toNat * l.den) ≤ 2 ^ 51 * l.num + (2 ^ 50 * l.den + (l.num + l.den)) ∧
      2 ^ 51 * l.num ≤ 2 ^ 51 * (b.toNat * l.den) + (2 ^ 50 * l.den + (l.num + l.den)) := by
  obtain ⟨l, hl, ht, hb, hz⟩ := bidArg_some h
  refine ⟨l, hl, ht, fun e => ?_, ?_⟩
  · apply BitVec.eq_of_toNat_eq
    rw [hb, hz e]
    decide +kernel
  · have hd := l.den_pos
    obtain ⟨u, v⟩ := nearest_rel (l.num * one) l.den hd
    clear hz
    generalize nearest (l.num * one) l.den = n at *
    generalize b.toNat = b at *
    generalize l.num = num at *
    generalize l.den = den at *
    have h1 := half_one
    have hp := one_pos
    have hl := one_large
    have hl' := Nat.mul_le_mul_left den hl
    unfold units at hb
    by_cases h2 : 2 * n < one
    · rw [if_pos h2] at hb
      subst hb
      have g := Nat.mul_lt_mul_of_pos_left h2 hd
      rw [Nat.mul_left_comm] at g
      refine ⟨by omega, ?_⟩
      apply Nat.le_of_mul_le_mul_left _ hp
      have e1 : one * (2 ^ 51 * num) = 2 ^ 51 * (num * one) := by grind
      have e2 : one * (2 ^ 51 * (0 * den) + (2 ^ 50 * den + (num + den))) = 2 ^ 50 * (den * one) + num * one + den * one := by grind
      rw [e1, e2]
      omega
    · rw [if_neg h2] at hb
      obtain ⟨u2, v2⟩ := nearest_normal (n + one / 2) 1 Nat.one_pos (by omega)
      have d1 := Nat.div_mul_le_self (nearest (n + one / 2) 1) one
      have d2 := Nat.lt_div_mul_add (a := nearest (n + one / 2) 1) hp
      rw [← hb] at d1 d2
      rw [Nat.one_mul] at u2 v2
      generalize nearest (n + one / 2) 1 = r at *
      have g1 := Nat.mul_le_mul_left den d1
      have g2 := Nat.mul_lt_mul_of_pos_left d2 hd
      have g3 := Nat.mul_le_mul_left den u2
      have g4 := Nat.mul_le_mul_left den v2
      have g5 : den * one = 2 * (den * (one / 2)) := by rw [Nat.mul_left_comm, ← h1]
      rw [Nat.mul_add] at g2
      simp only [Nat.mul_add, Nat.mul_left_comm den] at g3 g4
      generalize one / 2 = hf at *
      generalize one = o at *
      constructor
      · apply Nat.le_of_mul_le_mul_left _ hp
        have e1 : o * (2 ^ 51 * (b * den)) = 2 ^ 51 * (den * (b * o)) := by grind
        have e2 : o * (2 ^ 51 * num + (2 ^ 50 * den + (num + den))) = 2 ^ 51 * (num * o) + 2 ^ 50 * (den * o) + num * o + den * o := by grind
        rw [e1, e2]
        omega
      · apply Nat.le_of_mul_le_mul_left _ hp
        have e1 : o * (2 ^ 51 * num) = 2 ^ 51 * (num * o) := by grind
        have e2 : o * (2 ^ 51 * (b * den) + (2 ^ 50 * den + (num + den))) = 2 ^ 51 * (den * (b * o)) + 2 ^ 50 * (den * o) + num * o + den * o := by grind
        rw [e1, e2]
        omega

/-- **C92, monotone.** A higher number is never a lower bid. -/
theorem c92_monotone {l l' : Numeral} {b b' : U256} (hl : l.Valid) (hl' : l'.Valid) (h : bidArg l.text = some b)
    (h' : bidArg l'.text = some b') (hs : l.sign ≠ some true) (hs' : l'.sign ≠ some true)
    (hle : l.num * l'.den ≤ l'.num * l.den) : b.toNat ≤ b'.toNat := by
  have key : ∀ {l : Numeral} {b : U256}, l.Valid → bidArg l.text = some b → l.sign ≠ some true →
      b.toNat = units (nearest (l.num * one) l.den) := by
    intro l b hl h hs
    rw [bidArg_text hl, show (l.sign == some true) = false by simpa using hs] at h
    unfold F64.round at h
    split at h
    · generalize nearest (l.num * one) l.den = n at *
      rcases Nat.lt_or_ge n (2 ^ 256 * one) with hn | hn
      · rw [toU256_pos hn] at h
        split at h
        · rename_i hlt
          rw [← Option.some.inj h, BitVec.toNat_ofNat, Nat.mod_eq_of_lt hlt]
        · exact (nomatch h)
      · rw [toU256_big _ hn] at h; exact (nomatch h)
    · exact (nomatch h)
  rw [key hl h hs, key hl' h' hs']
  apply units_mono
  apply nearest_mono l.den_pos l'.den_pos
  have := Nat.mul_le_mul_left one hle
  have e1 : one * (l.num * l'.den) = l.num * one * l'.den := by grind
  have e2 : one * (l'.num * l.den) = l'.num * one * l.den := by grind
  omega

/-- **C92, what is accepted.** Every number from 0 to 2^255 is a bid; what is not a decimal numeral, what is negative
(by 2^-1074 or more) and everything from 2^256 on ends the program. -/
theorem c92_accepts {l : Numeral} (hl : l.Valid) :
    (l.sign ≠ some true → l.num ≤ 2 ^ 255 * l.den → ∃ b, bidArg l.text = some b) ∧
    (l.sign = some true → l.den ≤ 2 ^ 1074 * l.num → bidArg l.text = none) ∧
    (2 ^ 256 * l.den ≤ l.num → bidArg l.text = none) := by
  have hd := l.den_pos
  have hp := one_pos
  rw [bidArg_text hl]
  refine ⟨fun hs h => ?_, fun hs h => ?_, fun h => ?_⟩
  · have e : nearest (l.num * one) l.den ≤ nearest (2 ^ 255 * one) 1 := by
      apply nearest_mono hd Nat.one_pos
      have := Nat.mul_le_mul_left one h
      have e1 : one * (2 ^ 255 * l.den) = 2 ^ 255 * one * l.den := by grind
      rw [Nat.mul_one, Nat.mul_comm l.num]; omega
    have e2 : nearest (2 ^ 255 * one) 1 = 2 ^ 255 * one := by decide +kernel
    rw [e2] at e
    have hlt : nearest (l.num * one) l.den < 2 ^ 256 * one := by omega
    rw [round_fin rfl hlt, show (l.sign == some true) = false by simpa using hs, toU256_pos hlt]
    have hu := units_mono e
    rw [units_whole (m := 1) (k := 255) (by decide) (by decide) (.inr (by decide))] at hu
    rw [if_pos (by omega)]
    exact ⟨_, rfl⟩
  · rw [hs]
    have e : nearest 1 1 ≤ nearest (l.num * one) l.den := nearest_mono Nat.one_pos hd (by
      rw [Nat.one_mul, Nat.mul_one, Nat.mul_comm l.num]; exact h)
    have e1 : nearest 1 1 = 1 := by decide
    rw [e1] at e
    unfold F64.round
    split
    · exact toU256_neg (by omega)
    · rfl
  · have e : nearest (2 ^ 256 * one) 1 ≤ nearest (l.num * one) l.den := by
      apply nearest_mono Nat.one_pos hd
      have := Nat.mul_le_mul_left one h
      have e1 : one * (2 ^ 256 * l.den) = 2 ^ 256 * one * l.den := by grind
      rw [Nat.mul_one, Nat.mul_comm l.num]; omega
    have e2 : nearest (2 ^ 256 * one) 1 = 2 ^ 256 * one := by decide +kernel
    rw [e2] at e
    unfold F64.round
    split
    · exact toU256_big _ e
    · rfl

/-- **C92, other texts.** A text that is no decimal numeral, such as `inf` or `nan` or one with white space, ends the
program. -/
theorem c92_refuses {s : List Char} (h : ∀ l : Numeral, l.Valid → s ≠ l.text) : bidArg s = none := by
  cases hb : bidArg s with
  | none => rfl
  | some b =>
    obtain ⟨l, hl, ht, _⟩ := bidArg_some hb
    exact absurd ht (h l hl)

/-- The bid is not always the nearest whole number: 2^52 + 1 becomes 2^52 + 2, because half a unit is added to it before
the fraction is dropped, and the sum is rounded. -/
theorem c92_nearest_false : ∃ (l : Numeral) (b : U256), l.Valid ∧ l.num = (2 ^ 52 + 1) * l.den ∧
    bidArg l.text = some b ∧ b.toNat = 2 ^ 52 + 2 := by
  refine ⟨⟨none, "4503599627370497".toList, none, none⟩, 4503599627370498, ⟨?_, fun _ h => (nomatch h), Or.inl (by decide),
    fun _ h => (nomatch h)⟩, by decide, by decide +kernel, by decide⟩
  unfold Digits; decide

/-- Witnesses: one $PROVE per billion units of gas in smallest units, and some texts. -/
example : bidArg "1000000000".toList = some 1000000000 ∧ bidArg "1e9".toList = some 1000000000 ∧
    bidArg "1.5".toList = some 2 ∧ bidArg "0.4".toList = some 0 ∧ bidArg "+0.5".toList = some 1 ∧
    bidArg "-0".toList = some 0 ∧ bidArg "-1".toList = none ∧ bidArg "nan".toList = none ∧ bidArg "".toList = none ∧
    bidArg " 1".toList = none ∧ bidArg "1e18".toList = some 1000000000000000000 ∧ bidArg "1e78".toList = none := by decide +kernel

/-- Witness for `c92_exact`: `1e18`. -/
example : ∃ (l : Numeral) (m k : Nat), l.text = "1e18".toList ∧ l.Valid ∧ l.sign ≠ some true ∧ m < 2 ^ 53 ∧ 1 ≤ k ∧
    l.num = m * 2 ^ k * l.den ∧ m * 2 ^ k < 2 ^ 256 ∧ m * 2 ^ k = 10 ^ 18 := by
  refine ⟨⟨none, ['1'], none, some (false, none, "18".toList)⟩, 5 ^ 18, 18, by decide, ⟨?_, fun _ h => (nomatch h),
    .inl (by decide), ?_⟩, by decide, by decide, by decide, by decide, by decide, by decide⟩
  · unfold Digits; decide
  · intro e he
    rw [← Option.some.inj he]
    exact ⟨by decide, by unfold Digits; decide⟩

end Verif.Cli
