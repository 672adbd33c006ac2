import Verif.F64
/-
# Rounding to double precision: error bounds, monotonicity, parsing of literals
-/

namespace Verif.F64

/-! ## Rounding to an integer -/

theorem roundEven_err (a b : Nat) (hb : 0 < b) :
    2 * (b * roundEven a b) ≤ 2 * a + b ∧ 2 * a ≤ 2 * (b * roundEven a b) + b := by
  have h := Nat.div_add_mod a b
  have h2 := Nat.mod_lt a hb
  unfold roundEven
  split
  · omega
  · split
    · rw [Nat.mul_add]; omega
    · split
      · omega
      · rw [Nat.mul_add]; omega

/-- Halfway between two integers the result is even. -/
theorem roundEven_tie (a b k : Nat) (hb : 0 < b) (h : 2 * a = b * (2 * k + 1)) :
    roundEven a b = if k % 2 = 0 then k else k + 1 := by
  have hdm := Nat.div_add_mod a b
  have hlt := Nat.mod_lt a hb
  have hk : a / b = k := by
    have hlow : k ≤ a / b := by
      rw [Nat.le_div_iff_mul_le hb]
      have : 2 * (k * b) ≤ 2 * a := by rw [h, Nat.mul_add, Nat.mul_comm k b, Nat.mul_left_comm]; omega
      omega
    have hup : a / b < k + 1 := by
      rw [Nat.div_lt_iff_lt_mul hb]
      have : 2 * a < 2 * ((k + 1) * b) := by
        rw [h, Nat.mul_add, Nat.add_mul, Nat.mul_comm k b, Nat.mul_left_comm]; omega
      omega
    omega
  have hr : 2 * (a % b) = b := by
    rw [hk] at hdm
    rw [Nat.mul_add, Nat.mul_left_comm] at h
    omega
  unfold roundEven
  rw [if_neg (by omega), if_neg (by omega), hk]

theorem roundEven_mono {a b a' b' : Nat} (hb : 0 < b) (hb' : 0 < b') (h : a * b' ≤ a' * b) :
    roundEven a b ≤ roundEven a' b' := by
  obtain ⟨h1, h2⟩ := roundEven_err a b hb
  obtain ⟨h3, h4⟩ := roundEven_err a' b' hb'
  generalize hr : roundEven a b = r at *
  generalize hr' : roundEven a' b' = r' at *
  refine Nat.le_of_not_lt fun hlt => ?_
  -- b (2 r - 1) ≤ 2 a and 2 a' ≤ b' (2 r' + 1), 2 r' + 1 ≤ 2 r - 1
  obtain ⟨d, rfl⟩ : ∃ d, r = r' + 1 + d := ⟨r - (r' + 1), by omega⟩
  have e1 : b * (2 * r' + 1 + 2 * d) ≤ 2 * a := by
    have : 2 * (b * (r' + 1 + d)) = b * (2 * r' + 1 + 2 * d) + b := by grind
    omega
  have e2 : 2 * a' ≤ b' * (2 * r' + 1) := by
    have : 2 * (b' * r') + b' = b' * (2 * r' + 1) := by grind
    omega
  have f1 : b * (2 * r' + 1 + 2 * d) * b' ≤ 2 * (a * b') := by
    have := Nat.mul_le_mul_right b' e1; rwa [Nat.mul_assoc 2] at this
  have f2 : 2 * (a' * b) ≤ b' * (2 * r' + 1) * b := by
    have := Nat.mul_le_mul_right b e2; rwa [Nat.mul_assoc 2] at this
  have f3 : b * (2 * r' + 1 + 2 * d) * b' ≤ b' * (2 * r' + 1) * b := by omega
  have hd : d = 0 := by
    rcases Nat.eq_zero_or_pos d with h | h
    · exact h
    · exfalso
      have : b' * (2 * r' + 1) * b < b * (2 * r' + 1 + 2 * d) * b' := by
        have e : b * (2 * r' + 1 + 2 * d) * b' = b' * (2 * r' + 1) * b + 2 * d * (b * b') := by grind
        rw [e]
        have : 0 < 2 * d * (b * b') := Nat.mul_pos (by omega) (Nat.mul_pos hb hb')
        omega
      omega
  subst hd
  have g0 : b * (2 * r' + 1 + 2 * 0) * b' = b' * (2 * r' + 1) * b := by grind
  have g1 : 2 * (a * b') = b * (2 * r' + 1) * b' := by
    have : b * (2 * r' + 1) * b' = b * (2 * r' + 1 + 2 * 0) * b' := by grind
    omega
  have g2 : 2 * (a' * b) = b' * (2 * r' + 1) * b := by omega
  have t1 : 2 * a = b * (2 * r' + 1) := by
    apply Nat.eq_of_mul_eq_mul_right hb'
    rw [Nat.mul_assoc 2]; exact g1
  have t2 : 2 * a' = b' * (2 * r' + 1) := by
    apply Nat.eq_of_mul_eq_mul_right hb
    rw [Nat.mul_assoc 2]; exact g2
  rw [roundEven_tie a b r' hb t1] at hr
  rw [roundEven_tie a' b' r' hb' t2] at hr'
  split at hr <;> rename_i hp <;> simp only [hp, if_true, if_false] at hr' <;> omega

theorem roundEven_exact (k b : Nat) (hb : 0 < b) : roundEven (b * k) b = k := by
  unfold roundEven
  rw [Nat.mul_mod_right, Nat.mul_div_cancel_left k hb, if_pos (by omega)]

theorem roundEven_le {a b k : Nat} (hb : 0 < b) (h : a ≤ b * k) : roundEven a b ≤ k := by
  have := roundEven_mono (a := a) (b := b) (a' := b * k) (b' := b) hb hb (Nat.mul_le_mul_right b h)
  rwa [roundEven_exact k b hb] at this

theorem roundEven_ge {a b k : Nat} (hb : 0 < b) (h : b * k ≤ a) : k ≤ roundEven a b := by
  have := roundEven_mono (a := b * k) (b := b) (a' := a) (b' := b) hb hb (Nat.mul_le_mul_right b h)
  rwa [roundEven_exact k b hb] at this

/-! ## Rounding to 53 bits -/

/-- Where places are given up, the number has more than 53 bits. -/
theorem shift_le {a b : Nat} (h : 0 < shift a b) : 2 ^ (shift a b + 52) ≤ a / b := by
  unfold shift at *
  have h0 : a / b ≠ 0 := by
    intro e; rw [e] at h; exact absurd h (by decide)
  rw [show Nat.log2 (a / b) - 52 + 52 = Nat.log2 (a / b) by omega]
  exact Nat.log2_self_le h0

theorem lt_shift (a b : Nat) : a / b < 2 ^ (shift a b + 53) := by
  unfold shift
  have := @Nat.lt_log2_self (a / b)
  exact Nat.lt_of_lt_of_le this (Nat.pow_le_pow_right (by decide) (by omega))

/-- The error of rounding is at most half of a unit in the last place. -/
theorem nearest_err (a b : Nat) (hb : 0 < b) :
    2 * (b * nearest a b) ≤ 2 * a + b * 2 ^ shift a b ∧ 2 * a ≤ 2 * (b * nearest a b) + b * 2 ^ shift a b := by
  have := roundEven_err a (b * 2 ^ shift a b) (Nat.mul_pos hb (Nat.two_pow_pos _))
  unfold nearest
  rwa [← Nat.mul_assoc b]

/-- The relative error of rounding is at most 2^-53, apart from half of the smallest unit. -/
theorem nearest_rel (a b : Nat) (hb : 0 < b) :
    2 ^ 53 * (b * nearest a b) ≤ 2 ^ 53 * a + (a + 2 ^ 52 * b) ∧ 2 ^ 53 * a ≤ 2 ^ 53 * (b * nearest a b) + (a + 2 ^ 52 * b) := by
  obtain ⟨h1, h2⟩ := nearest_err a b hb
  have h3 : 2 ^ 52 * (b * 2 ^ shift a b) ≤ a + 2 ^ 52 * b := by
    rcases Nat.eq_zero_or_pos (shift a b) with h | h
    · rw [h]; omega
    · have h4 := shift_le h
      rw [Nat.le_div_iff_mul_le hb, Nat.pow_add] at h4
      have : 2 ^ 52 * (b * 2 ^ shift a b) = 2 ^ shift a b * 2 ^ 52 * b := by grind
      omega
  omega

/-- For numbers with at least 53 bits the relative error is at most 2^-53. -/
theorem nearest_normal (a b : Nat) (hb : 0 < b) (hn : 2 ^ 52 * b ≤ a) :
    2 ^ 53 * (b * nearest a b) ≤ 2 ^ 53 * a + a ∧ 2 ^ 53 * a ≤ 2 ^ 53 * (b * nearest a b) + a := by
  obtain ⟨h1, h2⟩ := nearest_err a b hb
  have h3 : 2 ^ 52 * (b * 2 ^ shift a b) ≤ a := by
    rcases Nat.eq_zero_or_pos (shift a b) with h | h
    · rw [h]; omega
    · have h4 := shift_le h
      rw [Nat.le_div_iff_mul_le hb, Nat.pow_add] at h4
      have : 2 ^ 52 * (b * 2 ^ shift a b) = 2 ^ shift a b * 2 ^ 52 * b := by grind
      omega
  omega

theorem nearest_mono {a b a' b' : Nat} (hb : 0 < b) (hb' : 0 < b') (h : a * b' ≤ a' * b) : nearest a b ≤ nearest a' b' := by
  have hdiv : a / b ≤ a' / b' := by
    rw [Nat.le_div_iff_mul_le hb']
    have h1 : a / b * b ≤ a := Nat.div_mul_le_self a b
    have h2 : a / b * b' * b ≤ a' * b := by
      have := Nat.mul_le_mul_right b' h1
      have e : a / b * b' * b = a / b * b * b' := by grind
      omega
    exact Nat.le_of_mul_le_mul_right h2 hb
  have hs : shift a b ≤ shift a' b' := by
    have hl : Nat.log2 (a / b) ≤ Nat.log2 (a' / b') := by
      rcases Nat.eq_zero_or_pos (a / b) with h0 | h0
      · rw [h0]; exact Nat.zero_le _
      · exact (Nat.le_log2 (by omega)).mpr (Nat.le_trans (Nat.log2_self_le (by omega)) hdiv)
    unfold shift; omega
  unfold nearest
  rcases Nat.eq_or_lt_of_le hs with he | hlt
  · rw [← he]
    apply Nat.mul_le_mul_left
    apply roundEven_mono (Nat.mul_pos hb (Nat.two_pow_pos _)) (Nat.mul_pos hb' (Nat.two_pow_pos _))
    rw [← Nat.mul_assoc, ← Nat.mul_assoc]
    exact Nat.mul_le_mul_right _ h
  · have u : roundEven a (b * 2 ^ shift a b) ≤ 2 ^ 53 := by
      apply roundEven_le (Nat.mul_pos hb (Nat.two_pow_pos _))
      have := lt_shift a b
      rw [Nat.div_lt_iff_lt_mul hb, Nat.pow_add] at this
      have e : b * 2 ^ shift a b * 2 ^ 53 = 2 ^ shift a b * 2 ^ 53 * b := by grind
      omega
    have l : 2 ^ 52 ≤ roundEven a' (b' * 2 ^ shift a' b') := by
      apply roundEven_ge (Nat.mul_pos hb' (Nat.two_pow_pos _))
      have := shift_le (a := a') (b := b') (by omega)
      rw [Nat.le_div_iff_mul_le hb', Nat.pow_add] at this
      have e : b' * 2 ^ shift a' b' * 2 ^ 52 = 2 ^ shift a' b' * 2 ^ 52 * b' := by grind
      omega
    calc 2 ^ shift a b * roundEven a (b * 2 ^ shift a b) ≤ 2 ^ shift a b * 2 ^ 53 := Nat.mul_le_mul_left _ u
      _ = 2 ^ (shift a b + 1) * 2 ^ 52 := by rw [Nat.pow_succ]; omega
      _ ≤ 2 ^ shift a' b' * 2 ^ 52 := Nat.mul_le_mul_right _ (Nat.pow_le_pow_right (by decide) hlt)
      _ ≤ _ := Nat.mul_le_mul_left _ l

/-- Rounding depends on the quotient only. -/
theorem nearest_congr {a b a' b' : Nat} (hb : 0 < b) (hb' : 0 < b') (h : a * b' = a' * b) : nearest a b = nearest a' b' :=
  Nat.le_antisymm (nearest_mono hb hb' (Nat.le_of_eq h)) (nearest_mono hb' hb (Nat.le_of_eq h.symm))

theorem round_congr {a b a' b' : Nat} (s : Bool) (hb : 0 < b) (hb' : 0 < b') (h : a * b' = a' * b) : round s a b = round s a' b' := by
  unfold round
  rw [nearest_congr hb hb' h]

/-- Integers of up to 53 bits are not changed. -/
theorem nearest_small (n b : Nat) (hb : 0 < b) (hn : n < 2 ^ 53) : nearest (b * n) b = n := by
  have hs : shift (b * n) b = 0 := by
    unfold shift
    rw [Nat.mul_div_cancel_left n hb]
    rcases Nat.eq_zero_or_pos n with h | h
    · rw [h]; decide
    · have := (Nat.log2_lt (by omega)).mpr hn
      omega
  unfold nearest
  rw [hs, Nat.pow_zero, Nat.mul_one, Nat.one_mul, roundEven_exact n b hb]

end Verif.F64
