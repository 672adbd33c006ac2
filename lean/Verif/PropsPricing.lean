import Verif.Pricing
/-
# Properties C46 and C47: prices
-/

namespace Verif
open Pricing

/-! ## C46: conversion from USD -/

/-- For a non-zero rate the conversion succeeds with the exact floor, for all 64-bit inputs: the
multiplication cannot overflow. -/
theorem c46_convert (usd rate : U64) (h : rate ≠ 0) :
    ∃ r, usdMicrosToProveWei usd rate = .ok r ∧ r.toNat = usd.toNat * 10 ^ 18 / rate.toNat := by
  have hu := usd.isLt
  have e1 : (usd.setWidth 256).toNat = usd.toNat := BitVec.toNat_setWidth_of_le (by decide)
  have e2 : (rate.setWidth 256).toNat = rate.toNat := BitVec.toNat_setWidth_of_le (by decide)
  have e3 : scale18.toNat = 10 ^ 18 := by decide +kernel
  have hlt : usd.toNat * 10 ^ 18 < 2 ^ 256 :=
    Nat.lt_of_lt_of_le ((Nat.mul_lt_mul_right (by decide)).mpr hu) (by decide +kernel)
  have hm : checkedMul (usd.setWidth 256) scale18 = some (usd.setWidth 256 * scale18) := by
    unfold checkedMul
    rw [if_pos (by rw [e1, e3]; exact hlt)]
  unfold usdMicrosToProveWei
  rw [if_neg h, hm]
  refine ⟨_, rfl, ?_⟩
  rw [BitVec.toNat_udiv, BitVec.toNat_mul, e1, e2, e3, Nat.mod_eq_of_lt hlt]

/-- A zero rate is refused. -/
theorem c46_zero (usd : U64) :
    usdMicrosToProveWei usd 0 = .error .zeroProvePrice ∧ computeMaxPricePerPguWei usd 0 = .error .zeroProvePrice :=
  ⟨rfl, rfl⟩

/-- The price ceiling per PGU is the exact floor of the rational price. -/
theorem c46_ceiling (target rate : U64) (h : rate ≠ 0) :
    ∃ r, computeMaxPricePerPguWei target rate = .ok r ∧ r.toNat = target.toNat * 10 ^ 9 / rate.toNat := by
  obtain ⟨r, h1, h2⟩ := c46_convert target rate h
  unfold computeMaxPricePerPguWei
  rw [h1]
  have e3 : pguPerBpgu.toNat = 10 ^ 9 := by decide +kernel
  refine ⟨_, rfl, ?_⟩
  rw [BitVec.toNat_udiv, h2, e3, Nat.div_div_eq_div_mul, Nat.mul_comm rate.toNat,
    show target.toNat * 10 ^ 18 = 10 ^ 9 * (target.toNat * 10 ^ 9) by omega, Nat.mul_div_mul_left _ _ (by omega)]

/-- The realised USD value never exceeds the target, and one wei more would exceed it. -/
theorem c46_conservative (usd rate : U64) (r : U256) (h : usdMicrosToProveWei usd rate = .ok r) :
    r.toNat * rate.toNat ≤ usd.toNat * 10 ^ 18 ∧ usd.toNat * 10 ^ 18 < (r.toNat + 1) * rate.toNat := by
  by_cases h0 : rate = 0
  · subst h0; exact nomatch h
  · obtain ⟨r', h1, h2⟩ := c46_convert usd rate h0
    rw [h] at h1
    obtain rfl := Except.ok.inj h1
    have hpos : 0 < rate.toNat := Nat.pos_of_ne_zero fun e => h0 (BitVec.eq_of_toNat_eq e)
    rw [h2]
    refine ⟨Nat.div_mul_le_self _ _, ?_⟩
    rw [Nat.mul_comm (_ + 1)]
    exact Nat.lt_mul_div_succ _ hpos

/-- Monotone: a higher target or a lower rate never lowers the ceiling. -/
theorem c46_monotone (t t' rate rate' : U64) (r r' : U256) (h : computeMaxPricePerPguWei t rate = .ok r)
    (h' : computeMaxPricePerPguWei t' rate' = .ok r') (ht : t ≤ t') (hr : rate' ≤ rate) : r ≤ r' := by
  by_cases h0 : rate = 0
  · subst h0; exact nomatch h
  by_cases h0' : rate' = 0
  · subst h0'; exact nomatch h'
  obtain ⟨a, h1, h2⟩ := c46_ceiling t rate h0
  obtain ⟨b, h3, h4⟩ := c46_ceiling t' rate' h0'
  rw [h] at h1
  rw [h'] at h3
  obtain rfl := Except.ok.inj h1
  obtain rfl := Except.ok.inj h3
  rw [BitVec.le_def, h2, h4]
  have hpos : 0 < rate'.toNat := Nat.pos_of_ne_zero fun e => h0' (BitVec.eq_of_toNat_eq e)
  exact Nat.le_trans (Nat.div_le_div_left hr hpos) (Nat.div_le_div_right (Nat.mul_le_mul_right _ ht))

-- a rate of $0.40 and a target of $0.20 per BPGU; rounding occurs for 1 / 3
example : (0x61a80 : U64) ≠ 0 ∧ (computeMaxPricePerPguWei 200000 400000).toOption = some 500000000 ∧
    (computeMaxPricePerPguWei 1 3).toOption = some 333333333 ∧
    (usdMicrosToProveWei 0xffffffffffffffff 1).toOption = some 18446744073709551615000000000000000000 := by
  decide +kernel

/-! ## C47: tick rounding -/

/-- The result is the largest multiple of the tick that is not above the price. -/
theorem c47_largest (wei tick : U256) (h : tick ≠ 0) :
    tick.toNat ∣ (roundDownToTick wei tick).toNat ∧ roundDownToTick wei tick ≤ wei ∧
    ∀ k, tick.toNat ∣ k → k ≤ wei.toNat → k ≤ (roundDownToTick wei tick).toNat := by
  have hpos : 0 < tick.toNat := Nat.pos_of_ne_zero fun e => h (BitVec.eq_of_toNat_eq e)
  unfold roundDownToTick
  split
  · rename_i h1
    have : tick.toNat ≤ 1 := h1
    have e : tick.toNat = 1 := by omega
    rw [e]
    exact ⟨⟨_, (Nat.one_mul _).symm⟩, BitVec.le_refl _, fun k _ hk => hk⟩
  · have hm := Nat.mod_le wei.toNat tick.toNat
    have hw := wei.isLt
    have e : (wei - wei % tick).toNat = wei.toNat - wei.toNat % tick.toNat := by
      rw [BitVec.toNat_sub_of_le (by rw [BitVec.le_def, BitVec.toNat_umod]; exact hm), BitVec.toNat_umod]
    rw [BitVec.le_def, e]
    refine ⟨Nat.dvd_sub_mod _, Nat.sub_le .., ?_⟩
    rintro k ⟨m, rfl⟩ hk
    have hd := Nat.div_add_mod wei.toNat tick.toNat
    have : m ≤ wei.toNat / tick.toNat := (Nat.le_div_iff_mul_le hpos).mpr (by rw [Nat.mul_comm]; exact hk)
    have := Nat.mul_le_mul_left tick.toNat this
    omega

/-- Ticks 0 and 1 leave the price unchanged. -/
theorem c47_no_tick (wei : U256) : roundDownToTick wei 0 = wei ∧ roundDownToTick wei 1 = wei :=
  ⟨rfl, rfl⟩

/-- Rounding is idempotent. -/
theorem c47_idempotent (wei tick : U256) :
    roundDownToTick (roundDownToTick wei tick) tick = roundDownToTick wei tick := by
  by_cases h : tick = 0
  · subst h; rfl
  · obtain ⟨h1, _, _⟩ := c47_largest wei tick h
    obtain ⟨_, h2, h3⟩ := c47_largest (roundDownToTick wei tick) tick h
    exact BitVec.eq_of_toNat_eq (Nat.le_antisymm h2 (h3 _ h1 (Nat.le_refl _)))

/-- Rounding is monotone in the price. -/
theorem c47_monotone (a b tick : U256) (hab : a ≤ b) : roundDownToTick a tick ≤ roundDownToTick b tick := by
  by_cases h : tick = 0
  · subst h; exact hab
  · obtain ⟨h1, h2, _⟩ := c47_largest a tick h
    exact (c47_largest b tick h).2.2 _ h1 (Nat.le_trans h2 hab)

example : roundDownToTick 642742367 10000000 = 640000000 ∧ roundDownToTick 500000000 10000000 = 500000000 ∧
    roundDownToTick 5 10 = 0 ∧ (10 : U256) ≠ 0 := by
  decide +kernel

end Verif
