import Verif.Prime
/-
# C94: the example program recognises primes
-/

namespace Verif.Prime

/-! ## Specification -/

/-- `n` is a prime number. -/
def IsPrime (n : Nat) : Prop := 2 ≤ n ∧ ∀ d, d ∣ n → d = 1 ∨ d = n

/-! ## Numbers -/

/-- A number that is not prime has a divisor up to its root. -/
theorem exists_divisor {n : Nat} (h2 : 2 ≤ n) (h : ¬ IsPrime n) : ∃ d, 2 ≤ d ∧ d ∣ n ∧ d * d ≤ n := by
  have : ∃ d, d ∣ n ∧ d ≠ 1 ∧ d ≠ n := by
    refine Classical.byContradiction fun hc => h ⟨h2, fun d hd => ?_⟩
    refine Classical.byContradiction fun hne => hc ⟨d, hd, ?_, ?_⟩
    · exact fun e => hne (.inl e)
    · exact fun e => hne (.inr e)
  obtain ⟨d, ⟨e, he⟩, h1, hn⟩ := this
  have hd0 : d ≠ 0 := by rintro rfl; omega
  have he0 : e ≠ 0 := by rintro rfl; omega
  have he1 : e ≠ 1 := by rintro rfl; omega
  rcases Nat.le_total d e with hle | hle
  · exact ⟨d, by omega, ⟨e, he⟩, by rw [he]; exact Nat.mul_le_mul_left d hle⟩
  · exact ⟨e, by omega, ⟨d, by rw [he, Nat.mul_comm]⟩, by rw [he]; exact Nat.mul_le_mul_right e hle⟩

theorem not_two {n d : Nat} (h2 : n % 2 ≠ 0) (h3 : n % 3 ≠ 0) (hd : d ∣ n) : d % 6 = 1 ∨ d % 6 = 5 := by
  have a : d % 2 ≠ 0 := fun e => h2 (Nat.mod_eq_zero_of_dvd (Nat.dvd_trans (Nat.dvd_of_mod_eq_zero e) hd))
  have b : d % 3 ≠ 0 := fun e => h3 (Nat.mod_eq_zero_of_dvd (Nat.dvd_trans (Nat.dvd_of_mod_eq_zero e) hd))
  omega

/-! ## The loop, on numbers -/

theorem loop_eq (fuel : Nat) (n i : U64) : loop (fuel + 1) n i =
    if i * i ≤ n then
      if i = 0 then none
      else if n % i = 0 then some false
      else if i + 2 = 0 then none
      else if n % (i + 2) = 0 then some false
      else loop fuel n (i + 6)
    else some true := rfl

/-- One round. -/
theorem loop_succ (fuel : Nat) {n i : Nat} (hn : n < 2 ^ 64) (hi : 5 ≤ i) (hi2 : i + 2 < 2 ^ 64) :
    loop (fuel + 1) (BitVec.ofNat 64 n) (BitVec.ofNat 64 i) =
      if i * i % 2 ^ 64 ≤ n then
        if n % i = 0 ∨ n % (i + 2) = 0 then some false else loop fuel (BitVec.ofNat 64 n) (BitVec.ofNat 64 (i + 6))
      else some true := by
  have e1 : (BitVec.ofNat 64 i * BitVec.ofNat 64 i ≤ BitVec.ofNat 64 n) ↔ i * i % 2 ^ 64 ≤ n := by
    rw [BitVec.le_def, BitVec.toNat_mul, BitVec.toNat_ofNat, BitVec.toNat_ofNat, Nat.mod_eq_of_lt hn, ← Nat.mul_mod]
  have e0 : ∀ {x : Nat}, x < 2 ^ 64 → 0 < x → BitVec.ofNat 64 x ≠ 0 := by
    intro x hx h0 e
    have := congrArg BitVec.toNat e
    rw [BitVec.toNat_ofNat, Nat.mod_eq_of_lt hx] at this
    exact absurd this (by simp; omega)
  have em : ∀ {x : Nat}, x < 2 ^ 64 → (BitVec.ofNat 64 n % BitVec.ofNat 64 x = 0 ↔ n % x = 0) := by
    intro x hx
    constructor
    · intro e
      have := congrArg BitVec.toNat e
      rwa [BitVec.toNat_umod, BitVec.toNat_ofNat, BitVec.toNat_ofNat, Nat.mod_eq_of_lt hn, Nat.mod_eq_of_lt hx] at this
    · intro e
      apply BitVec.eq_of_toNat_eq
      rw [BitVec.toNat_umod, BitVec.toNat_ofNat, BitVec.toNat_ofNat, Nat.mod_eq_of_lt hn, Nat.mod_eq_of_lt hx]
      exact e
  have e2 : BitVec.ofNat 64 i + 2 = BitVec.ofNat 64 (i + 2) := by rw [BitVec.ofNat_add]; rfl
  have e6 : BitVec.ofNat 64 i + 6 = BitVec.ofNat 64 (i + 6) := by rw [BitVec.ofNat_add]; rfl
  rw [loop_eq]
  by_cases h : i * i % 2 ^ 64 ≤ n
  · rw [if_pos (e1.mpr h), if_pos h, if_neg (e0 (by omega) (by omega)), e2, e6, if_neg (e0 hi2 (by omega))]
    by_cases ha : n % i = 0
    · rw [if_pos ((em (by omega)).mpr ha), if_pos (.inl ha)]
    · rw [if_neg (fun e => ha ((em (by omega)).mp e))]
      by_cases hb : n % (i + 2) = 0
      · rw [if_pos ((em hi2).mpr hb), if_pos (.inr hb)]
      · rw [if_neg (fun e => hb ((em hi2).mp e)), if_neg (by rintro (e | e); exact ha e; exact hb e)]
  · rw [if_neg (fun e => h (e1.mp e)), if_neg h]

/-- With a divisor ahead that is small enough the answer is no. -/
theorem loop_composite {n d : Nat} (hn : n < 2 ^ 64) (hd : d ∣ n) (hdn : d * d ≤ n) (k : Nat) :
    ∀ fuel i, 5 ≤ i → i % 6 = 5 → i + 6 * k ≤ d → d ≤ i + 6 * k + 2 → d = i + 6 * k ∨ d = i + 6 * k + 2 → k < fuel →
    loop fuel (BitVec.ofNat 64 n) (BitVec.ofNat 64 i) = some false := by
  have hsmall : d < 2 ^ 32 := by
    refine Nat.lt_of_not_le fun h => ?_
    have := Nat.mul_le_mul h h
    omega
  induction k with
  | zero =>
    intro fuel i h5 _ hle _ hor hf
    obtain ⟨f, rfl⟩ : ∃ f, fuel = f + 1 := ⟨fuel - 1, by omega⟩
    rw [loop_succ f hn h5 (by omega)]
    have hsq : i * i ≤ d * d := Nat.mul_le_mul (by omega) (by omega)
    rw [Nat.mod_eq_of_lt (by omega), if_pos (by omega), if_pos]
    rcases hor with e | e
    · left
      have : d = i := by omega
      rw [← this]; exact Nat.mod_eq_zero_of_dvd hd
    · right
      have : d = i + 2 := by omega
      rw [← this]; exact Nat.mod_eq_zero_of_dvd hd
  | succ k ih =>
    intro fuel i h5 h6 hle hge hor hf
    obtain ⟨f, rfl⟩ : ∃ f, fuel = f + 1 := ⟨fuel - 1, by omega⟩
    rw [loop_succ f hn h5 (by omega)]
    have hsq : i * i ≤ d * d := Nat.mul_le_mul (by omega) (by omega)
    rw [Nat.mod_eq_of_lt (by omega), if_pos (by omega)]
    split
    · rfl
    · exact ih f (i + 6) (by omega) (by omega) (by omega) (by omega) (by omega) (by omega)

/-- A prime is recognised once a square ahead is seen as larger. -/
theorem loop_prime {n : Nat} (hn : n < 2 ^ 64) (hp : IsPrime n) (k : Nat) :
    ∀ fuel i, 5 ≤ i → i + 6 * k + 2 < 2 ^ 64 → n < (i + 6 * k) * (i + 6 * k) % 2 ^ 64 →
    (∀ j, j < k → i + 6 * j + 2 < n) → k < fuel →
    loop fuel (BitVec.ofNat 64 n) (BitVec.ofNat 64 i) = some true := by
  induction k with
  | zero =>
    intro fuel i h5 hlt hsq _ hf
    obtain ⟨f, rfl⟩ : ∃ f, fuel = f + 1 := ⟨fuel - 1, by omega⟩
    rw [loop_succ f hn h5 (by omega), if_neg]
    rw [Nat.mul_zero, Nat.add_zero] at hsq
    omega
  | succ k ih =>
    intro fuel i h5 hlt hsq hj hf
    obtain ⟨f, rfl⟩ : ∃ f, fuel = f + 1 := ⟨fuel - 1, by omega⟩
    rw [loop_succ f hn h5 (by omega)]
    split
    · rw [if_neg]
      · refine ih f (i + 6) (by omega) (by omega) ?_ ?_ (by omega)
        · rw [show i + 6 + 6 * k = i + 6 * (k + 1) by omega]; exact hsq
        · intro j hjk
          have := hj (j + 1) (by omega)
          omega
      · have h0 := hj 0 (by omega)
        rintro (e | e)
        · rcases hp.2 _ (Nat.dvd_of_mod_eq_zero e) with h | h <;> omega
        · rcases hp.2 _ (Nat.dvd_of_mod_eq_zero e) with h | h <;> omega
    · rfl

/-- A number whose square is 2^64 - 7 with wrapping. -/
def root : Nat := 1852311383259529397

theorem root_square : root * root % 2 ^ 64 = 2 ^ 64 - 7 := by decide +kernel

/-- Below the square of 2^32 - 5 the loop ends before squares wrap around. -/
theorem exists_stop {n : Nat} (hn : n < (2 ^ 32 - 5) * (2 ^ 32 - 5)) :
    ∃ k, (5 + 6 * k) + 2 < 2 ^ 64 ∧ n < (5 + 6 * k) * (5 + 6 * k) % 2 ^ 64 ∧ ∀ j, j < k → (5 + 6 * j) * (5 + 6 * j) ≤ n := by
  have key : ∀ m, m ≤ 715827881 → ∃ k, k ≤ 715827881 ∧ n < (5 + 6 * k) * (5 + 6 * k) ∧
      ∀ j, j < k → 715827881 - m ≤ j → (5 + 6 * j) * (5 + 6 * j) ≤ n := by
    intro m
    induction m with
    | zero => exact fun _ => ⟨715827881, Nat.le_refl _, hn, fun j h1 h2 => absurd h1 (by omega)⟩
    | succ m ih =>
      intro hm
      obtain ⟨k, hk, h1, h2⟩ := ih (by omega)
      by_cases h : (5 + 6 * (715827881 - (m + 1))) * (5 + 6 * (715827881 - (m + 1))) ≤ n
      · refine ⟨k, hk, h1, fun j hj hmj => ?_⟩
        rcases Nat.eq_or_lt_of_le hmj with e | e
        · rw [← e]; exact h
        · exact h2 j hj (by omega)
      · exact ⟨715827881 - (m + 1), by omega, by omega, fun j h1 h2 => absurd h1 (by omega)⟩
  obtain ⟨k, hk, h1, h2⟩ := key 715827881 (Nat.le_refl _)
  have hsq : (5 + 6 * k) * (5 + 6 * k) ≤ (2 ^ 32 - 5) * (2 ^ 32 - 5) := Nat.mul_le_mul (by omega) (by omega)
  refine ⟨k, by omega, ?_, fun j hj => h2 j hj (by omega)⟩
  rw [Nat.mod_eq_of_lt (by omega)]
  exact h1

theorem small_or_seven {n : Nat} (hn : n < 2 ^ 64) (hp : IsPrime n) : n < 2 ^ 64 - 7 := by
  refine Nat.lt_of_not_le fun h => ?_
  have h2 : ∀ d, d ∣ n → 2 ≤ d → d < 100 → False := by
    intro d hd a b
    rcases hp.2 d hd with e | e <;> omega
  have : n = 2 ^ 64 - 7 ∨ n = 2 ^ 64 - 6 ∨ n = 2 ^ 64 - 5 ∨ n = 2 ^ 64 - 4 ∨ n = 2 ^ 64 - 3 ∨ n = 2 ^ 64 - 2 ∨ n = 2 ^ 64 - 1 := by omega
  rcases this with rfl | rfl | rfl | rfl | rfl | rfl | rfl
  · exact h2 3 (by decide) (by decide) (by decide)
  · exact h2 2 (by decide) (by decide) (by decide)
  · exact h2 11 (by decide) (by decide) (by decide)
  · exact h2 2 (by decide) (by decide) (by decide)
  · exact h2 13 (by decide) (by decide) (by decide)
  · exact h2 2 (by decide) (by decide) (by decide)
  · exact h2 3 (by decide) (by decide) (by decide)

theorem loop_correct {n : Nat} (hn : n < 2 ^ 64) (h3 : 3 < n) (h2 : n % 2 ≠ 0) (h3' : n % 3 ≠ 0) :
    (IsPrime n → loop (2 ^ 64) (BitVec.ofNat 64 n) 5 = some true) ∧
    (¬ IsPrime n → loop (2 ^ 64) (BitVec.ofNat 64 n) 5 = some false) := by
  constructor
  · intro hp
    rcases Nat.lt_or_ge n ((2 ^ 32 - 5) * (2 ^ 32 - 5)) with h | h
    · obtain ⟨k, a, b, c⟩ := exists_stop h
      refine loop_prime hn hp k (2 ^ 64) 5 (Nat.le_refl _) a b (fun j hj => ?_) (by omega)
      have := c j hj
      have e : (5 + 6 * j) * (5 + 6 * j) = 5 * (5 + 6 * j) + 6 * j * (5 + 6 * j) := by rw [← Nat.add_mul]
      omega
    · have e : 5 + 6 * ((root - 5) / 6) = root := by decide +kernel
      have hr := root_square
      have hlt := small_or_seven hn hp
      refine loop_prime hn hp ((root - 5) / 6) (2 ^ 64) 5 (Nat.le_refl _) ?_ ?_ (fun j hj => ?_) (by unfold root; omega)
      · rw [e]; unfold root; omega
      · rw [e, hr]; omega
      · unfold root at hj
        omega
  · intro hp
    obtain ⟨d, hd2, hd, hdd⟩ := exists_divisor (by omega) hp
    have h6 := not_two h2 h3' hd
    have hsmall : d < 2 ^ 32 := by
      refine Nat.lt_of_not_le fun h => ?_
      have := Nat.mul_le_mul h h
      omega
    rcases h6 with h6 | h6
    · refine loop_composite hn hd hdd ((d - 7) / 6) (2 ^ 64) 5 (Nat.le_refl _) (by decide) (by omega) (by omega) (.inr (by omega)) (by omega)
    · refine loop_composite hn hd hdd ((d - 5) / 6) (2 ^ 64) 5 (Nat.le_refl _) (by decide) (by omega) (by omega) (.inl (by omega)) (by omega)

/-! ## C94 -/

theorem isPrime_iff (n : U64) : (IsPrime n.toNat → isPrime n = some true) ∧ (¬ IsPrime n.toNat → isPrime n = some false) := by
  have le : ∀ c : Nat, c < 2 ^ 64 → (n ≤ BitVec.ofNat 64 c ↔ n.toNat ≤ c) := by
    intro c hc
    rw [BitVec.le_def, BitVec.toNat_ofNat, Nat.mod_eq_of_lt hc]
  have mod : ∀ c : Nat, c < 2 ^ 64 → (n % BitVec.ofNat 64 c = 0 ↔ n.toNat % c = 0) := by
    intro c hc
    constructor
    · intro e
      have := congrArg BitVec.toNat e
      rwa [BitVec.toNat_umod, BitVec.toNat_ofNat, Nat.mod_eq_of_lt hc] at this
    · intro e
      apply BitVec.eq_of_toNat_eq
      rw [BitVec.toNat_umod, BitVec.toNat_ofNat, Nat.mod_eq_of_lt hc]
      exact e
  have l1 : n ≤ 1 ↔ _ := le 1 (by decide)
  have l3 : n ≤ 3 ↔ _ := le 3 (by decide)
  have m2 : n % 2 = 0 ↔ _ := mod 2 (by decide)
  have m3 : n % 3 = 0 ↔ _ := mod 3 (by decide)
  have hn := n.isLt
  have hof : BitVec.ofNat 64 n.toNat = n := by rw [BitVec.ofNat_toNat, BitVec.setWidth_eq]
  unfold isPrime
  by_cases h1 : n.toNat ≤ 1
  · rw [if_pos (l1.mpr h1)]
    exact ⟨fun h => absurd h.1 (by omega), fun _ => rfl⟩
  · rw [if_neg (fun e => h1 (l1.mp e))]
    by_cases h3 : n.toNat ≤ 3
    · rw [if_pos (l3.mpr h3)]
      refine ⟨fun _ => rfl, fun h => absurd ⟨by omega, fun d hd => ?_⟩ h⟩
      have := Nat.le_of_dvd (by omega) hd
      have h0 : d ≠ 0 := by
        rintro rfl
        have := Nat.eq_zero_of_zero_dvd hd
        omega
      rcases (show n.toNat = 2 ∨ n.toNat = 3 by omega) with e | e
      · omega
      · have h2 : d ≠ 2 := by rintro rfl; rw [e] at hd; exact absurd hd (by decide)
        omega
    · rw [if_neg (fun e => h3 (l3.mp e))]
      have hdiv : ∀ c, 2 ≤ c → c < 4 → n.toNat % c = 0 → ¬ IsPrime n.toNat := by
        intro c a b e hp
        rcases hp.2 c (Nat.dvd_of_mod_eq_zero e) with h | h <;> omega
      by_cases h2 : n.toNat % 2 = 0 ∨ n.toNat % 3 = 0
      · rw [if_pos (h2.imp m2.mpr m3.mpr)]
        refine ⟨fun h => absurd h ?_, fun _ => rfl⟩
        rcases h2 with e | e
        · exact hdiv 2 (by decide) (by decide) e
        · exact hdiv 3 (by decide) (by decide) e
      · rw [if_neg (fun e => h2 (e.imp m2.mp m3.mp))]
        have := loop_correct hn (by omega) (fun e => h2 (.inl e)) (fun e => h2 (.inr e))
        rwa [hof] at this

/-- **C94.** For every `u64` the program ends without panic; it commits to 1 exactly for the prime numbers and to 0 for
all others, although its squares wrap around for the largest numbers. -/
theorem c94_committed (n : U64) :
    (committed n = some [1] ↔ IsPrime n.toNat) ∧ (committed n = some [0] ↔ ¬ IsPrime n.toNat) := by
  obtain ⟨a, b⟩ := isPrime_iff n
  unfold committed
  by_cases h : IsPrime n.toNat
  · rw [a h]
    exact ⟨⟨fun _ => h, fun _ => rfl⟩, ⟨fun e => absurd e (by decide), fun e => absurd h e⟩⟩
  · rw [b h]
    exact ⟨⟨fun e => absurd e (by decide), fun e => absurd e h⟩, ⟨fun _ => h, fun _ => rfl⟩⟩

/-- Witnesses; 20 is what the calibrator uses. -/
example : committed 20 = some [0] ∧ committed 2 = some [1] ∧ committed 1 = some [0] ∧ committed 97 = some [1] ∧
    committed 91 = some [0] ∧ committed 7919 = some [1] ∧ committed (BitVec.ofNat 64 (2 ^ 64 - 5)) = some [0] := by decide +kernel

end Verif.Prime
