import Verif.Calibrate
import Verif.PropsBid
/-
# Relative errors of double arithmetic
-/

namespace Verif.Calibrate
open F64

/-- What a rounding leaves of a number at least. -/
def ρ : Rat := (2 ^ 53 - 1) / 2 ^ 53

theorem ρ_pos : 0 < ρ := by decide +kernel
theorem ρ_le : ρ ≤ 1 := by decide +kernel
theorem ρ20 : (1 : Rat) / 2 ≤ ρ ^ 20 := by decide +kernel

/-- `v` is `q` up to `k` roundings. -/
def Close (k : Nat) (v q : Rat) : Prop := q * ρ ^ k ≤ v ∧ v * ρ ^ k ≤ q

theorem mulLe {a b c d : Rat} (h1 : a ≤ b) (h2 : c ≤ d) (hc : 0 ≤ c) (hb : 0 ≤ b) : a * c ≤ b * d :=
  Rat.le_trans (Rat.mul_le_mul_of_nonneg_right h1 hc) (Rat.mul_le_mul_of_nonneg_left h2 hb)

theorem pow_pos' (k : Nat) : 0 < ρ ^ k := Rat.pow_pos ρ_pos

theorem pow_mono {j k : Nat} (h : j ≤ k) : ρ ^ k ≤ ρ ^ j := by
  obtain ⟨d, rfl⟩ : ∃ d, k = j + d := ⟨k - j, by omega⟩
  clear h
  induction d with
  | zero => exact Rat.le_refl
  | succ d ih =>
    rw [← Nat.add_assoc, Rat.pow_succ]
    refine Rat.le_trans ?_ ih
    have := Rat.mul_le_mul_of_nonneg_left ρ_le (Rat.le_of_lt (pow_pos' (j + d)))
    rwa [Rat.mul_one] at this

theorem pow_add' (j k : Nat) : ρ ^ (j + k) = ρ ^ j * ρ ^ k := by
  induction k with
  | zero => rw [Nat.add_zero, Rat.pow_zero, Rat.mul_one]
  | succ k ih => rw [← Nat.add_assoc, Rat.pow_succ, Rat.pow_succ, ih, Rat.mul_assoc]

theorem Close.refl (v : Rat) : Close 0 v v := by
  unfold Close
  rw [Rat.pow_zero, Rat.mul_one]
  exact ⟨Rat.le_refl, Rat.le_refl⟩

theorem Close.nonneg {k : Nat} {v q : Rat} (h : Close k v q) (hq : 0 ≤ q) : 0 ≤ v :=
  Rat.le_trans (Rat.mul_nonneg hq (Rat.le_of_lt (pow_pos' k))) h.1

theorem Close.pos {k : Nat} {v q : Rat} (h : Close k v q) (hq : 0 < q) : 0 < v :=
  Std.lt_of_lt_of_le (Rat.mul_pos hq (pow_pos' k)) h.1

theorem Close.mono {j k : Nat} {v q : Rat} (h : Close j v q) (hq : 0 ≤ q) (hjk : j ≤ k) : Close k v q :=
  ⟨Rat.le_trans (Rat.mul_le_mul_of_nonneg_left (pow_mono hjk) hq) h.1,
   Rat.le_trans (Rat.mul_le_mul_of_nonneg_left (pow_mono hjk) (h.nonneg hq)) h.2⟩

theorem Close.mul {j k : Nat} {v w p q : Rat} (h1 : Close j v p) (h2 : Close k w q) (hp : 0 ≤ p) (hq : 0 ≤ q) :
    Close (j + k) (v * w) (p * q) := by
  have hv := h1.nonneg hp
  have hw := h2.nonneg hq
  have a := Rat.le_of_lt (pow_pos' j)
  have b := Rat.le_of_lt (pow_pos' k)
  unfold Close
  rw [pow_add']
  constructor
  · have := mulLe h1.1 h2.1 (Rat.mul_nonneg hq b) hv
    have e : p * q * (ρ ^ j * ρ ^ k) = p * ρ ^ j * (q * ρ ^ k) := by grind
    rw [e]; exact this
  · have := mulLe h1.2 h2.2 (Rat.mul_nonneg hw b) hp
    have e : v * w * (ρ ^ j * ρ ^ k) = v * ρ ^ j * (w * ρ ^ k) := by grind
    rw [e]; exact this

theorem Close.add {k : Nat} {v w p q : Rat} (h1 : Close k v p) (h2 : Close k w q) : Close k (v + w) (p + q) := by
  obtain ⟨a, b⟩ := h1
  obtain ⟨c, d⟩ := h2
  unfold Close
  generalize ρ ^ k = r at *
  constructor <;> grind

theorem Close.inv {k : Nat} {w q : Rat} (h : Close k w q) (hq : 0 < q) : Close k w⁻¹ q⁻¹ := by
  have hw := h.pos hq
  obtain ⟨a, b⟩ := h
  unfold Close
  generalize ρ ^ k = r at *
  have hwq := Rat.mul_pos hw hq
  have e1 : w⁻¹ * w = 1 := Rat.inv_mul_cancel _ (Rat.ne_of_gt hw)
  have e2 : q⁻¹ * q = 1 := Rat.inv_mul_cancel _ (Rat.ne_of_gt hq)
  constructor
  · apply Rat.le_of_mul_le_mul_right _ hwq
    have e3 : q⁻¹ * r * (w * q) = w * r := by grind
    have e4 : w⁻¹ * (w * q) = q := by grind
    rw [e3, e4]; exact b
  · apply Rat.le_of_mul_le_mul_right _ hwq
    have e3 : w⁻¹ * r * (w * q) = q * r := by grind
    have e4 : q⁻¹ * (w * q) = w := by grind
    rw [e3, e4]; exact a

theorem Close.div {j k : Nat} {v w p q : Rat} (h1 : Close j v p) (h2 : Close k w q) (hp : 0 ≤ p) (hq : 0 < q) :
    Close (j + k) (v / w) (p / q) := by
  rw [Rat.div_def, Rat.div_def]
  exact h1.mul (h2.inv hq) hp (Rat.le_of_lt (Rat.inv_pos.mpr hq))

theorem Close.trans {j k : Nat} {v r q : Rat} (h1 : Close j v r) (h2 : Close k r q) : Close (k + j) v q := by
  have a := Rat.le_of_lt (pow_pos' j)
  have b := Rat.le_of_lt (pow_pos' k)
  unfold Close
  rw [pow_add']
  have g1 := Rat.mul_le_mul_of_nonneg_right h2.1 a
  have g2 := Rat.mul_le_mul_of_nonneg_right h1.2 b
  refine ⟨Rat.le_trans ?_ h1.1, Rat.le_trans ?_ h2.2⟩
  · rw [← Rat.mul_assoc]; exact g1
  · rw [Rat.mul_comm (ρ ^ k), ← Rat.mul_assoc]; exact g2

/-- The value of a finite double. -/
def val (n : Nat) : Rat := (n : Rat) / (one : Rat)

/-- The exact values for which roundings are neither too large nor too small. -/
def Mid (q : Rat) : Prop := 1 ≤ q * 2 ^ 900 ∧ q ≤ 2 ^ 900

theorem Mid.pos {q : Rat} (h : Mid q) : 0 < q := by
  obtain ⟨h, _⟩ := h
  have e : (0 : Rat) < 2 ^ 900 := by decide +kernel
  generalize (2 : Rat) ^ 900 = t at *
  have : 0 < q * t := by grind
  exact (Rat.mul_pos_iff_of_pos_right e).mp this

theorem one_cast : (2 : Rat) ^ 953 ≤ (one : Rat) := by decide +kernel

/-- A rounding of the exact quotient `a / b`. -/
theorem round_close {s : Bool} {a b k : Nat} {r q : Rat} (hb : 0 < b) (hr : r * ((b : Rat) * (one : Rat)) = (a : Rat))
    (h : Close k r q) (hk : k ≤ 20) (hq : Mid q) : ∃ n, F64.round s a b = .fin s n ∧ Close (k + 1) (val n) q := by
  have hqp := hq.pos
  have hrp := h.pos hqp
  have hO : (0 : Rat) < (one : Rat) := Rat.natCast_pos.mpr Cli.one_pos
  have hB : (0 : Rat) < (b : Rat) := Rat.natCast_pos.mpr hb
  have h20 : (1 : Rat) / 2 ≤ ρ ^ k := Rat.le_trans ρ20 (pow_mono hk)
  have r1 : q * (1 / 2) ≤ r := Rat.le_trans (Rat.mul_le_mul_of_nonneg_left h20 (Rat.le_of_lt hqp)) h.1
  have r2 : r * (1 / 2) ≤ q := Rat.le_trans (Rat.mul_le_mul_of_nonneg_left h20 (Rat.le_of_lt hrp)) h.2
  have hOO := one_cast
  have low : 2 ^ 52 * b ≤ a := by
    rw [← Rat.natCast_le_natCast, ← hr, Rat.natCast_mul]
    have e1 : ((2 ^ 52 : Nat) : Rat) ≤ r * (one : Rat) := by
      have g1 := Rat.mul_le_mul_of_nonneg_left hOO (Rat.le_of_lt hrp)
      have g2 : q * 2 ^ 900 * 2 ^ 52 ≤ r * 2 ^ 953 := by
        have := Rat.mul_le_mul_of_nonneg_right r1 (show (0 : Rat) ≤ 2 ^ 953 by decide +kernel)
        have e : q * (1 / 2) * 2 ^ 953 = q * 2 ^ 900 * 2 ^ 52 := by
          have : (1 / 2 : Rat) * 2 ^ 953 = 2 ^ 900 * 2 ^ 52 := by decide +kernel
          rw [Rat.mul_assoc, this, Rat.mul_assoc]
        rwa [e] at this
      have g3 := Rat.mul_le_mul_of_nonneg_right hq.1 (show (0 : Rat) ≤ 2 ^ 52 by decide +kernel)
      rw [Rat.one_mul] at g3
      have e : ((2 ^ 52 : Nat) : Rat) = 2 ^ 52 := by decide +kernel
      rw [e]
      exact Rat.le_trans g3 (Rat.le_trans g2 g1)
    have := Rat.mul_le_mul_of_nonneg_right e1 (Rat.le_of_lt hB)
    have e : r * ((b : Rat) * (one : Rat)) = r * (one : Rat) * (b : Rat) := by grind
    rw [e]; exact this
  obtain ⟨n1, n2⟩ := nearest_normal a b hb low
  have fin : nearest a b < 2 ^ 1024 * one := by
    have u : b * nearest a b ≤ 2 * a := by omega
    have v : a ≤ b * (2 ^ 901 * one) := by
      rw [← Rat.natCast_le_natCast, ← hr, Rat.natCast_mul, Rat.natCast_mul]
      have e1 : r ≤ ((2 ^ 901 : Nat) : Rat) := by
        have e : ((2 ^ 901 : Nat) : Rat) = 2 * 2 ^ 900 := by decide +kernel
        rw [e]
        have := hq.2
        generalize (2 : Rat) ^ 900 = t at *
        grind
      have := Rat.mul_le_mul_of_nonneg_right e1 (Rat.le_of_lt (Rat.mul_pos hB hO))
      have e : (b : Rat) * (((2 ^ 901 : Nat) : Rat) * (one : Rat)) = ((2 ^ 901 : Nat) : Rat) * ((b : Rat) * (one : Rat)) := by
        generalize ((2 ^ 901 : Nat) : Rat) = t
        grind
      rw [e]; exact this
    have w : b * nearest a b ≤ b * (2 * (2 ^ 901 * one)) := by
      rw [Nat.mul_left_comm]; omega
    refine Nat.lt_of_le_of_lt (Nat.le_of_mul_le_mul_left w hb) ?_
    rw [← Nat.mul_assoc]
    exact Nat.mul_lt_mul_of_pos_right (by decide +kernel) Cli.one_pos
  refine ⟨nearest a b, ?_, ?_⟩
  · unfold F64.round; rw [if_pos fin]
  · refine Close.trans (r := r) (j := 1) ?_ h
    generalize nearest a b = n at *
    have m1 : 9007199254740991 * (n * b) ≤ 9007199254740992 * a := by
      rw [Nat.mul_comm n b]; omega
    have m2 : 9007199254740991 * a ≤ 9007199254740992 * (n * b) := by
      rw [Nat.mul_comm n b]; omega
    rw [← Rat.natCast_le_natCast] at m1 m2
    simp only [Rat.natCast_mul, ← hr] at m1 m2
    have c1 : ((9007199254740991 : Nat) : Rat) = ρ * 2 ^ 53 := by decide +kernel
    have c2 : ((9007199254740992 : Nat) : Rat) = 2 ^ 53 := by decide +kernel
    rw [c1, c2] at m1 m2
    unfold Close val
    rw [Rat.pow_one]
    have t0 : (0 : Rat) < 2 ^ 53 := by decide +kernel
    generalize (2 : Rat) ^ 53 = t at *
    generalize (n : Rat) = N at *
    generalize (b : Rat) = B at *
    generalize (one : Rat) = O at *
    generalize ρ = p at *
    have hT : 0 < t * B * O := Rat.mul_pos (Rat.mul_pos t0 hB) hO
    have eO : N / O * O = N := by grind
    constructor
    · apply Rat.le_of_mul_le_mul_right _ hT
      have x1 : r * p * (t * B * O) = p * t * (r * (B * O)) := by grind
      have x2 : N / O * (t * B * O) = t * (N * B) := by grind
      rw [x1, x2]; exact m2
    · apply Rat.le_of_mul_le_mul_right _ hT
      have x1 : N / O * p * (t * B * O) = p * t * (N * B) := by grind
      have x2 : r * (t * B * O) = t * (r * (B * O)) := by grind
      rw [x1, x2]; exact m1

/-! ## Ranges -/

/-- `q` lies between 2^-e and 2^e. -/
def Within (e : Nat) (q : Rat) : Prop := 1 ≤ q * 2 ^ e ∧ q ≤ 2 ^ e

theorem two_pos (e : Nat) : (0 : Rat) < 2 ^ e := Rat.pow_pos (by decide)

theorem two_add (j k : Nat) : (2 : Rat) ^ (j + k) = 2 ^ j * 2 ^ k := by
  induction k with
  | zero => rw [Nat.add_zero, Rat.pow_zero, Rat.mul_one]
  | succ k ih => rw [← Nat.add_assoc, Rat.pow_succ, Rat.pow_succ, ih, Rat.mul_assoc]

theorem two_mono {j k : Nat} (h : j ≤ k) : (2 : Rat) ^ j ≤ 2 ^ k := by
  obtain ⟨d, rfl⟩ : ∃ d, k = j + d := ⟨k - j, by omega⟩
  have : (1 : Rat) ≤ 2 ^ d := by
    clear h
    induction d with
    | zero => rw [Rat.pow_zero]; exact Rat.le_refl
    | succ d ih => rw [Rat.pow_succ]; grind
  rw [two_add]
  have := Rat.mul_le_mul_of_nonneg_left this (Rat.le_of_lt (two_pos j))
  rwa [Rat.mul_one] at this

theorem Within.pos {e : Nat} {q : Rat} (h : Within e q) : 0 < q := by
  obtain ⟨h, _⟩ := h
  have ht := two_pos e
  generalize (2 : Rat) ^ e = t at *
  have : 0 < q * t := by grind
  exact (Rat.mul_pos_iff_of_pos_right ht).mp this

theorem Within.nonneg {e : Nat} {q : Rat} (h : Within e q) : 0 ≤ q := Rat.le_of_lt h.pos

theorem Within.mul {e f : Nat} {p q : Rat} (h1 : Within e p) (h2 : Within f q) : Within (e + f) (p * q) := by
  have a := h1.nonneg
  have b := h2.nonneg
  have t := Rat.le_of_lt (two_pos e)
  unfold Within
  rw [two_add]
  refine ⟨?_, mulLe h1.2 h2.2 b t⟩
  have := mulLe h1.1 h2.1 (by decide) (Rat.mul_nonneg a t)
  rw [Rat.mul_one] at this
  have e' : p * q * (2 ^ e * 2 ^ f) = p * 2 ^ e * (q * 2 ^ f) := by
    generalize (2 : Rat) ^ e = x
    generalize (2 : Rat) ^ f = y
    grind
  rw [e']; exact this

theorem Within.inv {e : Nat} {q : Rat} (h : Within e q) : Within e q⁻¹ := by
  have hq := h.pos
  obtain ⟨h1, h2⟩ := h
  have e2 : q⁻¹ * q = 1 := Rat.inv_mul_cancel _ (Rat.ne_of_gt hq)
  unfold Within
  generalize (2 : Rat) ^ e = t at *
  constructor
  · apply Rat.le_of_mul_le_mul_right _ hq
    have e3 : q⁻¹ * t * q = t := by grind
    rw [e3, Rat.one_mul]; exact h2
  · apply Rat.le_of_mul_le_mul_right _ hq
    rw [e2, Rat.mul_comm]; exact h1

theorem Within.div {e f : Nat} {p q : Rat} (h1 : Within e p) (h2 : Within f q) : Within (e + f) (p / q) := by
  rw [Rat.div_def]; exact h1.mul h2.inv

theorem Within.mid {e : Nat} {q : Rat} (h : Within e q) (he : e ≤ 900) : Mid q :=
  ⟨Rat.le_trans h.1 (Rat.mul_le_mul_of_nonneg_left (two_mono he) h.nonneg), Rat.le_trans h.2 (two_mono he)⟩

/-! ## Operations -/

/-- `x` is a positive double that is `q` up to `k` roundings. -/
def Rounded (k : Nat) (x : F64) (q : Rat) : Prop := ∃ n, x = .fin false n ∧ Close k (val n) q

theorem val_mul (n : Nat) : val n * (one : Rat) = (n : Rat) := by
  unfold val
  have hO : (0 : Rat) < (one : Rat) := Rat.natCast_pos.mpr Cli.one_pos
  generalize (one : Rat) = O at *
  grind

theorem Rounded.mul {j k e : Nat} {x y : F64} {p q : Rat} (h1 : Rounded j x p) (h2 : Rounded k y q) (hp : 0 ≤ p) (hq : 0 ≤ q)
    (hjk : j + k ≤ 20) (h : Within e (p * q)) (he : e ≤ 900) : Rounded (j + k + 1) (F64.mul x y) (p * q) := by
  obtain ⟨m, rfl, h1⟩ := h1
  obtain ⟨n, rfl, h2⟩ := h2
  refine round_close (a := m * n) (b := one) (r := val m * val n) Cli.one_pos ?_ (h1.mul h2 hp hq) hjk (h.mid he)
  rw [Rat.natCast_mul, ← val_mul m, ← val_mul n]
  generalize (one : Rat) = O at *
  grind

theorem Rounded.div {j k e : Nat} {x y : F64} {p q : Rat} (h1 : Rounded j x p) (h2 : Rounded k y q) (hp : 0 ≤ p) (hq : 0 < q)
    (hjk : j + k ≤ 20) (h : Within e (p / q)) (he : e ≤ 900) : Rounded (j + k + 1) (F64.div x y) (p / q) := by
  obtain ⟨m, rfl, h1⟩ := h1
  obtain ⟨n, rfl, h2⟩ := h2
  have hn : n ≠ 0 := by
    rintro rfl
    have := h2.pos hq
    revert this
    decide +kernel
  have hv : F64.div (.fin false m) (.fin false n) = F64.round false (m * one) n := by
    show (if n = 0 then _ else F64.round (false != false) _ _) = _
    rw [if_neg hn]; rfl
  rw [hv]
  refine round_close (r := val m / val n) (by omega) ?_ (h1.div h2 hp hq) hjk (h.mid he)
  have hN : (0 : Rat) < (n : Rat) := Rat.natCast_pos.mpr (by omega)
  have hO : (0 : Rat) < (one : Rat) := Rat.natCast_pos.mpr Cli.one_pos
  rw [Rat.natCast_mul]
  have e1 := val_mul m
  have e2 := val_mul n
  have e3 := h2.pos hq
  generalize val m = vm at *
  generalize val n = vn at *
  generalize (one : Rat) = O at *
  rw [← e1, ← e2]
  grind

theorem Rounded.add {k e : Nat} {x y : F64} {p q : Rat} (h1 : Rounded k x p) (h2 : Rounded k y q)
    (hk : k ≤ 20) (h : Within e (p + q)) (he : e ≤ 900) : Rounded (k + 1) (F64.add x y) (p + q) := by
  obtain ⟨m, rfl, h1⟩ := h1
  obtain ⟨n, rfl, h2⟩ := h2
  have hr : (val m + val n) * (((1 : Nat) : Rat) * (one : Rat)) = ((m + n : Nat) : Rat) := by
    rw [Rat.natCast_add, ← val_mul m, ← val_mul n]
    have e : ((1 : Nat) : Rat) = 1 := rfl
    rw [e]
    generalize (one : Rat) = O at *
    grind
  have hpos : 0 < m + n := by
    refine Nat.pos_of_ne_zero fun h0 => ?_
    have := (h1.add h2).pos h.pos
    have hm : m = 0 := by omega
    have hn : n = 0 := by omega
    subst hm; subst hn
    revert this
    decide +kernel
  have hv : F64.add (.fin false m) (.fin false n) = F64.round false (m + n) 1 := by
    show (if ((m : Int) + (n : Int) = 0) then _ else F64.round (decide ((m : Int) + (n : Int) < 0)) ((m : Int) + (n : Int)).natAbs 1) = _
    rw [if_neg (by omega), decide_eq_false (by omega), show ((m : Int) + (n : Int)).natAbs = m + n by omega]
  rw [hv]
  exact round_close Nat.one_pos hr (h1.add h2) hk (h.mid he)

theorem Rounded.mono {j k : Nat} {x : F64} {q : Rat} (h : Rounded j x q) (hq : 0 ≤ q) (hjk : j ≤ k) : Rounded k x q := by
  obtain ⟨n, e, h⟩ := h
  exact ⟨n, e, h.mono hq hjk⟩

theorem within_nat {g e : Nat} (h1 : 0 < g) (h2 : g ≤ 2 ^ e) : Within e (g : Rat) := by
  have hg : (1 : Rat) ≤ (g : Rat) := Rat.natCast_le_natCast.mpr h1
  have hg2 : (g : Rat) ≤ ((2 ^ e : Nat) : Rat) := Rat.natCast_le_natCast.mpr h2
  rw [Rat.natCast_pow] at hg2
  refine ⟨?_, hg2⟩
  have he : (1 : Rat) ≤ 2 ^ e := by
    have := two_mono (Nat.zero_le e)
    rwa [Rat.pow_zero] at this
  have := mulLe hg he (by decide) (Rat.natCast_nonneg)
  rwa [Rat.mul_one] at this

theorem ofU64_close (g : U64) : Rounded 1 (ofU64 g) (g.toNat : Rat) := by
  rcases Nat.eq_zero_or_pos g.toNat with h | h
  · have hg : g = 0 := BitVec.eq_of_toNat_eq h
    subst hg
    refine ⟨0, by decide +kernel, ?_⟩
    unfold Close
    decide +kernel
  · refine round_close (r := (g.toNat : Rat)) (k := 0) Nat.one_pos ?_ (Close.refl _) (by decide)
      ((within_nat (e := 64) h (Nat.le_of_lt g.isLt)).mid (by decide))
    rw [Rat.natCast_mul]
    have e : ((1 : Nat) : Rat) = 1 := rfl
    rw [e, Rat.one_mul]

theorem const_exact {g : U64} {c : Nat} (h : ofU64 g = .fin false (c * one)) : Rounded 0 (ofU64 g) (c : Rat) := by
  refine ⟨c * one, h, ?_⟩
  have : val (c * one) = (c : Rat) := by
    unfold val
    rw [Rat.natCast_mul]
    have hO : (0 : Rat) < (one : Rat) := Rat.natCast_pos.mpr Cli.one_pos
    generalize (one : Rat) = O at *
    grind
  rw [this]
  exact Close.refl _

/-- The length of a duration in seconds. -/
def seconds (secs nanos : U64) : Rat := (secs.toNat : Rat) + (nanos.toNat : Rat) / 1000000000

theorem within_seconds {secs nanos : U64} (hn : nanos.toNat < 1000000000) (hpos : 0 < secs.toNat ∨ 0 < nanos.toNat) :
    Within 65 (seconds secs nanos) := by
  unfold seconds
  have a : (0 : Rat) ≤ (secs.toNat : Rat) := Rat.natCast_nonneg
  have b : (0 : Rat) ≤ (nanos.toNat : Rat) := Rat.natCast_nonneg
  have c : (nanos.toNat : Rat) ≤ ((1000000000 : Nat) : Rat) := Rat.natCast_le_natCast.mpr (by omega)
  have c' : ((1000000000 : Nat) : Rat) = 1000000000 := rfl
  have d : (secs.toNat : Rat) ≤ ((2 ^ 64 : Nat) : Rat) := Rat.natCast_le_natCast.mpr (Nat.le_of_lt secs.isLt)
  have d' : ((2 ^ 64 : Nat) : Rat) = 18446744073709551616 := by decide +kernel
  have f : (1 : Rat) ≤ (secs.toNat : Rat) ∨ (1 : Rat) ≤ (nanos.toNat : Rat) :=
    hpos.imp (fun h => Rat.natCast_le_natCast.mpr h) (fun h => Rat.natCast_le_natCast.mpr h)
  have e : (2 : Rat) ^ 65 = 36893488147419103232 := by decide +kernel
  rw [c'] at c
  rw [d'] at d
  unfold Within
  rw [e]
  generalize (secs.toNat : Rat) = S at *
  generalize (nanos.toNat : Rat) = N at *
  constructor
  · rcases f with f | f <;> grind
  · grind

theorem asSecs_close {secs nanos : U64} (hn : nanos.toNat < 1000000000) (hpos : 0 < secs.toNat ∨ 0 < nanos.toNat) :
    Rounded 3 (asSecsF64 secs nanos) (seconds secs nanos) := by
  unfold asSecsF64
  have hw := within_seconds hn hpos
  refine Rounded.add (k := 2) ((ofU64_close secs).mono Rat.natCast_nonneg (by decide)) ?_ (by decide) hw (by decide)
  rcases Nat.eq_zero_or_pos nanos.toNat with h | h
  · have hg : nanos = 0 := BitVec.eq_of_toNat_eq h
    subst hg
    refine ⟨0, by decide +kernel, ?_⟩
    unfold Close
    decide +kernel
  · have hb : Rounded 0 (ofU64 1000000000) ((1000000000 : Nat) : Rat) := const_exact (by decide +kernel)
    exact Rounded.div (j := 1) (k := 0) (ofU64_close nanos) hb Rat.natCast_nonneg (by decide) (by decide)
      ((within_nat (e := 64) h (Nat.le_of_lt nanos.isLt)).div (within_nat (e := 30) (by decide) (by decide))) (by decide)

end Verif.Calibrate
