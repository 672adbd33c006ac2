import Verif.NumeralProofs
import Verif.PropsPricing
/-
# C85: reading the price of $PROVE

The specification of numerals is in `Numeral`.
-/

namespace Verif
open Pricing F64

/-- The price in micro-dollars that comes out of reading a positive `a / b` times 2^-1074, before the range is checked. -/
def micros (a b : Nat) : Nat := (2 * nearest (nearest a b * 1000000) 1 + one) / (2 * one)

theorem one_pos : 0 < one := by unfold one; exact Nat.two_pow_pos _

theorem lt_fin (m n : Nat) : lt (.fin false m) (.fin false n) = decide (m < n) := by
  simp [lt, signed]

theorem le_fin (m n : Nat) : le (.fin false m) (.fin false n) = decide (m ≤ n) := by
  simp [le, signed]

theorem micros_mono {a b a' b' : Nat} (hb : 0 < b) (hb' : 0 < b') (h : a * b' ≤ a' * b) : micros a b ≤ micros a' b' := by
  unfold micros
  have h1 := nearest_mono hb hb' h
  have h2 := nearest_mono (a := nearest a b * 1000000) (b := 1) (a' := nearest a' b' * 1000000) (b' := 1) Nat.one_pos Nat.one_pos (by omega)
  exact Nat.div_le_div_right (by omega)

theorem u64Max_eq : u64Max = .fin false (2 ^ 64 * one) := by decide +kernel

/-- Rounding leaves numbers of 2^1024 and more at least there. -/
theorem nearest_huge {n : Nat} (h : 2 ^ 1024 * one ≤ n) : 2 ^ 1024 * one ≤ nearest n 1 := by
  have h1 : nearest (2 ^ 1024 * one) 1 = 2 ^ 1024 * one := by decide +kernel
  rw [← h1]
  exact nearest_mono Nat.one_pos Nat.one_pos (by rw [Nat.mul_one, Nat.mul_one]; exact h)

theorem micros_huge {n : Nat} (h : 2 ^ 1024 * one ≤ n) : ¬ (2 * n + one) / (2 * one) < 2 ^ 64 := by
  intro hlt
  rw [Nat.div_lt_iff_lt_mul (by have := one_pos; omega)] at hlt
  have h2 : 2 ^ 64 * (2 * one) ≤ 2 ^ 1024 * one := by
    rw [show 2 ^ 64 * (2 * one) = 2 ^ 65 * one by omega]
    exact Nat.mul_le_mul_right _ (by decide +kernel)
  omega

/-- All of `parse_usd_micros` after the text has been read. -/
theorem parse_of_read {s : List Char} {neg : Bool} {a b : Nat}
    (h : fromStr (trim s) = some (F64.round neg a b)) :
    parseUsdMicros s = if neg = false ∧ 1 ≤ micros a b ∧ micros a b < 2 ^ 64 then .ok (BitVec.ofNat 64 (micros a b))
      else .error .priceConversion := by
  unfold parseUsdMicros
  rw [h]
  dsimp only
  unfold F64.round
  by_cases hn : nearest a b < 2 ^ 1024 * one
  · rw [if_pos hn]
    cases neg with
    | true =>
      rw [if_pos, if_neg (by simp)]
      simp [isFinite, le, zero, signed]
    | false =>
      by_cases h0 : nearest a b = 0
      · rw [h0, if_pos (by simp [isFinite, le, zero, signed]), if_neg]
        unfold micros
        rw [h0]
        rintro ⟨_, hm, _⟩
        have : nearest (0 * 1000000) 1 = 0 := by decide
        rw [this, Nat.le_div_iff_mul_le (by have := one_pos; omega)] at hm
        have := one_pos
        omega
      · rw [if_neg (by simp [isFinite, le, zero, signed]; omega)]
        have hm : mul (.fin false (nearest a b)) million = F64.round false (nearest a b * 1000000) 1 := by
          show F64.round _ (nearest a b * (1000000 * one)) one = _
          apply round_congr _ one_pos Nat.one_pos
          rw [Nat.mul_one, Nat.mul_assoc]
        rw [hm]
        unfold F64.round
        by_cases hn2 : nearest (nearest a b * 1000000) 1 < 2 ^ 1024 * one
        · rw [if_pos hn2]
          show (if lt (.fin false (micros a b * one)) unit = true then _ else if le u64Max (.fin false (micros a b * one)) = true then _ else _) = _
          rw [u64Max_eq]
          by_cases h1 : 1 ≤ micros a b
          · have h2 : one ≤ micros a b * one := by
              have := Nat.mul_le_mul_right one h1; omega
            rw [if_neg (by rw [unit, lt_fin, decide_eq_true_eq]; omega)]
            by_cases h3 : micros a b < 2 ^ 64
            · have h4 : micros a b * one < 2 ^ 64 * one := Nat.mul_lt_mul_of_pos_right h3 one_pos
              rw [if_neg (by rw [le_fin, decide_eq_true_eq]; omega), if_pos ⟨rfl, h1, h3⟩]
              show Except.ok (BitVec.ofNat 64 (min (micros a b * one / one) (2 ^ 64 - 1))) = _
              rw [Nat.mul_div_cancel _ one_pos, Nat.min_eq_left (by omega)]
            · have h4 : 2 ^ 64 * one ≤ micros a b * one := Nat.mul_le_mul_right _ (by omega)
              rw [if_pos (by rw [le_fin, decide_eq_true_eq]; exact h4), if_neg (fun h => h3 h.2.2)]
          · have h2 : micros a b = 0 := by omega
            have := one_pos
            rw [if_pos (by rw [unit, lt_fin, decide_eq_true_eq, h2]; omega), if_neg (fun h => h1 h.2.1)]
        · rw [if_neg hn2, u64Max_eq]
          show (if lt (.inf false) unit = true then _ else if le (.fin false (2 ^ 64 * one)) (.inf false) = true then _ else _) = _
          rw [if_neg (by simp [lt, unit]), if_pos (by simp [le]), if_neg]
          rintro ⟨_, _, h3⟩
          exact micros_huge (Nat.le_of_not_lt hn2) h3
  · rw [if_neg hn, if_pos (by simp [isFinite]), if_neg]
    rintro ⟨_, _, h3⟩
    refine micros_huge (nearest_huge ?_) h3
    omega

/-! ## How exact the result is -/

/-- The numbers that are too small for full precision are far below a micro-dollar. -/
theorem micros_tiny {a b : Nat} (hb : 0 < b) (h : a < 2 ^ 52 * b) : micros a b = 0 := by
  have h1 : micros a b ≤ micros (2 ^ 52) 1 := micros_mono hb Nat.one_pos (by omega)
  have h2 : micros (2 ^ 52) 1 = 0 := by decide +kernel
  omega

/-- Bounds on the result for the value `num / den`, with both roundings. -/
theorem micros_bounds {num den : Nat} (hd : 0 < den) (hn : 2 ^ 52 * den ≤ num * one) :
    2 ^ 107 * (den * micros (num * one) den) ≤ 2 * (2 ^ 53 + 1) ^ 2 * (1000000 * num) + 2 ^ 106 * den ∧
    2 * (2 ^ 53 - 1) ^ 2 * (1000000 * num) + 2 ^ 106 * den <
      2 ^ 107 * (den * micros (num * one) den) + 2 ^ 107 * den := by
  obtain ⟨h1, h2⟩ := nearest_normal (num * one) den hd hn
  have h3 : 2 ^ 52 ≤ nearest (num * one) den := by
    have := nearest_mono (a := den * 2 ^ 52) (b := den) (a' := num * one) (b' := den) hd hd
      (Nat.mul_le_mul_right _ (by omega))
    rwa [nearest_small (2 ^ 52) den hd (by decide)] at this
  obtain ⟨h4, h5⟩ := nearest_normal (nearest (num * one) den * 1000000) 1 Nat.one_pos (by omega)
  have h6 := Nat.div_add_mod (2 * nearest (nearest (num * one) den * 1000000) 1 + one) (2 * one)
  have h7 := Nat.mod_lt (2 * nearest (nearest (num * one) den * 1000000) 1 + one) (show 0 < 2 * one by have := one_pos; omega)
  change 2 * one * micros (num * one) den + _ = _ at h6
  generalize (2 * nearest (nearest (num * one) den * 1000000) 1 + one) % (2 * one) = r at *
  generalize micros (num * one) den = k at *
  generalize hn2 : nearest (nearest (num * one) den * 1000000) 1 = n2 at *
  generalize nearest (num * one) den = n1 at *
  have hpos := one_pos
  have g6 := congrArg (den * ·) h6
  have g7 := Nat.mul_lt_mul_of_pos_left h7 hd
  have g4 := Nat.mul_le_mul_left den h4
  have g5 := Nat.mul_le_mul_left den h5
  simp only [Nat.mul_add, Nat.one_mul] at g4 g5 g6 g7
  generalize one = o at *
  have e1 : den * (2 * o * k) = 2 * (o * (den * k)) := by grind
  have e2 : den * (2 * n2) = 2 * (den * n2) := by grind
  have e3 : den * (2 * o) = 2 * (o * den) := by grind
  have e4 : den * o = o * den := by grind
  have e5 : den * (2 ^ 53 * n2) = 2 ^ 53 * (den * n2) := by grind
  have e6 : den * (2 ^ 53 * (n1 * 1000000)) = 2 ^ 53 * (1000000 * (den * n1)) := by grind
  have e7 : den * (n1 * 1000000) = 1000000 * (den * n1) := by grind
  have e8 : num * o = o * num := by grind
  rw [e1, e2, e4] at g6
  rw [e3] at g7
  rw [e5, e6, e7] at g4
  rw [e5, e6, e7] at g5
  rw [e8] at h1 h2
  constructor
  · apply Nat.le_of_mul_le_mul_left _ hpos
    have f1 : o * (2 ^ 107 * (den * k)) = 2 ^ 107 * (o * (den * k)) := by grind
    have f2 : o * (2 * (2 ^ 53 + 1) ^ 2 * (1000000 * num) + 2 ^ 106 * den) =
      2 * (2 ^ 53 + 1) ^ 2 * (1000000 * (o * num)) + 2 ^ 106 * (o * den) := by grind
    rw [f1, f2]
    omega
  · apply Nat.lt_of_mul_lt_mul_left (a := o)
    have f1 : o * (2 ^ 107 * (den * k) + 2 ^ 107 * den) = 2 ^ 107 * (o * (den * k)) + 2 ^ 107 * (o * den) := by grind
    have f2 : o * (2 * (2 ^ 53 - 1) ^ 2 * (1000000 * num) + 2 ^ 106 * den) =
      2 * (2 ^ 53 - 1) ^ 2 * (1000000 * (o * num)) + 2 ^ 106 * (o * den) := by grind
    rw [f1, f2]
    omega

/-- Whole numbers of micro-dollars up to 2^51 come out exactly. -/
theorem micros_exact {num den n : Nat} (hd : 0 < den) (h : 1000000 * num = n * den) (h1 : 1 ≤ n) (h2 : n < 2 ^ 51) :
    micros (num * one) den = n := by
  have hn : 2 ^ 52 * den ≤ num * one := by
    have a : den ≤ 1000000 * num := by rw [h]; exact Nat.le_mul_of_pos_left den h1
    have b : 2 ^ 52 * 1000000 ≤ one := by decide +kernel
    have c : num * (2 ^ 52 * 1000000) ≤ num * one := Nat.mul_le_mul_left _ b
    omega
  obtain ⟨u, l⟩ := micros_bounds hd hn
  rw [h] at u l
  generalize micros (num * one) den = k at *
  have u' : den * (2 ^ 107 * k) ≤ den * (2 * (2 ^ 53 + 1) ^ 2 * n + 2 ^ 106) := by
    have e1 : den * (2 ^ 107 * k) = 2 ^ 107 * (den * k) := by grind
    have e2 : den * (2 * (2 ^ 53 + 1) ^ 2 * n + 2 ^ 106) = 2 * (2 ^ 53 + 1) ^ 2 * (n * den) + 2 ^ 106 * den := by grind
    omega
  have l' : den * (2 * (2 ^ 53 - 1) ^ 2 * n + 2 ^ 106) < den * (2 ^ 107 * k + 2 ^ 107) := by
    have e1 : den * (2 ^ 107 * k + 2 ^ 107) = 2 ^ 107 * (den * k) + 2 ^ 107 * den := by grind
    have e2 : den * (2 * (2 ^ 53 - 1) ^ 2 * n + 2 ^ 106) = 2 * (2 ^ 53 - 1) ^ 2 * (n * den) + 2 ^ 106 * den := by grind
    omega
  have u'' := Nat.le_of_mul_le_mul_left u' hd
  have l'' := Nat.lt_of_mul_lt_mul_left l'
  omega

theorem parse_written {s : List Char} {l : Numeral} (hl : l.Valid) (h : Written s l) :
    parseUsdMicros s = if (l.sign == some true) = false ∧ 1 ≤ micros (l.num * one) l.den ∧ micros (l.num * one) l.den < 2 ^ 64
      then .ok (BitVec.ofNat 64 (micros (l.num * one) l.den)) else .error .priceConversion :=
  parse_of_read (by rw [trim_written hl h]; exact fromStr_text hl)

/-- Whatever is accepted is a numeral without a minus sign. -/
theorem parse_ok {s : List Char} {m : U64} (h : parseUsdMicros s = .ok m) :
    ∃ l : Numeral, l.Valid ∧ Written s l ∧ l.sign ≠ some true ∧ m.toNat = micros (l.num * one) l.den ∧
      1 ≤ m.toNat := by
  have h0 := h
  unfold parseUsdMicros at h
  cases hf : fromStr (trim s) with
  | none => rw [hf] at h; exact nomatch h
  | some x =>
    rw [hf] at h
    dsimp only at h
    split at h
    · exact nomatch h
    · rename_i hx
      have hfin : x.isFinite = true := by
        cases hi : x.isFinite
        · rw [hi] at hx; exact absurd rfl hx
        · rfl
      obtain ⟨l, hl, ht⟩ := fromStr_some hf hfin
      obtain ⟨w, w', e, h1, h2⟩ := trim_split s
      have hw : Written s l := ⟨w, w', by rw [← ht]; exact e, h1, h2⟩
      have hp := parse_written hl hw
      rw [h0] at hp
      split at hp
      · rename_i hc
        have hm := Except.ok.inj hp
        have : m.toNat = micros (l.num * one) l.den := by
          rw [hm, BitVec.toNat_ofNat]; exact Nat.mod_eq_of_lt hc.2.2
        refine ⟨l, hl, hw, ?_, this, by rw [this]; exact hc.2.1⟩
        intro e
        rw [e] at hc
        exact absurd hc.1 (by decide)
      · exact nomatch hp

/-! ## C85 -/

/-- **C85, exact on whole micro-dollars.** A price that is a whole number `n` of micro-dollars below 2^51 (2.25 billion
dollars), however it is written, is read as `n`. -/
theorem c85_exact {s : List Char} {l : Numeral} {n : Nat} (hl : l.Valid) (hs : l.sign ≠ some true) (h : Written s l)
    (hn : 1000000 * l.num = n * l.den) (h1 : 1 ≤ n) (h2 : n < 2 ^ 51) :
    parseUsdMicros s = .ok (BitVec.ofNat 64 n) := by
  have he := micros_exact l.den_pos hn h1 h2
  rw [parse_written hl h, he, if_pos ⟨by simpa using hs, h1, by omega⟩]

/-- **C85, always close.** Whatever is accepted is a decimal numeral without a minus sign; the result is positive, and
off by at most half a micro-dollar and one part in 2^51. -/
theorem c85_close {s : List Char} {m : U64} (h : parseUsdMicros s = .ok m) :
    1 ≤ m.toNat ∧ ∃ l : Numeral, l.Valid ∧ Written s l ∧ l.sign ≠ some true ∧
      2 ^ 52 * (m.toNat * l.den) ≤ 2 ^ 52 * (1000000 * l.num) + (2 ^ 51 * l.den + 2 * (1000000 * l.num)) ∧
      2 ^ 52 * (1000000 * l.num) ≤ 2 ^ 52 * (m.toNat * l.den) + (2 ^ 51 * l.den + 2 * (1000000 * l.num)) := by
  obtain ⟨l, hl, hw, hs, hm, h1⟩ := parse_ok h
  refine ⟨h1, l, hl, hw, hs, ?_⟩
  have hn : 2 ^ 52 * l.den ≤ l.num * one := by
    refine Nat.le_of_not_lt fun hlt => ?_
    have := micros_tiny l.den_pos hlt
    omega
  obtain ⟨u, lo⟩ := micros_bounds l.den_pos hn
  rw [← hm, Nat.mul_comm l.den] at u lo
  generalize m.toNat * l.den = x at *
  omega

/-- **C85, what is accepted.** Every price between one micro-dollar and 2^63 micro-dollars is accepted; a text that is
no decimal numeral, a negative one, zero, anything below 0.4 micro-dollars or from 2^65 micro-dollars on is refused. -/
theorem c85_accepts {s : List Char} {l : Numeral} (hl : l.Valid) (h : Written s l) :
    (l.sign ≠ some true → l.den ≤ 1000000 * l.num → 1000000 * l.num ≤ 2 ^ 63 * l.den → ∃ m, parseUsdMicros s = .ok m) ∧
    (l.sign = some true ∨ 5 * (1000000 * l.num) ≤ 2 * l.den ∨ 2 ^ 65 * l.den ≤ 1000000 * l.num →
      parseUsdMicros s = .error .priceConversion) := by
  have hd := l.den_pos
  constructor
  · intro h0 h1 h2
    rw [parse_written hl h]
    have a : 1 ≤ micros (l.num * one) l.den := by
      have e := micros_exact (num := 1) (den := 1000000) (n := 1) (by decide) (by decide) (by decide) (by decide)
      have := micros_mono (a := 1 * one) (b := 1000000) (a' := l.num * one) (b' := l.den) (by decide) hd (by
        have := Nat.mul_le_mul_left one h1
        have e1 : one * (1000000 * l.num) = l.num * one * 1000000 := by grind
        rw [Nat.one_mul]; omega)
      omega
    have b : micros (l.num * one) l.den < 2 ^ 64 := by
      have hn : 2 ^ 52 * l.den ≤ l.num * one := by
        refine Nat.le_of_not_lt fun hlt => ?_
        have := micros_tiny l.den_pos hlt
        omega
      obtain ⟨u, _⟩ := micros_bounds hd hn
      refine Nat.lt_of_not_le fun hge => ?_
      have := Nat.mul_le_mul_left l.den hge
      omega
    exact ⟨_, if_pos ⟨by simpa using h0, a, b⟩⟩
  · intro h0
    rw [parse_written hl h, if_neg]
    rintro ⟨c1, c2, c3⟩
    have hn : 2 ^ 52 * l.den ≤ l.num * one := by
      refine Nat.le_of_not_lt fun hlt => ?_
      have := micros_tiny l.den_pos hlt
      omega
    obtain ⟨u, lo⟩ := micros_bounds hd hn
    have d1 := Nat.mul_le_mul_left l.den c2
    have d2 := Nat.mul_lt_mul_of_pos_left c3 hd
    rcases h0 with h0 | h0 | h0
    · rw [h0] at c1; exact absurd c1 (by decide)
    · omega
    · omega

/-- **C85, other texts.** A text that is no decimal numeral, such as `inf` or `nan`, is refused. -/
theorem c85_refuses {s : List Char} (h : ∀ l : Numeral, l.Valid → ¬ Written s l) :
    parseUsdMicros s = .error .priceConversion := by
  have : ∀ e, parseUsdMicros s = .error e → e = .priceConversion := by
    intro e he
    unfold parseUsdMicros at he
    split at he
    · exact (Except.error.inj he).symm
    · dsimp only at he
      split at he
      · exact (Except.error.inj he).symm
      · split at he
        · exact (Except.error.inj he).symm
        · split at he
          · exact (Except.error.inj he).symm
          · exact nomatch he
  cases hp : parseUsdMicros s with
  | error e => rw [this e hp]
  | ok m =>
    obtain ⟨l, hl, hw, _⟩ := parse_ok hp
    exact absurd hw (h l hl)

/-- **C85, monotone.** A higher price is never read as a lower one. -/
theorem c85_monotone {s s' : List Char} {l l' : Numeral} {m m' : U64} (hl : l.Valid) (hl' : l'.Valid) (hw : Written s l)
    (hw' : Written s' l') (h : parseUsdMicros s = .ok m) (h' : parseUsdMicros s' = .ok m')
    (hle : l.num * l'.den ≤ l'.num * l.den) : m.toNat ≤ m'.toNat := by
  rw [parse_written hl hw] at h
  rw [parse_written hl' hw'] at h'
  split at h
  · rename_i c
    split at h'
    · rename_i c'
      rw [← Except.ok.inj h, ← Except.ok.inj h', BitVec.toNat_ofNat, BitVec.toNat_ofNat, Nat.mod_eq_of_lt c.2.2,
        Nat.mod_eq_of_lt c'.2.2]
      apply micros_mono l.den_pos l'.den_pos
      have := Nat.mul_le_mul_left one hle
      have e1 : one * (l.num * l'.den) = l.num * one * l'.den := by grind
      have e2 : one * (l'.num * l.den) = l'.num * one * l.den := by grind
      omega
    · exact nomatch h'
  · exact nomatch h

/-- **C85, readings.** A reading is accepted exactly if its price is and its time lies in the years -9999 to 9999; it
carries both, and every conversion with it succeeds. -/
theorem c85_reading (s : List Char) (t : Int) :
    (∀ r, ProvePrice.parse s t = .ok r ↔ parseUsdMicros s = .ok r.usdMicros ∧ r.asOf = t ∧
      -377705116800 ≤ t ∧ t ≤ 253402300799) ∧
    ∀ r, ProvePrice.parse s t = .ok r → ∀ target, ∃ ceiling, computeMaxPricePerPguWei target r.usdMicros = .ok ceiling := by
  have key : ∀ r, ProvePrice.parse s t = .ok r ↔ parseUsdMicros s = .ok r.usdMicros ∧ r.asOf = t ∧
      -377705116800 ≤ t ∧ t ≤ 253402300799 := by
    intro r
    unfold ProvePrice.parse
    cases hp : parseUsdMicros s with
    | error e => exact ⟨fun h => (nomatch h), fun h => (nomatch h.1)⟩
    | ok m =>
      dsimp only
      split
      · rename_i hc
        constructor
        · intro h
          rw [← Except.ok.inj h]
          exact ⟨rfl, rfl, hc⟩
        · rintro ⟨h1, h2, _⟩
          obtain ⟨a, b⟩ := r
          dsimp only at h1 h2
          rw [Except.ok.inj h1, h2]
      · rename_i hc
        exact ⟨fun h => (nomatch h), fun h => absurd h.2.2 hc⟩
  refine ⟨key, fun r hr target => ?_⟩
  have h := ((key r).mp hr).1
  obtain ⟨_, _, _, _, _, h1⟩ := parse_ok h
  obtain ⟨c, hc, _⟩ := c46_ceiling target r.usdMicros (by
    intro e
    rw [e] at h1
    exact absurd h1 (by decide))
  exact ⟨c, hc⟩

/-- The comment "rounded to nearest µUSD" is not exactly true: 1.49999999999999999999 micro-dollars are read as 2. -/
theorem c85_nearest_false : ∃ (s : List Char) (l : Numeral) (m : U64), l.Valid ∧ Written s l ∧ parseUsdMicros s = .ok m ∧
    ¬ (2 * (m.toNat * l.den) ≤ 2 * (1000000 * l.num) + l.den) := by
  refine ⟨"0.00000149999999999999999999".toList, ⟨none, ['0'], some "00000149999999999999999999".toList, none⟩, 2,
    ⟨?_, ?_, Or.inl (by decide), fun _ h => nomatch h⟩, ⟨[], [], by decide, fun _ h => (nomatch h), fun _ h => (nomatch h)⟩, ?_, by decide +kernel⟩
  · unfold Digits; decide
  · intro f hf
    rw [← Option.some.inj hf]
    unfold Digits; decide
  · have h : (parseUsdMicros "0.00000149999999999999999999".toList).toOption = some 2 := by decide +kernel
    cases hp : parseUsdMicros "0.00000149999999999999999999".toList with
    | error e => rw [hp] at h; exact nomatch h
    | ok m => rw [hp] at h; rw [Option.some.inj h]

/-- Witnesses: texts, and the numerals they are. -/
example : (parseUsdMicros "0.40".toList).toOption = some 400000 ∧ (parseUsdMicros " +4e-1\n".toList).toOption = some 400000 ∧
    (parseUsdMicros "1e-6".toList).toOption = some 1 ∧ (parseUsdMicros "inf".toList).toOption = none ∧
    (parseUsdMicros "-1".toList).toOption = none ∧ (parseUsdMicros "0x1".toList).toOption = none := by decide +kernel

example : Numeral.text ⟨some false, ['4'], none, some (false, some true, ['1'])⟩ = "+4e-1".toList ∧
    Numeral.num ⟨some false, ['4'], none, some (false, some true, ['1'])⟩ = 4 ∧
    Numeral.den ⟨some false, ['4'], none, some (false, some true, ['1'])⟩ = 10 ∧
    Written " +4e-1\n".toList ⟨some false, ['4'], none, some (false, some true, ['1'])⟩ :=
  ⟨by decide, by decide, by decide, [' '], ['\n'], by decide, by decide, by decide⟩

end Verif
