import Verif.Decode
import Verif.DecodeSpec
/-
# The check of texts accepts exactly UTF-8
-/

namespace Verif

theorem utf8_cons (a : UInt8) (bs : Bytes) : utf8 (a :: bs) =
    if a.toNat < 128 then utf8 bs
    else if 0xC2 ≤ a.toNat ∧ a.toNat ≤ 0xDF then
      match bs with
      | b :: bs => isCont b && utf8 bs
      | _ => false
    else if 0xE0 ≤ a.toNat ∧ a.toNat ≤ 0xEF then
      match bs with
      | b :: c :: bs =>
        (if a.toNat = 0xE0 then decide (0xA0 ≤ b.toNat ∧ b.toNat ≤ 0xBF)
         else if a.toNat = 0xED then decide (0x80 ≤ b.toNat ∧ b.toNat ≤ 0x9F) else isCont b) && isCont c && utf8 bs
      | _ => false
    else if 0xF0 ≤ a.toNat ∧ a.toNat ≤ 0xF4 then
      match bs with
      | b :: c :: d :: bs =>
        (if a.toNat = 0xF0 then decide (0x90 ≤ b.toNat ∧ b.toNat ≤ 0xBF)
         else if a.toNat = 0xF4 then decide (0x80 ≤ b.toNat ∧ b.toNat ≤ 0x8F) else isCont b) && isCont c && isCont d && utf8 bs
      | _ => false
    else false := by
  rcases bs with _ | ⟨b, _ | ⟨c, _ | ⟨d, bs⟩⟩⟩ <;> conv => lhs; unfold utf8

theorem Char.toNat_scalar (c : Char) : c.toNat < 0xD800 ∨ (0xDFFF < c.toNat ∧ c.toNat < 0x110000) := c.valid

theorem isCont_ofNat {x : Nat} (h : x < 64) : isCont (UInt8.ofNat (0x80 + x)) = true := by
  have e : (UInt8.ofNat (0x80 + x)).toNat = 0x80 + x := by rw [UInt8.toNat_ofNat']; omega
  unfold isCont
  rw [e]
  simp only [Bool.and_eq_true, decide_eq_true_eq]
  omega

/-- The encoding of a code point is accepted, and the rest is looked at. -/
theorem utf8_utf8Char (c : Char) (bs : Bytes) : utf8 (utf8Char c.toNat ++ bs) = utf8 bs := by
  have hc := Char.toNat_scalar c
  revert hc
  generalize c.toNat = n
  intro hc
  unfold utf8Char
  have e : ∀ x, x < 256 → (UInt8.ofNat x).toNat = x := fun x hx => by rw [UInt8.toNat_ofNat']; omega
  by_cases h1 : n < 0x80
  · rw [if_pos h1]
    simp only [List.cons_append, List.nil_append]
    rw [utf8_cons, e n (by omega), if_pos (by omega)]
  rw [if_neg h1]
  by_cases h2 : n < 0x800
  · rw [if_pos h2]
    simp only [List.cons_append, List.nil_append]
    rw [utf8_cons, e (0xC0 + n / 64) (by omega), if_neg (by omega), if_pos (by omega)]
    simp only [isCont_ofNat (show n % 64 < 64 by omega), Bool.true_and]
  rw [if_neg h2]
  by_cases h3 : n < 0x10000
  · rw [if_pos h3]
    simp only [List.cons_append, List.nil_append]
    rw [utf8_cons, e (0xE0 + n / 4096) (by omega), if_neg (by omega), if_neg (by omega), if_pos (by omega)]
    simp only [isCont_ofNat (show n % 64 < 64 by omega), isCont_ofNat (show n / 64 % 64 < 64 by omega), Bool.and_true]
    rw [e (0x80 + n / 64 % 64) (by omega)]
    split
    · rw [decide_eq_true (by omega), Bool.true_and]
    · split
      · rw [decide_eq_true (by omega), Bool.true_and]
      · rw [Bool.true_and]
  · rw [if_neg h3]
    simp only [List.cons_append, List.nil_append]
    rw [utf8_cons, e (0xF0 + n / 262144) (by omega), if_neg (by omega), if_neg (by omega), if_neg (by omega),
      if_pos (by omega)]
    simp only [isCont_ofNat (show n % 64 < 64 by omega), isCont_ofNat (show n / 64 % 64 < 64 by omega),
      isCont_ofNat (show n / 4096 % 64 < 64 by omega), Bool.and_true]
    rw [e (0x80 + n / 4096 % 64) (by omega)]
    split
    · rw [decide_eq_true (by omega), Bool.true_and]
    · split
      · rw [decide_eq_true (by omega), Bool.true_and]
      · rw [Bool.true_and]

theorem exists_char {n : Nat} (h : n < 0xD800 ∨ (0xDFFF < n ∧ n < 0x110000)) : ∃ c : Char, c.toNat = n := by
  refine ⟨Char.ofNat n, ?_⟩
  have : n.isValidChar := h
  unfold Char.ofNat
  rw [dif_pos this]
  rfl

theorem uint8_eq_ofNat {a : UInt8} {n : Nat} (h : a.toNat = n) : a = UInt8.ofNat n := by
  rw [← h]
  simp

theorem isCont_iff {b : UInt8} : isCont b = true ↔ 0x80 ≤ b.toNat ∧ b.toNat ≤ 0xBF := by
  unfold isCont
  simp only [Bool.and_eq_true, decide_eq_true_eq]

/-- What is accepted is the encoding of a code point followed by something that is accepted. -/
theorem utf8_split (a : UInt8) (bs : Bytes) (h : utf8 (a :: bs) = true) :
    ∃ (c : Char) (r : Bytes), a :: bs = utf8Char c.toNat ++ r ∧ utf8 r = true ∧ r.length ≤ bs.length := by
  have ha : a.toNat < 256 := a.toNat_lt
  rw [utf8_cons] at h
  by_cases h1 : a.toNat < 128
  · rw [if_pos h1] at h
    obtain ⟨c, hc⟩ := exists_char (n := a.toNat) (by omega)
    refine ⟨c, bs, ?_, h, Nat.le_refl _⟩
    rw [hc, utf8Char, if_pos (by omega), ← uint8_eq_ofNat rfl]
    rfl
  rw [if_neg h1] at h
  by_cases h2 : 0xC2 ≤ a.toNat ∧ a.toNat ≤ 0xDF
  · rw [if_pos h2] at h
    rcases bs with _ | ⟨b, bs⟩
    · cases h
    simp only [Bool.and_eq_true, isCont_iff] at h
    obtain ⟨hb, h⟩ := h
    obtain ⟨c, hc⟩ := exists_char (n := (a.toNat - 0xC0) * 64 + (b.toNat - 0x80)) (by omega)
    refine ⟨c, bs, ?_, h, by simp only [List.length_cons]; omega⟩
    rw [hc, utf8Char, if_neg (by omega), if_pos (by omega), ← uint8_eq_ofNat (a := a) (by omega),
      ← uint8_eq_ofNat (a := b) (by omega)]
    rfl
  rw [if_neg h2] at h
  by_cases h3 : 0xE0 ≤ a.toNat ∧ a.toNat ≤ 0xEF
  · rw [if_pos h3] at h
    rcases bs with _ | ⟨b, _ | ⟨d, bs⟩⟩
    · cases h
    · cases h
    simp only [Bool.and_eq_true, isCont_iff] at h
    obtain ⟨⟨hb, hd⟩, h⟩ := h
    have hb : 0x80 ≤ b.toNat ∧ b.toNat ≤ 0xBF ∧ (a.toNat = 0xE0 → 0xA0 ≤ b.toNat) ∧
        (a.toNat = 0xED → b.toNat ≤ 0x9F) := by
      split at hb
      · simp only [decide_eq_true_eq] at hb; omega
      · split at hb
        · simp only [decide_eq_true_eq] at hb; omega
        · rw [isCont_iff] at hb; omega
    obtain ⟨c, hc⟩ := exists_char (n := (a.toNat - 0xE0) * 4096 + (b.toNat - 0x80) * 64 + (d.toNat - 0x80)) (by omega)
    refine ⟨c, bs, ?_, h, by simp only [List.length_cons]; omega⟩
    rw [hc, utf8Char, if_neg (by omega), if_neg (by omega), if_pos (by omega), ← uint8_eq_ofNat (a := a) (by omega),
      ← uint8_eq_ofNat (a := b) (by omega), ← uint8_eq_ofNat (a := d) (by omega)]
    rfl
  rw [if_neg h3] at h
  by_cases h4 : 0xF0 ≤ a.toNat ∧ a.toNat ≤ 0xF4
  · rw [if_pos h4] at h
    rcases bs with _ | ⟨b, _ | ⟨d, _ | ⟨f, bs⟩⟩⟩
    · cases h
    · cases h
    · cases h
    simp only [Bool.and_eq_true, isCont_iff] at h
    obtain ⟨⟨⟨hb, hd⟩, hf⟩, h⟩ := h
    have hb : 0x80 ≤ b.toNat ∧ b.toNat ≤ 0xBF ∧ (a.toNat = 0xF0 → 0x90 ≤ b.toNat) ∧
        (a.toNat = 0xF4 → b.toNat ≤ 0x8F) := by
      split at hb
      · simp only [decide_eq_true_eq] at hb; omega
      · split at hb
        · simp only [decide_eq_true_eq] at hb; omega
        · rw [isCont_iff] at hb; omega
    obtain ⟨c, hc⟩ := exists_char (n := (a.toNat - 0xF0) * 262144 + (b.toNat - 0x80) * 4096 + (d.toNat - 0x80) * 64 +
      (f.toNat - 0x80)) (by omega)
    refine ⟨c, bs, ?_, h, by simp only [List.length_cons]; omega⟩
    rw [hc, utf8Char, if_neg (by omega), if_neg (by omega), if_neg (by omega), ← uint8_eq_ofNat (a := a) (by omega),
      ← uint8_eq_ofNat (a := b) (by omega), ← uint8_eq_ofNat (a := d) (by omega), ← uint8_eq_ofNat (a := f) (by omega)]
    rfl
  rw [if_neg h4] at h
  cases h

theorem utf8_iff (bs : Bytes) : utf8 bs = true ↔ IsText bs := by
  constructor
  · intro h
    induction hn : bs.length using Nat.strongRecOn generalizing bs with
    | ind n ih =>
      cases bs with
      | nil => exact ⟨[], rfl⟩
      | cons a bs =>
        obtain ⟨c, r, e, hr, hl⟩ := utf8_split a bs h
        simp only [List.length_cons] at hn
        obtain ⟨l, hl⟩ := ih r.length (by omega) r hr rfl
        exact ⟨c :: l, by rw [e, hl, List.flatMap_cons]⟩
  · rintro ⟨l, rfl⟩
    induction l with
    | nil => rw [List.flatMap_nil, utf8]
    | cons c l ih => rw [List.flatMap_cons, utf8_utf8Char]; exact ih

end Verif
