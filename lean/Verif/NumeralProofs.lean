import Verif.F64Proofs
import Verif.Numeral
/-
# Numerals are read correctly
-/

namespace Verif

/-! ## Reading numerals -/

open F64

theorem isDigit_iff (c : Char) : isDigit c = true ↔ c ∈ ['0', '1', '2', '3', '4', '5', '6', '7', '8', '9'] := by
  unfold isDigit
  simp only [decide_eq_true_eq, List.mem_cons, List.not_mem_nil, or_false]
  constructor
  · rintro ⟨h1, h2⟩
    have e : c.toNat = 48 ∨ c.toNat = 49 ∨ c.toNat = 50 ∨ c.toNat = 51 ∨ c.toNat = 52 ∨ c.toNat = 53 ∨ c.toNat = 54 ∨
        c.toNat = 55 ∨ c.toNat = 56 ∨ c.toNat = 57 := by
      have a : '0'.toNat = 48 := rfl
      have b : '9'.toNat = 57 := rfl
      omega
    have inj : ∀ d : Char, c.toNat = d.toNat → c = d := fun d h => Char.ext (UInt32.toNat_inj.mp h)
    rcases e with e | e | e | e | e | e | e | e | e | e
    · exact Or.inl (inj '0' e)
    · exact Or.inr (Or.inl (inj '1' e))
    · exact Or.inr (Or.inr (Or.inl (inj '2' e)))
    · exact Or.inr (Or.inr (Or.inr (Or.inl (inj '3' e))))
    · exact Or.inr (Or.inr (Or.inr (Or.inr (Or.inl (inj '4' e)))))
    · exact Or.inr (Or.inr (Or.inr (Or.inr (Or.inr (Or.inl (inj '5' e))))))
    · exact Or.inr (Or.inr (Or.inr (Or.inr (Or.inr (Or.inr (Or.inl (inj '6' e)))))))
    · exact Or.inr (Or.inr (Or.inr (Or.inr (Or.inr (Or.inr (Or.inr (Or.inl (inj '7' e))))))))
    · exact Or.inr (Or.inr (Or.inr (Or.inr (Or.inr (Or.inr (Or.inr (Or.inr (Or.inl (inj '8' e)))))))))
    · exact Or.inr (Or.inr (Or.inr (Or.inr (Or.inr (Or.inr (Or.inr (Or.inr (Or.inr (inj '9' e)))))))))
  · rintro (rfl | rfl | rfl | rfl | rfl | rfl | rfl | rfl | rfl | rfl) <;> decide

theorem Digits.all {ds : List Char} (h : Digits ds) : ∀ c ∈ ds, isDigit c = true := fun c hc => (isDigit_iff c).mpr (h c hc)

theorem digits_positional (ds : List Char) : digits ds = positional ds := by
  have key : ∀ (ds : List Char) (n : Nat),
      ds.foldl (fun n c => n * 10 + (c.toNat - '0'.toNat)) n = n * 10 ^ ds.length + positional ds := by
    intro ds
    induction ds with
    | nil => intro n; simp [positional]
    | cons c cs ih =>
      intro n
      rw [List.foldl_cons, ih, positional, List.length_cons, Nat.pow_succ, Nat.add_mul]
      rw [Nat.mul_assoc n 10, Nat.mul_comm 10]
      omega
  unfold digits
  rw [key]; omega

/-- Nothing, or something that does not begin with a digit. -/
def Stop (s : List Char) : Prop := ∀ c t, s = c :: t → isDigit c = false

theorem takeWhile_stop {ds s : List Char} (h : ∀ c ∈ ds, isDigit c = true) (hs : Stop s) :
    (ds ++ s).takeWhile isDigit = ds ∧ (ds ++ s).dropWhile isDigit = s := by
  induction ds with
  | nil =>
    cases s with
    | nil => exact ⟨rfl, rfl⟩
    | cons c t =>
      have := hs c t rfl
      simp [this]
  | cons c ds ih =>
    have h1 := h c List.mem_cons_self
    obtain ⟨a, b⟩ := ih (fun d hd => h d (List.mem_cons_of_mem _ hd))
    rw [List.cons_append, List.takeWhile_cons, List.dropWhile_cons, if_pos h1, if_pos h1, a]
    exact ⟨rfl, b⟩

/-- The exponent as it is written. -/
def expText (e : Option (Bool × Option Bool × List Char)) : List Char :=
  match e with | none => [] | some (cap, s, ds) => (if cap then 'E' else 'e') :: (signText s ++ ds)

/-- The value of the exponent. -/
def expVal (e : Option (Bool × Option Bool × List Char)) : Int :=
  match e with | none => 0 | some (_, s, ds) => signed (s == some true) (digits ds)

/-- The fraction as it is written. -/
def fracText (f : Option (List Char)) : List Char := match f with | none => [] | some f => '.' :: f

theorem Numeral.text_eq (l : Numeral) : l.text = signText l.sign ++ (l.whole ++ (fracText l.frac ++ expText l.exp)) := rfl

theorem digit_ne {c : Char} (h : isDigit c = true) : c ≠ '-' ∧ c ≠ '+' ∧ c ≠ '.' ∧ c ≠ 'e' ∧ c ≠ 'E' := by
  refine ⟨?_, ?_, ?_, ?_, ?_⟩ <;> (rintro rfl; exact absurd h (by decide))

theorem takeSign_text (s : Option Bool) (t : List Char) (h1 : t.head? ≠ some '-') (h2 : t.head? ≠ some '+') :
    takeSign (signText s ++ t) = (s == some true, t) := by
  cases s with
  | none =>
    cases t with
    | nil => rfl
    | cons c t =>
      have hc1 : c ≠ '-' := fun e => h1 (by rw [e]; rfl)
      have hc2 : c ≠ '+' := fun e => h2 (by rw [e]; rfl)
      show takeSign (c :: t) = _
      unfold takeSign
      split
      · rename_i e; exact absurd (List.cons.inj e).1 hc1
      · rename_i e; exact absurd (List.cons.inj e).1 hc2
      · rfl
  | some b => cases b <;> rfl

theorem head_digits {ds : List Char} (h : ∀ c ∈ ds, isDigit c = true) : ds.head? ≠ some '-' ∧ ds.head? ≠ some '+' := by
  cases ds with
  | nil => exact ⟨nofun, nofun⟩
  | cons c t =>
    have := digit_ne (h c List.mem_cons_self)
    exact ⟨fun e => this.1 (Option.some.inj e), fun e => this.2.1 (Option.some.inj e)⟩

theorem readExp_text {e : Option (Bool × Option Bool × List Char)} (h : ∀ x, e = some x → x.2.2 ≠ [] ∧ Digits x.2.2) :
    readExp (expText e) = some (expVal e) := by
  cases e with
  | none => rfl
  | some x =>
    obtain ⟨cap, s, ds⟩ := x
    obtain ⟨h1, h2⟩ := h _ rfl
    dsimp only at h1 h2
    have hd := h2.all
    have ht := takeSign_text s ds (head_digits hd).1 (head_digits hd).2
    show readExp ((if cap then 'E' else 'e') :: (signText s ++ ds)) = some (signed (s == some true) (digits ds))
    rw [readExp, ht, if_pos (by cases cap <;> decide), if_pos ⟨h1, List.all_eq_true.mpr hd⟩]

theorem stop_exp (e : Option (Bool × Option Bool × List Char)) : Stop (expText e) := by
  intro c t h
  cases e with
  | none => exact nomatch h
  | some x =>
    obtain ⟨cap, s, ds⟩ := x
    have := (List.cons.inj h).1
    rw [← this]
    cases cap <;> decide

theorem stop_frac (f : Option (List Char)) (e : Option (Bool × Option Bool × List Char)) : Stop (fracText f ++ expText e) := by
  cases f with
  | none => exact stop_exp e
  | some f =>
    intro c t h
    have := (List.cons.inj h).1
    rw [← this]; decide

theorem readFrac_text {f : Option (List Char)} {e : Option (Bool × Option Bool × List Char)} (h : ∀ x, f = some x → Digits x) :
    readFrac (fracText f ++ expText e) = (f.getD [], expText e) := by
  cases f with
  | some f =>
    obtain ⟨a, b⟩ := takeWhile_stop (h f rfl).all (stop_exp e)
    show (List.takeWhile isDigit (f ++ expText e), List.dropWhile isDigit (f ++ expText e)) = _
    rw [a, b]; rfl
  | none =>
    cases e with
    | none => rfl
    | some x =>
      obtain ⟨cap, s, ds⟩ := x
      cases cap <;> rfl

theorem readNumber_text {l : Numeral} (h : l.Valid) :
    readNumber (l.whole ++ (fracText l.frac ++ expText l.exp)) =
      some (digits (l.whole ++ l.frac.getD []), expVal l.exp - (l.frac.getD []).length) := by
  obtain ⟨a, b⟩ := takeWhile_stop h.whole.all (stop_frac l.frac l.exp)
  unfold readNumber
  rw [a, b, readFrac_text h.frac]
  dsimp only
  rw [if_neg, readExp_text h.exp]
  · rfl
  · rintro ⟨h1, h2⟩
    rcases h.nonempty with h3 | ⟨f, h3, h4⟩
    · exact h3 h1
    · rw [h3] at h2; exact h4 h2

/-- The text without the sign begins with a digit or a point. -/
theorem body_head {l : Numeral} (h : l.Valid) :
    ∃ c t, l.whole ++ (fracText l.frac ++ expText l.exp) = c :: t ∧ (isDigit c = true ∨ c = '.') := by
  cases hw : l.whole with
  | cons c t => exact ⟨c, _, rfl, Or.inl (h.whole.all c (by rw [hw]; exact List.mem_cons_self))⟩
  | nil =>
    rcases h.nonempty with h1 | ⟨f, h1, _⟩
    · exact absurd hw h1
    · rw [h1]; exact ⟨'.', _, rfl, Or.inr rfl⟩

theorem lower_digit {c : Char} (h : isDigit c = true ∨ c = '.') : c.toLower = c := by
  rcases h with h | rfl
  · have := (isDigit_iff c).mp h
    simp only [List.mem_cons, List.not_mem_nil, or_false] at this
    rcases this with rfl | rfl | rfl | rfl | rfl | rfl | rfl | rfl | rfl | rfl <;> decide
  · decide

theorem readWord_none (s : Bool) {c : Char} {t : List Char} (h : isDigit c = true ∨ c = '.') : readWord s (c :: t) = none := by
  have hi : c ≠ 'i' ∧ c ≠ 'n' := by
    rcases h with h | rfl
    · constructor <;> (rintro rfl; exact absurd h (by decide))
    · decide
  unfold readWord
  dsimp only
  rw [List.map_cons, lower_digit h, if_neg, if_neg]
  · intro e
    exact hi.2 (List.cons.inj (e.trans (show "nan".toList = ['n', 'a', 'n'] from rfl))).1
  · rintro (e | e)
    · exact hi.1 (List.cons.inj (e.trans (show "inf".toList = ['i', 'n', 'f'] from rfl))).1
    · exact hi.1 (List.cons.inj (e.trans (show "infinity".toList = ['i', 'n', 'f', 'i', 'n', 'i', 't', 'y'] from rfl))).1

theorem ten_pos (n : Nat) : 0 < 10 ^ n := Nat.pow_pos (by decide)

theorem Numeral.den_pos (l : Numeral) : 0 < l.den := by
  unfold Numeral.den
  refine Nat.mul_pos (ten_pos _) ?_
  split
  · split
    · exact ten_pos _
    · exact Nat.one_pos
  · exact Nat.one_pos

/-- A quotient of powers of ten. -/
theorem ofDecimal_eq (neg : Bool) (d p q : Nat) (e : Int) (h : e = (p : Int) - q) :
    ofDecimal neg d e = F64.round neg (d * 10 ^ p * one) (10 ^ q) := by
  unfold ofDecimal
  split
  · apply round_congr _ Nat.one_pos (ten_pos _)
    have : p = e.toNat + q := by omega
    rw [this, Nat.pow_add]
    simp [Nat.mul_comm, Nat.mul_left_comm]
  · apply round_congr _ (ten_pos _) (ten_pos _)
    have : q = (-e).toNat + p := by omega
    rw [this, Nat.pow_add]
    generalize 10 ^ (-e).toNat = x
    generalize 10 ^ p = y
    grind

/-- What is read from a numeral is what it denotes, rounded. -/
theorem ofDecimal_num (l : Numeral) (neg : Bool) :
    ofDecimal neg (digits (l.whole ++ l.frac.getD [])) (expVal l.exp - (l.frac.getD []).length) =
      F64.round neg (l.num * one) l.den := by
  unfold Numeral.num Numeral.den
  rw [← digits_positional]
  cases he : l.exp with
  | none =>
    rw [ofDecimal_eq neg _ 0 (l.frac.getD []).length _ (by simp [expVal])]
    simp
  | some x =>
    obtain ⟨cap, s, ds⟩ := x
    simp only [← digits_positional]
    by_cases hs : s = some true
    · rw [if_pos hs, if_pos hs, ofDecimal_eq neg _ 0 ((l.frac.getD []).length + digits ds) _
        (by simp only [expVal, hs, signed]; simp; omega)]
      rw [Nat.pow_zero, Nat.pow_add]
    · have : (s == some true) = false := by simpa using hs
      rw [if_neg hs, if_neg hs, ofDecimal_eq neg _ (digits ds) (l.frac.getD []).length _
        (by simp only [expVal, this, signed]; simp)]
      rw [Nat.mul_one]

theorem fromStr_text {l : Numeral} (h : l.Valid) :
    fromStr l.text = some (F64.round (l.sign == some true) (l.num * one) l.den) := by
  obtain ⟨c, t, hct, hc⟩ := body_head h
  have hne : (c :: t).head? ≠ some '-' ∧ (c :: t).head? ≠ some '+' := by
    rcases hc with hc | rfl
    · have := digit_ne hc
      exact ⟨fun e => this.1 (Option.some.inj e), fun e => this.2.1 (Option.some.inj e)⟩
    · exact ⟨fun e => absurd (Option.some.inj e) (by decide), fun e => absurd (Option.some.inj e) (by decide)⟩
  unfold fromStr
  rw [Numeral.text_eq, hct, takeSign_text l.sign _ hne.1 hne.2]
  dsimp only
  rw [readWord_none _ hc, ← hct, readNumber_text h]
  simp only [Option.map_some, ofDecimal_num]

/-- The sign that was taken. -/
theorem takeSign_eq (s : List Char) : ∃ o, s = signText o ++ (takeSign s).2 ∧ (o == some true) = (takeSign s).1 := by
  unfold takeSign
  split
  · exact ⟨some true, rfl, rfl⟩
  · exact ⟨some false, rfl, rfl⟩
  · exact ⟨none, rfl, rfl⟩

theorem digits_of_all {ds : List Char} (h : ∀ c ∈ ds, isDigit c = true) : Digits ds := fun c hc => (isDigit_iff c).mp (h c hc)

theorem readExp_some {s : List Char} {e : Int} (h : readExp s = some e) :
    ∃ o, s = expText o ∧ e = expVal o ∧ ∀ x, o = some x → x.2.2 ≠ [] ∧ Digits x.2.2 := by
  cases s with
  | nil => exact ⟨none, rfl, (Option.some.inj h).symm, fun _ h => nomatch h⟩
  | cons c t =>
    rw [readExp] at h
    split at h
    · rename_i hc
      split at h
      · rename_i hd
        obtain ⟨o, h1, h2⟩ := takeSign_eq t
        refine ⟨some (decide (c = 'E'), o, (takeSign t).2), ?_, ?_, ?_⟩
        · show c :: t = (if decide (c = 'E') = true then 'E' else 'e') :: (signText o ++ (takeSign t).2)
          rw [← h1]
          rcases hc with rfl | rfl <;> rfl
        · show e = signed (o == some true) _
          rw [h2]; exact (Option.some.inj h).symm
        · rintro x hx
          rw [← Option.some.inj hx]
          exact ⟨hd.1, digits_of_all (List.all_eq_true.mp hd.2)⟩
      · exact nomatch h
    · exact nomatch h

theorem takeWhile_all (s : List Char) : ∀ c ∈ s.takeWhile isDigit, isDigit c = true := by
  induction s with
  | nil => exact fun _ h => nomatch h
  | cons a s ih =>
    intro c hc
    rw [List.takeWhile_cons] at hc
    split at hc
    · rename_i ha
      rcases List.mem_cons.mp hc with rfl | hc
      · exact ha
      · exact ih c hc
    · exact nomatch hc

theorem readFrac_eq (s : List Char) : ∃ o, s = fracText o ++ (readFrac s).2 ∧ o.getD [] = (readFrac s).1 ∧
    ∀ f, o = some f → Digits f := by
  unfold readFrac
  split
  · rename_i t
    refine ⟨some (t.takeWhile isDigit), ?_, rfl, ?_⟩
    · show '.' :: t = '.' :: (t.takeWhile isDigit ++ t.dropWhile isDigit)
      rw [List.takeWhile_append_dropWhile]
    · intro f hf
      rw [← Option.some.inj hf]
      exact digits_of_all (takeWhile_all t)
  · exact ⟨none, rfl, rfl, fun _ h => nomatch h⟩

/-- Whatever is read as a finite number is a numeral. -/
theorem fromStr_some {s : List Char} {x : F64} (h : fromStr s = some x) (hf : x.isFinite = true) :
    ∃ l : Numeral, l.Valid ∧ s = l.text := by
  unfold fromStr at h
  obtain ⟨o, h1, h2⟩ := takeSign_eq s
  rcases hs : takeSign s with ⟨neg, t⟩
  rw [hs] at h h1 h2
  dsimp only at h h1 h2
  cases hw : readWord neg t with
  | some y =>
    rw [hw] at h
    dsimp only at h
    obtain rfl := Option.some.inj h
    unfold readWord at hw
    dsimp only at hw
    split at hw
    · rw [← Option.some.inj hw] at hf; exact nomatch hf
    · split at hw
      · rw [← Option.some.inj hw] at hf; exact nomatch hf
      · exact nomatch hw
  | none =>
    rw [hw] at h
    dsimp only at h
    cases hn : readNumber t with
    | none => rw [hn] at h; exact nomatch h
    | some v =>
      unfold readNumber at hn
      dsimp only at hn
      obtain ⟨f, f1, f2, f3⟩ := readFrac_eq (t.dropWhile isDigit)
      rcases hr : readFrac (t.dropWhile isDigit) with ⟨fp, rest⟩
      rw [hr] at hn f1 f2
      dsimp only at hn f1 f2
      split at hn
      · exact nomatch hn
      · rename_i hne
        cases he : readExp rest with
        | none => rw [he] at hn; exact nomatch hn
        | some e =>
          obtain ⟨eo, e1, _, e3⟩ := readExp_some he
          refine ⟨⟨o, t.takeWhile isDigit, f, eo⟩, ⟨digits_of_all (takeWhile_all t), f3, ?_, e3⟩, ?_⟩
          · by_cases hi : t.takeWhile isDigit = []
            · right
              have hfp : fp ≠ [] := fun e => hne ⟨hi, e⟩
              cases f with
              | none => exact absurd f2.symm hfp
              | some f => exact ⟨f, rfl, fun e => hfp (by rw [← f2]; exact e)⟩
            · exact Or.inl hi
          · rw [Numeral.text_eq]
            dsimp only
            rw [← e1, ← f1, List.takeWhile_append_dropWhile]
            exact h1

/-! ## White space -/

theorem digit_not_space {c : Char} (h : isDigit c = true) : isSpace c = false := by
  have := (isDigit_iff c).mp h
  simp only [List.mem_cons, List.not_mem_nil, or_false] at this
  rcases this with rfl | rfl | rfl | rfl | rfl | rfl | rfl | rfl | rfl | rfl <;> decide

theorem sign_not_space (o : Option Bool) : ∀ c ∈ signText o, isSpace c = false := by
  intro c hc
  cases o with
  | none => exact nomatch hc
  | some b => cases b <;> (rw [List.mem_singleton.mp hc]; decide)

theorem text_not_space {l : Numeral} (h : l.Valid) : ∀ c ∈ l.text, isSpace c = false := by
  intro c hc
  rw [Numeral.text_eq] at hc
  rcases List.mem_append.mp hc with hc | hc
  · exact sign_not_space _ c hc
  rcases List.mem_append.mp hc with hc | hc
  · exact digit_not_space (h.whole.all c hc)
  rcases List.mem_append.mp hc with hc | hc
  · cases hf : l.frac with
    | none => rw [hf] at hc; exact nomatch hc
    | some f =>
      rw [hf] at hc
      rcases List.mem_cons.mp hc with rfl | hc
      · decide
      · exact digit_not_space ((h.frac f hf).all c hc)
  · cases he : l.exp with
    | none => rw [he] at hc; exact nomatch hc
    | some x =>
      have hx := (h.exp x he).2
      obtain ⟨cap, s, ds⟩ := x
      rw [he] at hc
      rcases List.mem_cons.mp hc with rfl | hc
      · cases cap <;> decide
      · rcases List.mem_append.mp hc with hc | hc
        · exact sign_not_space _ c hc
        · exact digit_not_space (hx.all c hc)

theorem dropSpace {w t : List Char} (hw : ∀ c ∈ w, isSpace c = true) (ht : ∀ c ∈ t.head?, isSpace c = false) :
    (w ++ t).dropWhile isSpace = t := by
  induction w with
  | nil =>
    cases t with
    | nil => rfl
    | cons c t => rw [List.nil_append, List.dropWhile_cons, if_neg (by rw [ht c rfl]; decide)]
  | cons c w ih =>
    rw [List.cons_append, List.dropWhile_cons, if_pos (hw c List.mem_cons_self)]
    exact ih (fun d hd => hw d (List.mem_cons_of_mem _ hd))

theorem text_ne_nil {l : Numeral} (h : l.Valid) : l.text ≠ [] := by
  obtain ⟨c, t, h1, _⟩ := body_head h
  rw [Numeral.text_eq, h1]
  intro e
  exact nomatch (List.append_eq_nil_iff.mp e).2

theorem trim_written {s : List Char} {l : Numeral} (hl : l.Valid) (h : Written s l) : trim s = l.text := by
  obtain ⟨w, w', rfl, h1, h2⟩ := h
  have hs := text_not_space hl
  have hne := text_ne_nil hl
  have hh : ∀ c ∈ (l.text ++ w').head?, isSpace c = false := by
    intro c hc
    cases ht : l.text with
    | nil => exact absurd ht hne
    | cons a t =>
      rw [ht] at hc hs
      rw [← Option.some.inj hc]; exact hs a List.mem_cons_self
  unfold trim
  rw [List.append_assoc, dropSpace h1 hh, List.reverse_append, dropSpace (fun c hc => h2 c (List.mem_reverse.mp hc)), List.reverse_reverse]
  intro c hc
  have : c ∈ l.text.reverse := List.mem_of_mem_head? hc
  exact hs c (List.mem_reverse.mp this)

theorem dropWhile_split (s : List Char) : ∃ w, s = w ++ s.dropWhile isSpace ∧ ∀ c ∈ w, isSpace c = true := by
  induction s with
  | nil => exact ⟨[], rfl, fun _ h => nomatch h⟩
  | cons c s ih =>
    obtain ⟨w, h1, h2⟩ := ih
    by_cases hc : isSpace c = true
    · rw [List.dropWhile_cons, if_pos hc]
      refine ⟨c :: w, by rw [List.cons_append, ← h1], fun d hd => ?_⟩
      rcases List.mem_cons.mp hd with rfl | hd
      · exact hc
      · exact h2 d hd
    · rw [List.dropWhile_cons, if_neg hc]
      exact ⟨[], rfl, fun _ h => nomatch h⟩

theorem trim_split (s : List Char) : ∃ w w', s = w ++ trim s ++ w' ∧ (∀ c ∈ w, isSpace c = true) ∧ (∀ c ∈ w', isSpace c = true) := by
  obtain ⟨w, h1, h2⟩ := dropWhile_split s
  obtain ⟨v, h3, h4⟩ := dropWhile_split (s.dropWhile isSpace).reverse
  refine ⟨w, v.reverse, ?_, h2, fun c hc => h4 c (List.mem_reverse.mp hc)⟩
  unfold trim
  rw [List.append_assoc, ← List.reverse_append, ← h3, List.reverse_reverse]
  exact h1

end Verif
