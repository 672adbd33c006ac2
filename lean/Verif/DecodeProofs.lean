import Verif.Decode
import Verif.WireProofs
/-
# Reading what was written
-/

namespace Verif

/-! ## Readers consume a prefix -/

theorem readVarintAux_append (f : Nat) (a b r : Bytes) (v : Nat) (h : readVarintAux f a = some (v, r)) :
    readVarintAux f (a ++ b) = some (v, r ++ b) ∧ r.length < a.length := by
  induction f generalizing a v r with
  | zero => cases h
  | succ f ih =>
    cases a with
    | nil => cases h
    | cons x a =>
      simp only [readVarintAux, List.cons_append] at h ⊢
      split at h
      · rename_i hx
        rw [if_pos hx]
        split at h
        · cases h
        · rename_i hy
          cases h
          rw [if_neg hy]
          exact ⟨rfl, by simp⟩
      · rename_i hx
        rw [if_neg hx]
        cases hr : readVarintAux f a with
        | none => rw [hr] at h; cases h
        | some p =>
          obtain ⟨v', r'⟩ := p
          rw [hr] at h
          cases h
          obtain ⟨h1, h2⟩ := ih a _ _ hr
          rw [h1]
          exact ⟨rfl, by simp only [List.length_cons]; omega⟩

theorem readVarint_append {a r : Bytes} {v : Nat} (h : readVarint a = some (v, r)) (b : Bytes) :
    readVarint (a ++ b) = some (v, r ++ b) := (readVarintAux_append 10 a b r v h).1

theorem readVarint_length {a r : Bytes} {v : Nat} (h : readVarint a = some (v, r)) : r.length < a.length :=
  (readVarintAux_append 10 a [] r v h).2

theorem readKey_append {a r : Bytes} {t wt : Nat} (h : readKey a = some (t, wt, r)) (b : Bytes) :
    readKey (a ++ b) = some (t, wt, r ++ b) ∧ r.length < a.length := by
  unfold readKey at h ⊢
  cases hr : readVarint a with
  | none => rw [hr] at h; cases h
  | some p =>
    obtain ⟨v, r'⟩ := p
    rw [hr] at h
    rw [readVarint_append hr b]
    have hl := readVarint_length hr
    simp only at h ⊢
    repeat' split at h
    all_goals first | (cases h; done) | skip
    rename_i h1 h2 h3
    cases h
    rw [if_neg h1, if_neg h2, if_neg h3]
    exact ⟨rfl, hl⟩

theorem readBytes_append {n : Nat} {a x r : Bytes} (h : readBytes n a = some (x, r)) (b : Bytes) :
    readBytes n (a ++ b) = some (x, r ++ b) ∧ r.length ≤ a.length ∧ x.length ≤ a.length := by
  unfold readBytes at h ⊢
  split at h
  · cases h
  · rename_i hn
    cases h
    rw [if_neg (by rw [List.length_append]; omega), List.take_append_of_le_length (by omega),
      List.drop_append_of_le_length (by omega)]
    exact ⟨rfl, by rw [List.length_drop]; omega, by rw [List.length_take]; omega⟩

/-- A length-delimited payload is no longer than `n`. -/
def Raw.Fits (n : Nat) : Raw → Prop
  | .len bs => bs.length ≤ n
  | _ => True

theorem Raw.Fits.mono {n m : Nat} {x : Raw} (h : x.Fits n) (hm : n ≤ m) : x.Fits m := by
  cases x <;> simp only [Raw.Fits] at h ⊢
  omega

theorem readScalar_append {wt : Nat} {a r : Bytes} {x : Raw} (h : readScalar wt a = some (x, r)) (b : Bytes) :
    readScalar wt (a ++ b) = some (x, r ++ b) ∧ r.length ≤ a.length ∧ x.Fits a.length := by
  unfold readScalar at h ⊢
  by_cases h0 : wt = 0
  · rw [if_pos h0] at h ⊢
    cases hr : readVarint a with
    | none => rw [hr] at h; cases h
    | some p =>
      rw [hr] at h
      cases h
      rw [readVarint_append hr b]
      exact ⟨rfl, Nat.le_of_lt (readVarint_length hr), trivial⟩
  rw [if_neg h0] at h ⊢
  by_cases h1 : wt = 1
  · rw [if_pos h1] at h ⊢
    cases hr : readBytes 8 a with
    | none => rw [hr] at h; cases h
    | some p =>
      rw [hr] at h
      cases h
      obtain ⟨e1, e2, e3⟩ := readBytes_append hr b
      rw [e1]
      exact ⟨rfl, e2, trivial⟩
  rw [if_neg h1] at h ⊢
  by_cases h2 : wt = 2
  · rw [if_pos h2] at h ⊢
    cases hr : readVarint a with
    | none => rw [hr] at h; cases h
    | some p =>
      obtain ⟨n, r1⟩ := p
      rw [hr] at h
      rw [readVarint_append hr b]
      have hl := readVarint_length hr
      simp only at h ⊢
      cases hb : readBytes n r1 with
      | none => rw [hb] at h; cases h
      | some p =>
        rw [hb] at h
        cases h
        obtain ⟨e1, e2, e3⟩ := readBytes_append hb b
        rw [e1]
        exact ⟨rfl, by omega, show _ ≤ _ by omega⟩
  rw [if_neg h2] at h ⊢
  by_cases h5 : wt = 5
  · rw [if_pos h5] at h ⊢
    cases hr : readBytes 4 a with
    | none => rw [hr] at h; cases h
    | some p =>
      rw [hr] at h
      cases h
      obtain ⟨e1, e2, e3⟩ := readBytes_append hr b
      rw [e1]
      exact ⟨rfl, e2, trivial⟩
  rw [if_neg h5] at h
  cases h

theorem skipGroup_append (limit f g : Nat) (st : List Nat) (a b r : Bytes) (hg : f ≤ g)
    (h : skipGroup limit f st a = some r) :
    skipGroup limit g st (a ++ b) = some (r ++ b) ∧ r.length ≤ a.length := by
  induction f generalizing g st a with
  | zero =>
    cases st with
    | nil =>
      rw [skipGroup] at h ⊢
      cases h
      exact ⟨rfl, Nat.le_refl _⟩
    | cons => rw [skipGroup] at h; cases h
  | succ f ih =>
    cases st with
    | nil =>
      rw [skipGroup] at h ⊢
      cases h
      exact ⟨rfl, Nat.le_refl _⟩
    | cons t ts =>
      obtain ⟨g, rfl⟩ : ∃ g', g = g' + 1 := ⟨g - 1, by omega⟩
      rw [skipGroup] at h ⊢
      cases hk : readKey a with
      | none => rw [hk] at h; cases h
      | some p =>
        obtain ⟨tag, wt, r1⟩ := p
        rw [hk] at h
        obtain ⟨e1, e2⟩ := readKey_append hk b
        rw [e1]
        simp only at h ⊢
        split at h
        · rename_i h4
          rw [if_pos h4]
          split at h
          · rename_i h5
            rw [if_pos h5]
            obtain ⟨e3, e4⟩ := ih g ts r1 (by omega) h
            exact ⟨e3, by omega⟩
          · cases h
        · rename_i h4
          rw [if_neg h4]
          split at h
          · cases h
          · rename_i h5
            rw [if_neg h5]
            split at h
            · rename_i h6
              rw [if_pos h6]
              obtain ⟨e3, e4⟩ := ih g _ r1 (by omega) h
              exact ⟨e3, by omega⟩
            · rename_i h6
              rw [if_neg h6]
              cases hs : readScalar wt r1 with
              | none => rw [hs] at h; cases h
              | some q =>
                rw [hs] at h
                obtain ⟨e5, e6, _⟩ := readScalar_append hs b
                rw [e5]
                obtain ⟨e3, e4⟩ := ih g _ q.2 (by omega) h
                exact ⟨e3, by omega⟩

theorem readField_append {limit : Nat} {a r : Bytes} {f : Nat × Raw} (h : readField limit a = some (f, r))
    (b : Bytes) : readField limit (a ++ b) = some (f, r ++ b) ∧ r.length < a.length ∧ f.2.Fits a.length := by
  unfold readField at h ⊢
  cases hk : readKey a with
  | none => rw [hk] at h; cases h
  | some p =>
    obtain ⟨tag, wt, r1⟩ := p
    rw [hk] at h
    obtain ⟨e1, e2⟩ := readKey_append hk b
    rw [e1]
    simp only at h ⊢
    split at h
    · rename_i h3
      rw [if_pos h3]
      cases hs : skipGroup limit (r1.length + 1) [tag] r1 with
      | none => rw [hs] at h; cases h
      | some q =>
        rw [hs] at h
        cases h
        obtain ⟨e3, e4⟩ := skipGroup_append limit _ ((r1 ++ b).length + 1) _ _ b _
          (by rw [List.length_append]; omega) hs
        rw [e3]
        exact ⟨rfl, by omega, trivial⟩
    · rename_i h3
      rw [if_neg h3]
      cases hs : readScalar wt r1 with
      | none => rw [hs] at h; cases h
      | some q =>
        rw [hs] at h
        cases h
        obtain ⟨e3, e4, e5⟩ := readScalar_append hs b
        rw [e3]
        exact ⟨rfl, by omega, e5.mono (by omega)⟩

theorem readFieldsAux_fuel (limit f g : Nat) (bs : Bytes) (hf : bs.length ≤ f) (hg : bs.length ≤ g) :
    readFieldsAux limit f bs = readFieldsAux limit g bs := by
  induction f generalizing g bs with
  | zero =>
    have : bs = [] := List.length_eq_zero_iff.mp (by omega)
    subst this
    simp only [readFieldsAux]
  | succ f ih =>
    cases bs with
    | nil => simp only [readFieldsAux]
    | cons x bs =>
      simp only [List.length_cons] at hf hg
      obtain ⟨g, rfl⟩ : ∃ g', g = g' + 1 := ⟨g - 1, by omega⟩
      simp only [readFieldsAux]
      cases hr : readField limit (x :: bs) with
      | none => rfl
      | some p =>
        obtain ⟨_, hl, _⟩ := readField_append hr []
        simp only [List.length_cons] at hl
        simp only
        rw [ih g p.2 (by omega) (by omega)]

theorem readFields_nil (limit : Nat) : readFields limit [] = some [] := rfl

theorem readFields_cons {limit : Nat} {bs r : Bytes} {f : Nat × Raw} (h : readField limit bs = some (f, r)) :
    readFields limit bs = (readFields limit r).map (f :: ·) := by
  cases bs with
  | nil => cases h
  | cons x bs =>
    obtain ⟨_, hl, _⟩ := readField_append h []
    simp only [List.length_cons] at hl
    unfold readFields
    simp only [List.length_cons, readFieldsAux]
    rw [h]
    simp only
    rw [readFieldsAux_fuel limit bs.length r.length r (by omega) (by omega)]
    cases readFieldsAux limit r.length r <;> rfl

theorem readFields_none {limit : Nat} {bs : Bytes} (h0 : bs ≠ []) (h : readField limit bs = none) :
    readFields limit bs = none := by
  cases bs with
  | nil => exact absurd rfl h0
  | cons x bs =>
    unfold readFields
    simp only [List.length_cons, readFieldsAux]
    rw [h]

/-- Fields after fields. -/
theorem readFields_append {limit : Nat} {a b : Bytes} {fs : List (Nat × Raw)} (h : readFields limit a = some fs) :
    readFields limit (a ++ b) = (readFields limit b).map (fs ++ ·) := by
  induction hn : a.length using Nat.strongRecOn generalizing a fs with
  | ind n ih =>
    cases hr : readField limit a with
    | none =>
      by_cases h0 : a = []
      · subst h0
        cases h
        rw [List.nil_append]
        cases readFields limit b <;> rfl
      · rw [readFields_none h0 hr] at h; cases h
    | some p =>
      obtain ⟨f, r⟩ := p
      obtain ⟨e1, e2, _⟩ := readField_append hr b
      rw [readFields_cons hr] at h
      rw [readFields_cons e1]
      cases hs : readFields limit r with
      | none => rw [hs] at h; cases h
      | some gs =>
        rw [hs] at h
        cases h
        rw [ih r.length (by omega) hs rfl]
        cases readFields limit b <;> rfl

/-- What was read is no longer than what it was read from. -/
theorem readFields_fits {limit : Nat} {a : Bytes} {fs : List (Nat × Raw)} (h : readFields limit a = some fs) :
    ∀ f ∈ fs, f.2.Fits a.length := by
  induction hn : a.length using Nat.strongRecOn generalizing a fs with
  | ind n ih =>
    cases hr : readField limit a with
    | none =>
      by_cases h0 : a = []
      · subst h0
        cases h
        intro f hf
        cases hf
      · rw [readFields_none h0 hr] at h; cases h
    | some p =>
      obtain ⟨f, r⟩ := p
      obtain ⟨_, e2, e3⟩ := readField_append hr []
      rw [readFields_cons hr] at h
      cases hs : readFields limit r with
      | none => rw [hs] at h; cases h
      | some gs =>
        rw [hs] at h
        cases h
        intro g hg
        rcases List.mem_cons.mp hg with rfl | hg
        · exact hn ▸ e3
        · exact (ih r.length (by omega) hs rfl g hg).mono (by omega)

/-! ## Reading encodings -/

theorem readVarintAux_varint (f n : Nat) (r : Bytes) (h : n < 2 * 128 ^ f) :
    readVarintAux (f + 1) (varint n ++ r) = some (n, r) := by
  induction f generalizing n with
  | zero =>
    have h : n < 2 := by simpa using h
    rw [varint_eq, if_pos (by omega)]
    have e : (UInt8.ofNat n).toNat = n := by rw [UInt8.toNat_ofNat']; omega
    simp only [List.cons_append, List.nil_append, readVarintAux, e]
    rw [if_pos (by omega), if_neg (by omega)]
  | succ f ih =>
    rw [varint_eq]
    split
    · have e : (UInt8.ofNat n).toNat = n := by rw [UInt8.toNat_ofNat']; omega
      simp only [List.cons_append, List.nil_append]
      rw [readVarintAux, e, if_pos (by omega), if_neg (by omega)]
    · have e : (UInt8.ofNat (n % 128 + 128)).toNat = n % 128 + 128 := by rw [UInt8.toNat_ofNat']; omega
      simp only [List.cons_append]
      rw [readVarintAux, e, if_neg (by omega), ih (n / 128) (by rw [Nat.pow_succ] at h; omega)]
      simp only
      congr 2
      omega

theorem readVarint_varint {n : Nat} (h : n < 2 ^ 64) (r : Bytes) : readVarint (varint n ++ r) = some (n, r) :=
  readVarintAux_varint 9 n r (by simpa using h)

theorem readKey_varint {t wt : Nat} (ht : 1 ≤ t) (ht' : t < 2 ^ 29) (hw : wt < 6) (r : Bytes) :
    readKey (varint (t * 8 + wt) ++ r) = some (t, wt, r) := by
  unfold readKey
  rw [readVarint_varint (by omega)]
  have e1 : (t * 8 + wt) / 8 = t := by omega
  have e2 : (t * 8 + wt) % 8 = wt := by omega
  simp only [e1, e2]
  rw [if_neg (by omega), if_neg (by omega), if_neg (by omega)]

theorem readBytes_take (x r : Bytes) : readBytes x.length (x ++ r) = some (x, r) := by
  unfold readBytes
  rw [if_neg (by rw [List.length_append]; omega), List.take_left, List.drop_left]

/-- The payload of a written field as it is read. -/
def Wire.raw : Wire → Raw
  | .varint n => .varint n
  | .len bs => .len bs
  | .fixed32 w => .fixed32 w

/-- Numbers and lengths have 64 bits. -/
def Wire.Sized : Wire → Prop
  | .varint n => n < 2 ^ 64
  | .len bs => bs.length < 2 ^ 64
  | .fixed32 _ => True

theorem beNat_le32 (w : BitVec 32) : BitVec.ofNat 32 (beNat (le32 w).reverse) = w := by
  unfold le32
  rw [List.reverse_reverse, beNat_beBytes]
  apply BitVec.eq_of_toNat_eq
  rw [BitVec.toNat_ofNat]
  have := w.isLt
  omega

theorem readScalar_enc (w : Wire) (h : w.Sized) (r : Bytes) :
    readScalar w.typ ((match w with
      | .varint n => varint n
      | .len bs => varint bs.length ++ bs
      | .fixed32 x => le32 x) ++ r) = some (w.raw, r) := by
  cases w with
  | varint n =>
    simp only [readScalar, Wire.typ]
    rw [readVarint_varint h]
    rfl
  | len bs =>
    simp only [readScalar, Wire.typ, List.append_assoc]
    rw [readVarint_varint h]
    simp only [readBytes_take]
    rfl
  | fixed32 x =>
    simp only [readScalar, Wire.typ]
    have e : readBytes 4 (le32 x ++ r) = some (le32 x, r) := by
      have := readBytes_take (le32 x) r
      rwa [le32_length] at this
    rw [e]
    simp only [beNat_le32]
    rfl

theorem readField_enc {limit t : Nat} {w : Wire} (ht : 1 ≤ t) (ht' : t < 2 ^ 29) (h : w.Sized) (r : Bytes) :
    readField limit (encField (t, w) ++ r) = some ((t, w.raw), r) := by
  have hs := readScalar_enc w h r
  unfold readField
  cases w <;> simp only [encField, List.append_assoc, Wire.typ] at hs ⊢ <;>
    rw [readKey_varint ht ht' (by omega)] <;> simp only <;> rw [if_neg (by omega), hs]

theorem readFields_enc {limit t : Nat} {w : Wire} (ht : 1 ≤ t) (ht' : t < 2 ^ 29) (h : w.Sized) :
    readFields limit (encField (t, w)) = some [(t, w.raw)] := by
  have := readField_enc (limit := limit) ht ht' h []
  rw [List.append_nil] at this
  rw [readFields_cons this]
  rfl

/-- A field as it is read. -/
def rawField (f : Nat × Wire) : Nat × Raw := (f.1, f.2.raw)

theorem readFields_encFields {limit : Nat} (fs : List (Nat × Wire))
    (h : ∀ f ∈ fs, 1 ≤ f.1 ∧ f.1 < 2 ^ 29 ∧ f.2.Sized) :
    readFields limit (encFields fs) = some (fs.map rawField) := by
  induction fs with
  | nil => rfl
  | cons f fs ih =>
    obtain ⟨h1, h2, h3⟩ := h f (List.mem_cons_self ..)
    unfold encFields at ih ⊢
    rw [List.flatMap_cons, readFields_append (readFields_enc (t := f.1) (w := f.2) h1 h2 h3),
      ih (fun g hg => h g (List.mem_cons_of_mem _ hg))]
    rfl

/-! ## One field after the other -/

section
variable {β : Type} {m : β → Nat × Raw → Option β} {s s' : β} {rest : List (Nat × Raw)}

theorem fold_one {f : Nat × Wire} (h : m s (rawField f) = some s') :
    ([f].map rawField ++ rest).foldlM m s = rest.foldlM m s' := by
  rw [List.map_cons, List.map_nil, List.cons_append, List.nil_append, List.foldlM_cons, h]
  rfl

theorem fold_nil (h : s = s') : (([] : List (Nat × Wire)).map rawField ++ rest).foldlM m s = rest.foldlM m s' := by
  rw [h]; rfl

theorem fold_U64 {t : Nat} {x : U64} (h : m s (t, .varint x.toNat) = some s') (h0 : x = 0 → s = s') :
    ((fU64 t x).map rawField ++ rest).foldlM m s = rest.foldlM m s' := by
  unfold fU64
  split
  · exact fold_nil (h0 (by assumption))
  · exact fold_one h

theorem fold_Enum {t : Nat} {x : I32} (h : m s (t, .varint (x.signExtend 64).toNat) = some s')
    (h0 : x = 0 → s = s') : ((fEnum t x).map rawField ++ rest).foldlM m s = rest.foldlM m s' := by
  unfold fEnum
  split
  · exact fold_nil (h0 (by assumption))
  · exact fold_one h

theorem fold_Bool {t : Nat} {x : Bool} (h : x = true → m s (t, .varint 1) = some s')
    (h0 : x = false → s = s') : ((fBool t x).map rawField ++ rest).foldlM m s = rest.foldlM m s' := by
  unfold fBool
  split
  · exact fold_one (h (by assumption))
  · rename_i hx
    exact fold_nil (h0 (by simpa using hx))

theorem fold_Bytes {t : Nat} {x : Bytes} (h : m s (t, .len x) = some s')
    (h0 : x = [] → s = s') : ((fBytes t x).map rawField ++ rest).foldlM m s = rest.foldlM m s' := by
  unfold fBytes
  split
  · exact fold_nil (h0 (by assumption))
  · exact fold_one h

theorem fold_OptU64 {t : Nat} {x : Option U64} (h : ∀ v, x = some v → m s (t, .varint v.toNat) = some s')
    (h0 : x = none → s = s') : ((fOptU64 t x).map rawField ++ rest).foldlM m s = rest.foldlM m s' := by
  unfold fOptU64
  split
  · exact fold_nil (h0 rfl)
  · exact fold_one (h _ rfl)

theorem fold_OptEnum {t : Nat} {x : Option I32}
    (h : ∀ v, x = some v → m s (t, .varint (v.signExtend 64).toNat) = some s')
    (h0 : x = none → s = s') : ((fOptEnum t x).map rawField ++ rest).foldlM m s = rest.foldlM m s' := by
  unfold fOptEnum
  split
  · exact fold_nil (h0 rfl)
  · exact fold_one (h _ rfl)

theorem fold_OptBytes {t : Nat} {x : Option Bytes} (h : ∀ v, x = some v → m s (t, .len v) = some s')
    (h0 : x = none → s = s') : ((fOptBytes t x).map rawField ++ rest).foldlM m s = rest.foldlM m s' := by
  unfold fOptBytes
  split
  · exact fold_nil (h0 rfl)
  · exact fold_one (h _ rfl)

theorem fold_OptMsg {t : Nat} {x : Option ReservedMetadata}
    (h : ∀ v, x = some v → m s (t, .len (encFields v.fields)) = some s')
    (h0 : x = none → s = s') : ((fOptMsg t x).map rawField ++ rest).foldlM m s = rest.foldlM m s' := by
  unfold fOptMsg
  split
  · exact fold_nil (h0 rfl)
  · exact fold_one (h _ rfl)

end

theorem ofNat_signExtend (x : I32) : BitVec.ofNat 32 (x.signExtend 64).toNat = x := by
  have : BitVec.ofNat 32 (x.signExtend 64).toNat = (x.signExtend 64).setWidth 32 := by
    apply BitVec.eq_of_toNat_eq
    rw [BitVec.toNat_ofNat, BitVec.toNat_setWidth]
  rw [this]
  apply BitVec.eq_of_getLsbD_eq
  intro i hi
  rw [BitVec.getLsbD_setWidth, BitVec.getLsbD_signExtend]
  have h64 : i < 64 := by omega
  simp [hi, h64]

theorem Raw.u64_toNat (x : U64) : Raw.u64 (.varint x.toNat) = some x := by
  simp only [Raw.u64, BitVec.ofNat_toNat, BitVec.setWidth_eq]
theorem Raw.i32_signExtend (x : I32) : Raw.i32 (.varint (x.signExtend 64).toNat) = some x := by
  simp only [Raw.i32, ofNat_signExtend]
theorem Raw.string_of {x : Bytes} (h : utf8 x = true) : Raw.string (.len x) = some x := by
  simp only [Raw.string, h, if_true]

/-! ## Writing and reading the kinds of messages -/

end Verif
