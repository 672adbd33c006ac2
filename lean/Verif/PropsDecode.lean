import Verif.DecodeAll
/-
# C91: what is read from a message is what was put into it

Specification vocabulary (`Verif/DecodeSpec.lean`): `Body.strings`, `Body.blobs`, `IsText`, `fieldType`,
`FieldType.Fits`, `OnWire`, `OneField`, `singular`; `Body.kind` (`Verif/WireProofs.lean`); `encFields` writes any list
of fields. `Body.decode k` is what a receiver of messages of kind `k` calls.
-/

namespace Verif

theorem onWire_sized {f : Nat × Wire} (h : OnWire f) : 1 ≤ f.1 ∧ f.1 < 2 ^ 29 ∧ f.2.Sized := by
  obtain ⟨h1, h2, h3⟩ := h
  refine ⟨h1, h2, ?_⟩
  obtain ⟨t, w⟩ := f
  cases w <;> exact h3

theorem decode_encFields (k : Variant) {fs : List (Nat × Wire)} (h : ∀ f ∈ fs, OnWire f) :
    Body.decode k (encFields fs) = (fs.map rawField).foldlM Body.merge (Body.default k) := by
  unfold Body.decode
  rw [readFields_encFields fs (fun f hf => onWire_sized (h f hf))]

/-- C91: a receiver of a message reads exactly the message that was sent: every field, empty or not, of each of the
eight kinds. The conditions hold of all values of the Rust types: a `String` is UTF-8, and nothing is longer than
memory. -/
theorem c91_round_trip (b : Body) (hs : ∀ s ∈ b.strings, IsText s) (hl : ∀ x ∈ b.blobs, x.length < 2 ^ 64) :
    Body.decode b.kind b.encode = some b := by
  unfold Body.decode Body.encode
  rw [readFields_encFields _ (b.sized hl)]
  exact b.merge_fields (fun s h => (utf8_iff s).mpr (hs s h))

/-- C91: whatever bytes a message was read from, it is a message of the kind asked for, its texts are UTF-8, and
writing it and reading it again gives it back. So a message that is passed on stays what it is. -/
theorem c91_passed_on (k : Variant) (bs : Bytes) (b : Body) (hl : bs.length < 2 ^ 64) (h : Body.decode k bs = some b) :
    b.kind = k ∧ (∀ s ∈ b.strings, IsText s) ∧ Body.decode k b.encode = some b := by
  unfold Body.decode at h
  cases hr : readFields 100 bs with
  | none => rw [hr] at h; cases h
  | some fs =>
    rw [hr] at h
    have hk : b.kind = k := (Body.fold_kind h).trans (Body.default_kind k)
    have hc := Body.fold_clean (readFields_fits hr) h (by cases k <;> simp [Body.default, Body.strings, Body.blobs, utf8])
    have ht : ∀ s ∈ b.strings, IsText s := fun s hs => (utf8_iff s).mp (hc.1 s hs)
    refine ⟨hk, ht, ?_⟩
    have := c91_round_trip b ht (fun x hx => Nat.lt_of_le_of_lt (hc.2 x hx) hl)
    rwa [hk] at this

/-- C91: the order of fields does not matter, only the order among the values given for one field. -/
theorem c91_order (k : Variant) (fs gs : List (Nat × Wire)) (hf : ∀ f ∈ fs, OnWire f) (hg : ∀ g ∈ gs, OnWire g)
    (h : ∀ t, fs.filter (·.1 = t) = gs.filter (·.1 = t)) :
    Body.decode k (encFields fs) = Body.decode k (encFields gs) := by
  rw [decode_encFields k hf, decode_encFields k hg]
  apply fold_order
  intro t
  have e : ∀ l : List (Nat × Wire), atTag t (l.map rawField) = (l.filter (·.1 = t)).map (·.2.raw) := by
    intro l
    induction l with
    | nil => rfl
    | cons f l ih =>
      obtain ⟨u, w⟩ := f
      by_cases hu : u = t
      · subst hu
        rw [List.map_cons, show rawField (u, w) = (u, w.raw) from rfl, atTag_cons_self, ih]
        simp
      · have : atTag t (((u, w) :: l).map rawField) = atTag t (l.map rawField) := by
          simp [atTag, rawField, hu]
        rw [this, ih]
        simp [hu]
  rw [e, e, h t]

theorem exists_first {α : Type} {p : α → Prop} [DecidablePred p] {l : List α} (h : ∃ x ∈ l, p x) :
    ∃ l1 x l2, l = l1 ++ x :: l2 ∧ p x ∧ ∀ y ∈ l1, ¬ p y := by
  induction l with
  | nil => obtain ⟨x, hx, _⟩ := h; cases hx
  | cons a l ih =>
    by_cases ha : p a
    · exact ⟨[], a, l, rfl, ha, fun y hy => (nomatch hy)⟩
    · obtain ⟨x, hx, hp⟩ := h
      rcases List.mem_cons.mp hx with rfl | hx
      · exact absurd hp ha
      obtain ⟨l1, y, l2, rfl, h1, h2⟩ := ih ⟨x, hx, hp⟩
      refine ⟨a :: l1, y, l2, rfl, h1, ?_⟩
      intro z hz
      rcases List.mem_cons.mp hz with rfl | hz
      · exact ha
      · exact h2 z hz

/-- C91: of several values for a field that holds one value the last counts: the others have no effect, except that
they must have the type of the field. -/
theorem c91_last (k : Variant) (t : Nat) (w : Wire) (fs gs : List (Nat × Wire)) (hs : singular k t)
    (hf : ∀ f ∈ fs ++ (t, w) :: gs, OnWire f) (hw : ∀ ty, fieldType k t = some ty → ty.Fits w)
    (hg : ∃ g ∈ gs, g.1 = t) :
    Body.decode k (encFields (fs ++ (t, w) :: gs)) = Body.decode k (encFields (fs ++ gs)) := by
  rw [decode_encFields k hf, decode_encFields k (fun f h => hf f (by
    rcases List.mem_append.mp h with h | h
    · exact List.mem_append_left _ h
    · exact List.mem_append_right _ (List.mem_cons_of_mem _ h)))]
  rw [List.map_append, List.map_append, List.foldlM_append, List.foldlM_append]
  cases hb : (fs.map rawField).foldlM Body.merge (Body.default k) with
  | none => rfl
  | some b =>
    have hk : b.kind = k := (Body.fold_kind hb).trans (Body.default_kind k)
    obtain ⟨g1, g, g2, rfl, h1, h2⟩ := exists_first hg
    obtain ⟨t', w'⟩ := g
    simp only at h1
    subst h1
    have hm : (b.merge (t', w.raw)).isSome = true := by
      rw [Body.merge_type, hk]
      cases hty : fieldType k t' with
      | none => rfl
      | some ty =>
        have := hw ty hty
        have hne : ty ≠ .message := by
          rintro rfl
          obtain ⟨hs1, hs2⟩ := hs
          cases k <;> revert hty
          case fulfill =>
            intro hty
            have hs2 := hs2 rfl
            match t', hty, hs2 with
            | 0, hty, _ => cases hty
            | 1, hty, _ => cases hty
            | 2, hty, _ => cases hty
            | 3, hty, _ => cases hty
            | 4, _, h => exact h rfl
            | 5, hty, _ => cases hty
            | 6, hty, _ => cases hty
            | n + 7, hty, _ =>
              rw [show fieldType .fulfill (n + 7) = none from List.getElem?_eq_none (by simp [fieldTypes])] at hty
              cases hty
          all_goals
            intro hty
            cases t' with
            | zero => cases hty
            | succ n =>
              have := List.mem_of_getElem? (show (fieldTypes _)[n]? = some .message from hty)
              revert this
              decide
        cases ty <;> cases w <;> first | rfl | (cases this; done) | exact absurd rfl hne | exact (utf8_iff _).mpr this
    obtain ⟨b', hb'⟩ := Option.isSome_iff_exists.mp hm
    have := fold_last t' w.raw w'.raw (g1.map rawField) (g2.map rawField) b b' (by rw [hk]; exact hs) hb' (by
      intro g hg
      obtain ⟨x, hx, rfl⟩ := List.mem_map.mp hg
      exact h2 x hx)
    simp only [List.map_cons, List.map_append]
    exact this

theorem reads_of_fits {ty : FieldType} {w : Wire} (h : ty.Fits w) : ty.reads w.raw = true := by
  cases ty <;> cases w <;> first | rfl | (cases h; done) | exact (utf8_iff _).mpr h | skip
  obtain ⟨gs, rfl, hg⟩ := h
  show (Raw.metadata none (.len (encFields gs))).isSome = true
  unfold Raw.metadata
  simp only
  rw [readFields_encFields gs (fun g h => onWire_sized (hg g h).1)]
  simp only [Option.getD_none]
  generalize ({} : ReservedMetadata) = m
  induction gs generalizing m with
  | nil => rfl
  | cons g gs ih =>
    obtain ⟨u, w⟩ := g
    rw [List.map_cons, List.foldlM_cons]
    have h1 : ∃ m', ReservedMetadata.merge m (rawField (u, w)) = some m' := by
      by_cases hu : u = 1
      · subst hu
        obtain ⟨x, hx⟩ := (hg _ (List.mem_cons_self ..)).2 rfl
        simp only at hx
        subst hx
        exact ⟨_, rfl⟩
      · refine ⟨m, ?_⟩
        show ReservedMetadata.merge m (u, w.raw) = some m
        unfold ReservedMetadata.merge
        split
        · rename_i h; cases h; exact absurd rfl hu
        · rfl
    obtain ⟨m', hm'⟩ := h1
    rw [hm']
    exact ih (fun g h => hg g (List.mem_cons_of_mem _ h)) m'

/-- C91: fields are accepted in any order and any number if each has the type of its tag; fields with tags the message
does not have may have any type. -/
theorem c91_accepted (k : Variant) (fs : List (Nat × Wire)) (hf : ∀ f ∈ fs, OnWire f)
    (h : ∀ f ∈ fs, ∀ ty, fieldType k f.1 = some ty → ty.Fits f.2) :
    ∃ b, Body.decode k (encFields fs) = some b := by
  rw [decode_encFields k hf]
  apply Option.isSome_iff_exists.mp
  rw [fold_isSome]
  intro f hf ty hty
  obtain ⟨g, hg, rfl⟩ := List.mem_map.mp hf
  rw [Body.default_kind] at hty
  exact reads_of_fits (h g hg ty hty)

/-- C91: a message with a field of the wrong type is refused: a number for a text, bytes that are not UTF-8 for a text,
bytes for a number, and so on. -/
theorem c91_refused (k : Variant) (fs : List (Nat × Wire)) (hf : ∀ f ∈ fs, OnWire f)
    (h : ∃ f ∈ fs, ∃ ty, fieldType k f.1 = some ty ∧ ¬ ty.Fits f.2 ∧ (ty = .message → ∀ bs, f.2 ≠ .len bs)) :
    Body.decode k (encFields fs) = none := by
  rw [decode_encFields k hf]
  cases hd : (fs.map rawField).foldlM Body.merge (Body.default k) with
  | none => rfl
  | some b =>
    exfalso
    obtain ⟨⟨t, w⟩, hm, ty, hty, hn, hb⟩ := h
    have := (fold_isSome (fs.map rawField) (Body.default k)).mp (by rw [hd]; rfl) (rawField (t, w))
      (List.mem_map_of_mem hm) ty (by rw [Body.default_kind]; exact hty)
    simp only at hn hb
    cases ty <;> cases w <;> first
      | exact hn trivial
      | exact hn ((utf8_iff _).mp this)
      | exact hb rfl _ rfl
      | (cases this; done)

theorem metadata_append {x y : Bytes} (h : (Raw.metadata none (.len x)).isSome = true) (cur : Option ReservedMetadata) :
    Raw.metadata cur (.len (x ++ y)) = (Raw.metadata cur (.len x)).bind fun m => Raw.metadata (some m) (.len y) := by
  unfold Raw.metadata at h ⊢
  simp only at h ⊢
  cases hr : readFields 99 x with
  | none => rw [hr] at h; cases h
  | some fs =>
    rw [readFields_append hr]
    cases hy : readFields 99 y with
    | none =>
      simp only [Option.map]
      cases fs.foldlM ReservedMetadata.merge (cur.getD {}) <;> rfl
    | some gs =>
      simp only [Option.map, List.foldlM_append]
      rfl

/-- C91: if a fulfilment has its embedded message in two parts, they count as one, in which (by the order of its
fields) the later values win. -/
theorem c91_merged (x y : Bytes) (fs gs : List (Nat × Wire))
    (hf : ∀ f ∈ fs ++ (4, .len x) :: (4, .len y) :: gs, OnWire f) (hxy : (x ++ y).length < 2 ^ 64)
    (hx : FieldType.message.Fits (.len x)) :
    Body.decode .fulfill (encFields (fs ++ (4, .len x) :: (4, .len y) :: gs)) =
      Body.decode .fulfill (encFields (fs ++ (4, .len (x ++ y)) :: gs)) := by
  rw [decode_encFields _ hf, decode_encFields _ (by
    intro f h
    rcases List.mem_append.mp h with h | h
    · exact hf f (List.mem_append_left _ h)
    · rcases List.mem_cons.mp h with rfl | h
      · exact ⟨show 1 ≤ 4 by decide, show 4 < 2 ^ 29 by decide, hxy⟩
      · exact hf f (List.mem_append_right _ (List.mem_cons_of_mem _ (List.mem_cons_of_mem _ h))))]
  rw [List.map_append, List.map_append, List.foldlM_append, List.foldlM_append]
  cases hb : (fs.map rawField).foldlM Body.merge (Body.default .fulfill) with
  | none => rfl
  | some b =>
    have hk : b.kind = .fulfill := (Body.fold_kind hb).trans (Body.default_kind _)
    cases b <;> first | (cases hk; done) | skip
    rename_i b
    have hm := metadata_append (y := y) (reads_of_fits hx) b.reservedMetadata
    show ((4, Raw.len x) :: (4, Raw.len y) :: gs.map rawField).foldlM Body.merge (.fulfill b) =
      ((4, Raw.len (x ++ y)) :: gs.map rawField).foldlM Body.merge (.fulfill b)
    rw [List.foldlM_cons, List.foldlM_cons]
    simp only [Body.merge, FulfillBody.merge]
    rw [hm]
    cases Raw.metadata b.reservedMetadata (.len x) with
    | none => rfl
    | some m =>
      show ((4, Raw.len y) :: gs.map rawField).foldlM Body.merge (.fulfill { b with reservedMetadata := some m }) = _
      rw [List.foldlM_cons]
      simp only [Body.merge, FulfillBody.merge, Option.bind_some]

/-! ## Fields the message does not have -/

theorem skipGroup_text {d : Nat} {body : Bytes} (h : FieldsText d body) (limit f g : Nat) (t : Nat) (ts : List Nat)
    (r q : Bytes) (hd : ts.length + 1 + d < limit) (hr : skipGroup limit f (t :: ts) r = some q)
    (hg : body.length + f ≤ g) : skipGroup limit g (t :: ts) (body ++ r) = some q := by
  induction h generalizing f g t ts r q with
  | nil d =>
    have := (skipGroup_append limit f g _ r [] q (by simpa using hg) hr).1
    rwa [List.append_nil, List.append_nil] at this
  | plain d x rest hx _ ih =>
    obtain ⟨u, w⟩ := x
    obtain ⟨h1, h2, h3⟩ := onWire_sized hx
    have hl := List.length_pos_iff.mpr (encField_ne_nil (u, w))
    rw [List.length_append] at hg
    obtain ⟨g, rfl⟩ : ∃ g', g = g' + 1 := ⟨g - 1, by omega⟩
    have hs := readScalar_enc w h3 (rest ++ r)
    have hi := ih f g t ts r q hd hr (by omega)
    rw [skipGroup]
    cases w <;> simp only [encField, List.append_assoc, Wire.typ] at hs ⊢ <;>
      rw [readKey_varint h1 h2 (by omega)] <;> simp only <;>
      rw [if_neg (by omega), if_neg (by omega), if_neg (by omega), hs] <;> exact hi
  | fixed64 d u x rest h1 h2 hx _ ih =>
    have hl := List.length_pos_iff.mpr (varint_ne_nil (u * 8 + 1))
    rw [List.length_append, List.length_append] at hg
    obtain ⟨g, rfl⟩ : ∃ g', g = g' + 1 := ⟨g - 1, by omega⟩
    have hi := ih f g t ts r q hd hr (by omega)
    rw [skipGroup, List.append_assoc, readKey_varint h1 h2 (by omega)]
    simp only
    rw [if_neg (by omega), if_neg (by omega), if_neg (by omega)]
    have hb := readBytes_take x (rest ++ r)
    rw [hx] at hb
    rw [List.append_assoc]
    simp only [readScalar]
    rw [if_neg (by omega), if_pos trivial, hb]
    exact hi
  | group d u inner rest h1 h2 _ _ ih1 ih2 =>
    have hl := List.length_pos_iff.mpr (varint_ne_nil (u * 8 + 3))
    have hl4 := List.length_pos_iff.mpr (varint_ne_nil (u * 8 + 4))
    simp only [List.length_append] at hg
    obtain ⟨g, rfl⟩ : ∃ g', g = g' + 1 := ⟨g - 1, by omega⟩
    have hi := ih2 f (rest.length + f) t ts r q hd hr (Nat.le_refl _)
    rw [skipGroup, List.append_assoc, readKey_varint h1 h2 (by omega)]
    simp only
    rw [if_neg (by omega), if_neg (by omega), if_pos trivial, List.append_assoc]
    refine ih1 (rest.length + f + 1) g u (t :: ts) _ q (by simp only [List.length_cons]; omega) ?_ (by omega)
    rw [skipGroup, List.append_assoc, readKey_varint h1 h2 (by omega)]
    simp only
    rw [if_pos trivial, if_pos trivial]
    exact hi

theorem readFields_one {t : Nat} {u : Bytes} (h : OneField t u) : ∃ x, readFields 100 u = some [(t, x)] := by
  have key : ∀ x, readField 100 u = some ((t, x), []) → readFields 100 u = some [(t, x)] := fun x hx => by
    rw [readFields_cons hx]; rfl
  cases h with
  | plain w hw =>
    obtain ⟨h1, h2, h3⟩ := onWire_sized hw
    exact ⟨_, readFields_enc h1 h2 h3⟩
  | fixed64 x h1 h2 hx =>
    refine ⟨.fixed64 x, key _ ?_⟩
    unfold readField
    rw [readKey_varint h1 h2 (by omega)]
    simp only
    rw [if_neg (by omega)]
    have hb := readBytes_take x []
    rw [hx, List.append_nil] at hb
    simp only [readScalar]
    rw [if_neg (by omega), if_pos trivial, hb]
  | group inner h1 h2 hi =>
    refine ⟨.group, key _ ?_⟩
    unfold readField
    rw [readKey_varint h1 h2 (by omega)]
    simp only
    rw [if_pos trivial]
    have hl4 := List.length_pos_iff.mpr (varint_ne_nil (t * 8 + 4))
    have he : skipGroup 100 1 [t] (varint (t * 8 + 4)) = some [] := by
      have := readKey_varint h1 h2 (show 4 < 6 by omega) []
      rw [List.append_nil] at this
      rw [skipGroup, this]
      simp only
      rw [if_pos trivial, if_pos trivial, skipGroup]
    rw [skipGroup_text hi 100 1 _ t [] _ [] (by simp) he (by rw [List.length_append]; omega)]

/-- C91: a field with a tag the message does not have, wherever it is and of whatever type, changes nothing: not what
is read, and not whether something is read. (So newer senders can add fields.) -/
theorem c91_unknown (k : Variant) (t : Nat) (a u c : Bytes) (b : Body) (ht : fieldType k t = none) (hu : OneField t u)
    (ha : Body.decode k a = some b) : Body.decode k (a ++ (u ++ c)) = Body.decode k (a ++ c) := by
  unfold Body.decode at ha ⊢
  cases hr : readFields 100 a with
  | none => rw [hr] at ha; cases ha
  | some fs =>
    rw [hr] at ha
    obtain ⟨x, hx⟩ := readFields_one hu
    rw [readFields_append hr, readFields_append hr, readFields_append hx]
    cases readFields 100 c with
    | none => rfl
    | some gs =>
      simp only [Option.map]
      rw [List.foldlM_append, List.foldlM_append, show fs.foldlM Body.merge (Body.default k) = some b from ha]
      show ((t, x) :: gs).foldlM Body.merge b = gs.foldlM Body.merge b
      have hk : b.kind = k := (Body.fold_kind ha).trans (Body.default_kind k)
      rw [List.foldlM_cons, Body.merge_unknown b t x (by rw [hk]; exact ht)]
      rfl

/-! ## Cut messages -/

/-- C91: of a message that was cut off, something is read only if the cut is between two fields; in the middle of a
field, of its length or of its key it is refused. -/
theorem c91_cut (k : Variant) (fs : List (Nat × Wire)) (hf : ∀ f ∈ fs, OnWire f) (p q : Bytes) (b : Body)
    (h : encFields fs = p ++ q) (hb : Body.decode k p = some b) :
    ∃ gs hs, fs = gs ++ hs ∧ p = encFields gs ∧ q = encFields hs := by
  unfold Body.decode at hb
  cases hr : readFields 100 p with
  | none => rw [hr] at hb; cases hb
  | some l =>
    clear hb
    induction fs generalizing p l with
    | nil =>
      have h := List.append_eq_nil_iff.mp h.symm
      exact ⟨[], [], rfl, h.1, h.2⟩
    | cons f fs ih =>
      by_cases hp : p = []
      · subst hp
        exact ⟨[], f :: fs, rfl, rfl, h.symm⟩
      cases h1 : readField 100 p with
      | none => rw [readFields_none hp h1] at hr; cases hr
      | some x =>
        obtain ⟨g, r⟩ := x
        obtain ⟨e1, _, _⟩ := readField_append h1 q
        obtain ⟨s1, s2, s3⟩ := onWire_sized (hf f (List.mem_cons_self ..))
        have e2 := readField_enc (limit := 100) (t := f.1) (w := f.2) s1 s2 s3 (encFields fs)
        have e3 : encField (f.1, f.2) ++ encFields fs = p ++ q := by
          rw [← h]; unfold encFields; rw [List.flatMap_cons]
        rw [e3, e1] at e2
        have e4 : r ++ q = encFields fs := congrArg Prod.snd (Option.some.inj e2)
        rw [readFields_cons h1] at hr
        cases hs : readFields 100 r with
        | none => rw [hs] at hr; cases hr
        | some l' =>
          obtain ⟨gs, hs', e5, e6, e7⟩ := ih (fun g hg => hf g (List.mem_cons_of_mem _ hg)) r e4.symm l' hs
          refine ⟨f :: gs, hs', by rw [e5]; rfl, ?_, e7⟩
          have : p ++ q = (encField f ++ r) ++ q := by rw [← e3, ← e4, List.append_assoc]
          have := List.append_cancel_right this
          rw [this, e6]
          unfold encFields
          rw [List.flatMap_cons]

/-! ## Cases that meet the hypotheses -/

namespace DecodeCase

/-- The text `7`. -/
theorem seven : IsText [55] := ⟨['7'], by decide +kernel⟩
theorem empty : IsText [] := ⟨[], rfl⟩

/-- A request with a whitelist, an empty optional hash, an unknown mode (-1) and a private input. -/
def request : RequestBody :=
  { nonce := 300, vkHash := [1, 2], version := [55], mode := -1, whitelist := [[9], [], [8]],
    publicValuesHash := some [], maxPricePerPgu := [55], stdinPrivate := true }

example : Body.decode .request (Body.request request).encode = some (.request request) :=
  c91_round_trip (.request request)
    (by simp only [Body.strings, request, List.forall_mem_cons]
        exact ⟨seven, empty, empty, seven, fun _ h => nomatch h⟩)
    (by simp [Body.blobs, request])

/-- A fulfilment with an embedded message that has a number and one that is empty. -/
def fulfill (m : ReservedMetadata) : FulfillBody := { nonce := 1, proof := [1], reservedMetadata := some m, variant := 4 }

example : Body.decode .fulfill (Body.fulfill (fulfill ⟨some 5⟩)).encode = some (.fulfill (fulfill ⟨some 5⟩)) ∧
    Body.decode .fulfill (Body.fulfill (fulfill {})).encode = some (.fulfill (fulfill {})) :=
  ⟨c91_round_trip (.fulfill _) (by simp [Body.strings]) (by simp [Body.blobs, fulfill]),
   c91_round_trip (.fulfill _) (by simp [Body.strings]) (by simp [Body.blobs, fulfill])⟩

/-- The same transfer from other bytes: fields in another order, a value given twice, numbers with more bytes than
needed, and a group that the message does not have. All are read as the same message, which the signature check writes
in its one canonical way. -/
def transfer : TransferBody := { nonce := 1, amount := [55] }

example : Body.decode .transfer [0x08, 1, 0x1A, 1, 55] = some (.transfer transfer) ∧
    Body.decode .transfer [0x1A, 1, 55, 0x08, 1] = some (.transfer transfer) ∧
    Body.decode .transfer [0x08, 5, 0x1A, 1, 55, 0x08, 1] = some (.transfer transfer) ∧
    Body.decode .transfer [0x88, 0x80, 0, 0x81, 0, 0x1A, 1, 55] = some (.transfer transfer) ∧
    Body.decode .transfer [0x08, 1, 0x43, 0x4B, 0x08, 1, 0x4C, 0x44, 0x1A, 1, 55] = some (.transfer transfer) ∧
    Body.decode .transfer [0x08, 1, 0x1A, 1, 0xFF] = none ∧ Body.decode .transfer [0x08, 1, 0x18, 1] = none ∧
    Body.decode .transfer [0x08, 1, 0x1A, 2, 55] = none ∧ Body.decode .transfer [0x44] = none := by decide +kernel

/-- `c91_passed_on`. -/
example : Body.decode .transfer (Body.transfer transfer).encode = some (.transfer transfer) :=
  (c91_passed_on .transfer [0x88, 0x80, 0, 0x81, 0, 0x1A, 1, 55] _ (by decide) (by decide +kernel)).2.2

/-- `c91_order`. -/
example : Body.decode .transfer (encFields [(3, .len [55]), (1, .varint 1)]) =
    Body.decode .transfer (encFields [(1, .varint 1), (3, .len [55])]) :=
  c91_order .transfer _ _ (by simp [OnWire]) (by simp [OnWire]) (fun t => by
    by_cases h1 : 1 = t
    · subst h1; rfl
    · by_cases h3 : 3 = t
      · subst h3; rfl
      · simp [h1, h3])

/-- `c91_last`. -/
example : Body.decode .transfer (encFields ([(3, .len [55])] ++ (1, .varint 9) :: [(2, .len []), (1, .varint 1)])) =
    Body.decode .transfer (encFields ([(3, .len [55])] ++ [(2, .len []), (1, .varint 1)])) :=
  c91_last .transfer 1 (.varint 9) _ _ ⟨by decide, by decide⟩ (by simp [OnWire]) (fun ty h => by cases h; trivial)
    ⟨(1, .varint 1), by simp, rfl⟩

/-- `c91_unknown`: a group with a group with a number in it, which a transfer does not have. -/
example : OneField 8 [0x43, 0x4B, 0x08, 1, 0x4C, 0x44] :=
  OneField.group (t := 8) [0x4B, 0x08, 1, 0x4C] (by decide) (by decide)
    (FieldsText.group 97 9 [0x08, 1] [] (by decide) (by decide)
      (FieldsText.plain 97 (1, .varint 1) [] (by simp [OnWire]) (.nil 97)) (.nil 98))

/-- `c91_accepted` and `c91_refused`. -/
example : (∃ b, Body.decode .fulfill (encFields [(4, .len (encFields [(1, .fixed32 7), (2, .varint 3)])), (4, .len [])]) =
      some b) ∧
    Body.decode .fulfill (encFields [(1, .varint 1), (4, .varint 3)]) = none :=
  ⟨c91_accepted .fulfill _ (by simp [OnWire, encFields, encField, le32_length, varint, varintAux]) (by
      intro f hf ty hty
      simp only [List.mem_cons, List.not_mem_nil, or_false] at hf
      rcases hf with rfl | rfl <;> cases hty
      · exact ⟨_, rfl, by simp [OnWire]⟩
      · exact ⟨[], rfl, fun g hg => nomatch hg⟩),
   c91_refused .fulfill _ (by simp [OnWire]) ⟨(4, .varint 3), by simp, .message, rfl, fun h => h, fun _ bs h => nomatch h⟩⟩

/-- `c91_merged`: an embedded message in two parts, the first with a number, the second without. -/
example : Body.decode .fulfill (encFields ([] ++ (4, .len [13, 7, 0, 0, 0]) :: (4, .len []) :: [])) =
    some (.fulfill { reservedMetadata := some ⟨some 7⟩ }) :=
  (c91_merged [13, 7, 0, 0, 0] [] [] [] (by simp [OnWire]) (by decide)
    ⟨[(1, .fixed32 7)], by decide +kernel, by simp [OnWire]⟩).trans (by decide +kernel)

/-- `c91_cut`: the transfer above, cut after its first field. -/
example : encFields [(1, .varint 1), (3, .len [55])] = [0x08, 1] ++ [0x1A, 1, 55] ∧
    Body.decode .transfer [0x08, 1] = some (.transfer { nonce := 1 }) ∧
    Body.decode .transfer [0x08] = none ∧ Body.decode .transfer [0x08, 1, 0x1A] = none ∧
    Body.decode .transfer [0x08, 1, 0x1A, 1] = none := by decide +kernel

/-- Kinds are not recognised in reading: an execution that declares its kind, read as a bid, can be a bid that declares
its kind. Its signature does not count for the bid, because it is checked on the bytes the bid is written with (C31). -/
example : Body.decode .bid (Body.execute { nonce := 1, publicValuesHash := some [7], pgus := some 1, variant := 3 }).encode =
    some (.bid { nonce := 1, domain := [7], variant := 1 }) := by decide +kernel

/-! The messages of the tests in `crates/vapp/src/signing.rs:70-175`, bytes that the real code has read: the model reads
them, and writes them back byte for byte. -/

/-- The request message of the tests. -/
def requestBytes : Bytes :=
    [8, 1, 18, 32, 0, 0, 0, 0, 0, 0, 0, 0, 0, 0, 0, 0, 0, 0, 0, 0, 0, 0, 0, 0, 0, 0, 0, 0, 0, 0, 0, 0, 0, 0, 0, 0,
     26, 10, 115, 112, 49, 45, 118, 51, 46, 48, 46, 48, 32, 2, 40, 3, 50, 73, 115, 51, 58, 47, 47, 115, 112, 110,
     45, 97, 114, 116, 105, 102, 97, 99, 116, 115, 45, 112, 114, 111, 100, 117, 99, 116, 105, 111, 110, 51, 47,
     115, 116, 100, 105, 110, 115, 47, 97, 114, 116, 105, 102, 97, 99, 116, 95, 48, 49, 106, 113, 99, 103, 116,
     106, 114, 55, 101, 115, 56, 56, 51, 97, 109, 107, 120, 51, 48, 115, 113, 107, 103, 57, 56, 232, 7, 64, 232, 7,
     72, 144, 78]

/-- The bid message of the tests. -/
def bidBytes : Bytes :=
    [18, 32, 163, 172, 52, 212, 212, 157, 185, 152, 78, 195, 233, 101, 120, 80, 53, 145, 235, 65, 78, 220, 217,
     196, 246, 251, 134, 90, 143, 111, 141, 129, 147, 122]

/-- The settle message of the tests. -/
def settleBytes : Bytes :=
    [18, 32, 163, 172, 52, 212, 212, 157, 185, 152, 78, 195, 233, 101, 120, 80, 53, 145, 235, 65, 78, 220, 217,
     196, 246, 251, 134, 90, 143, 111, 141, 129, 147, 122]

/-- The execute message of the tests. -/
def executeBytes : Bytes :=
    [8, 155, 2, 18, 32, 58, 211, 187, 8, 187, 83, 234, 167, 34, 126, 85, 201, 147, 17, 182, 31, 87, 10, 32, 31,
     241, 158, 152, 85, 18, 209, 33, 61, 176, 247, 212, 233, 24, 2, 34, 32, 192, 169, 223, 254, 54, 137, 45, 18,
     217, 81, 96, 86, 245, 120, 131, 171, 246, 153, 133, 220, 41, 239, 218, 87, 39, 20, 198, 27, 24, 74, 202, 123,
     40, 196, 164, 254, 109, 48, 243, 217, 202, 159, 1]

/-- The fulfill message of the tests. -/
def fulfillBytes : Bytes :=
    [8, 1, 18, 32, 163, 172, 52, 212, 212, 157, 185, 152, 78, 195, 233, 101, 120, 80, 53, 145, 235, 65, 78, 220,
     217, 196, 246, 251, 134, 90, 143, 111, 141, 129, 147, 122, 26, 100, 0, 0, 0, 0, 0, 0, 0, 0, 0, 0, 0, 0, 0, 0,
     0, 0, 0, 0, 0, 0, 0, 0, 0, 0, 0, 0, 0, 0, 0, 0, 0, 0, 0, 0, 0, 0, 0, 0, 0, 0, 0, 0, 0, 0, 0, 0, 0, 0, 0, 0, 0,
     0, 0, 0, 0, 0, 0, 0, 0, 0, 0, 0, 0, 0, 0, 0, 0, 0, 0, 0, 0, 0, 0, 0, 0, 0, 0, 0, 0, 0, 0, 0, 0, 0, 0, 0, 0, 0,
     0, 0, 0, 0, 0, 0, 0, 0, 0, 0, 0, 0]

/-- Read and written back. -/
def again (k : Variant) (bs : Bytes) : Option Bytes := (Body.decode k bs).map Body.encode

example : again .request requestBytes = some requestBytes ∧
    again .bid bidBytes = some bidBytes ∧
    again .settle settleBytes = some settleBytes ∧
    again .execute executeBytes = some executeBytes ∧
    again .fulfill fulfillBytes = some fulfillBytes := by decide +kernel

example : Body.decode .execute executeBytes = some (.execute
    { nonce := 283, requestId := (executeBytes.drop 5).take 32, executionStatus := 2,
      publicValuesHash := some ((executeBytes.drop 41).take 32), cycles := some 230658628, pgus := some 334671091 }) := by
  decide +kernel

end DecodeCase

end Verif
