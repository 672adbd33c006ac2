import Verif.DecodeFields
import Verif.Utf8
/-
# Reading messages of any kind
-/

namespace Verif

theorem map_bind_map {α γ : Type} (a c : α → Option α) (F : α → γ) (b : α) (m : γ → Option γ) (k : γ → Option γ)
    (hm : ∀ b, m (F b) = (a b).map F) (hk : ∀ b, k (F b) = (c b).map F) :
    ((a b).map F).bind k = ((a b).bind c).map F ∧ ((c b).map F).bind m = ((c b).bind a).map F := by
  constructor
  · cases a b with
    | none => rfl
    | some x => exact hk x
  · cases c b with
    | none => rfl
    | some x => exact hm x

theorem Body.merge_comm (b : Body) (f g : Nat × Raw) (h : f.1 ≠ g.1) :
    (b.merge f).bind (·.merge g) = (b.merge g).bind (·.merge f) := by
  have key : ∀ {α : Type} (M : α → Nat × Raw → Option α) (F : α → Body)
      (hF : ∀ x f, Body.merge (F x) f = (M x f).map F)
      (hc : ∀ x, (M x f).bind (M · g) = (M x g).bind (M · f)) (x : α),
      (Body.merge (F x) f).bind (·.merge g) = (Body.merge (F x) g).bind (·.merge f) := by
    intro α M F hF hc x
    rw [hF, hF, (map_bind_map (M · f) (M · g) F x (·.merge f) (·.merge g) (hF · f) (hF · g)).1,
      (map_bind_map (M · f) (M · g) F x (·.merge f) (·.merge g) (hF · f) (hF · g)).2, hc x]
  cases b with
  | delegate x => exact key _ .delegate (fun _ _ => rfl) (fun x => DelegateBody.merge_comm x f g h) x
  | transfer x => exact key _ .transfer (fun _ _ => rfl) (fun x => TransferBody.merge_comm x f g h) x
  | withdraw x => exact key _ .withdraw (fun _ _ => rfl) (fun x => WithdrawBody.merge_comm x f g h) x
  | request x => exact key _ .request (fun _ _ => rfl) (fun x => RequestBody.merge_comm x f g h) x
  | bid x => exact key _ .bid (fun _ _ => rfl) (fun x => BidBody.merge_comm x f g h) x
  | settle x => exact key _ .settle (fun _ _ => rfl) (fun x => SettleBody.merge_comm x f g h) x
  | execute x => exact key _ .execute (fun _ _ => rfl) (fun x => ExecuteBody.merge_comm x f g h) x
  | fulfill x => exact key _ .fulfill (fun _ _ => rfl) (fun x => FulfillBody.merge_comm x f g h) x

theorem Body.merge_kind {b b' : Body} {f : Nat × Raw} (h : b.merge f = some b') : b'.kind = b.kind := by
  cases b <;> simp only [Body.merge, Option.map_eq_some_iff] at h <;> obtain ⟨x, _, rfl⟩ := h <;> rfl

theorem Body.fold_kind {fs : List (Nat × Raw)} {b b' : Body} (h : fs.foldlM Body.merge b = some b') :
    b'.kind = b.kind := by
  induction fs generalizing b with
  | nil => cases h; rfl
  | cons f fs ih =>
    rw [List.foldlM_cons] at h
    cases hm : b.merge f with
    | none => rw [hm] at h; cases h
    | some x =>
      rw [hm] at h
      rw [ih h, Body.merge_kind hm]

theorem Body.default_kind (k : Variant) : (Body.default k).kind = k := by cases k <;> rfl

theorem Body.merge_last {b b' : Body} {t : Nat} {x : Raw} (hs : singular b.kind t) (h : b.merge (t, x) = some b')
    (y : Raw) : b'.merge (t, y) = b.merge (t, y) := by
  cases b <;> simp only [Body.merge, Option.map_eq_some_iff] at h <;> obtain ⟨z, hz, rfl⟩ := h
  case delegate b => exact congrArg (Option.map Body.delegate) (DelegateBody.merge_last b z t x y hz)
  case transfer b => exact congrArg (Option.map Body.transfer) (TransferBody.merge_last b z t x y hz)
  case withdraw b => exact congrArg (Option.map Body.withdraw) (WithdrawBody.merge_last b z t x y hz)
  case request b => exact congrArg (Option.map Body.request) (RequestBody.merge_last b z t x y (hs.1 rfl) hz)
  case bid b => exact congrArg (Option.map Body.bid) (BidBody.merge_last b z t x y hz)
  case settle b => exact congrArg (Option.map Body.settle) (SettleBody.merge_last b z t x y hz)
  case execute b => exact congrArg (Option.map Body.execute) (ExecuteBody.merge_last b z t x y hz)
  case fulfill b => exact congrArg (Option.map Body.fulfill) (FulfillBody.merge_last b z t x y (hs.2 rfl) hz)

theorem Body.merge_type (b : Body) (t : Nat) (x : Raw) :
    (b.merge (t, x)).isSome = match fieldType b.kind t with
      | none => true
      | some ty => ty.reads x := by
  cases b <;> simp only [Body.merge, Body.kind, Option.isSome_map]
  case delegate b => exact b.merge_type t x
  case transfer b => exact b.merge_type t x
  case withdraw b => exact b.merge_type t x
  case request b => exact b.merge_type t x
  case bid b => exact b.merge_type t x
  case settle b => exact b.merge_type t x
  case execute b => exact b.merge_type t x
  case fulfill b => exact b.merge_type t x

theorem Body.merge_unknown (b : Body) (t : Nat) (x : Raw) (h : fieldType b.kind t = none) :
    b.merge (t, x) = some b := by
  cases b <;> simp only [Body.merge, Body.kind] at h ⊢
  case delegate b => rcases DelegateBody.merge_cases (t, x) with h1 | h1 | h1 | h1 | h1 | h1 | h1 | h1 <;> first | (rw [h1]; rfl) | (simp only at h1; subst h1; cases h)
  case transfer b => rcases TransferBody.merge_cases (t, x) with h1 | h1 | h1 | h1 | h1 | h1 | h1 | h1 <;> first | (rw [h1]; rfl) | (simp only at h1; subst h1; cases h)
  case withdraw b => rcases WithdrawBody.merge_cases (t, x) with h1 | h1 | h1 | h1 | h1 | h1 | h1 | h1 <;> first | (rw [h1]; rfl) | (simp only at h1; subst h1; cases h)
  case request b => rcases RequestBody.merge_cases (t, x) with h1 | h1 | h1 | h1 | h1 | h1 | h1 | h1 | h1 | h1 | h1 | h1 | h1 | h1 | h1 | h1 | h1 | h1 | h1 | h1 | h1 | h1 <;> first | (rw [h1]; rfl) | (simp only at h1; subst h1; cases h)
  case bid b => rcases BidBody.merge_cases (t, x) with h1 | h1 | h1 | h1 | h1 | h1 | h1 <;> first | (rw [h1]; rfl) | (simp only at h1; subst h1; cases h)
  case settle b => rcases SettleBody.merge_cases (t, x) with h1 | h1 | h1 | h1 | h1 | h1 <;> first | (rw [h1]; rfl) | (simp only at h1; subst h1; cases h)
  case execute b => rcases ExecuteBody.merge_cases (t, x) with h1 | h1 | h1 | h1 | h1 | h1 | h1 | h1 | h1 | h1 | h1 <;> first | (rw [h1]; rfl) | (simp only at h1; subst h1; cases h)
  case fulfill b => rcases FulfillBody.merge_cases (t, x) with h1 | h1 | h1 | h1 | h1 | h1 | h1 <;> first | (rw [h1]; rfl) | (simp only at h1; subst h1; cases h)

theorem Body.merge_clean {n : Nat} {b b' : Body} {f : Nat × Raw} (hf : f.2.Fits n) (h : b.merge f = some b')
    (hb : (∀ s ∈ b.strings, utf8 s = true) ∧ ∀ x ∈ b.blobs, x.length ≤ n) :
    (∀ s ∈ b'.strings, utf8 s = true) ∧ ∀ x ∈ b'.blobs, x.length ≤ n := by
  cases b <;> simp only [Body.merge, Option.map_eq_some_iff] at h <;> obtain ⟨z, hz, rfl⟩ := h
  case delegate b => exact b.merge_clean z f hf hz hb
  case transfer b => exact b.merge_clean z f hf hz hb
  case withdraw b => exact b.merge_clean z f hf hz hb
  case request b => exact b.merge_clean z f hf hz hb
  case bid b => exact b.merge_clean z f hf hz hb
  case settle b => exact b.merge_clean z f hf hz hb
  case execute b => exact b.merge_clean z f hf hz hb
  case fulfill b => exact b.merge_clean z f hf hz hb

theorem Body.fold_clean {n : Nat} {fs : List (Nat × Raw)} (hf : ∀ f ∈ fs, f.2.Fits n) {b b' : Body}
    (h : fs.foldlM Body.merge b = some b') (hb : (∀ s ∈ b.strings, utf8 s = true) ∧ ∀ x ∈ b.blobs, x.length ≤ n) :
    (∀ s ∈ b'.strings, utf8 s = true) ∧ ∀ x ∈ b'.blobs, x.length ≤ n := by
  induction fs generalizing b with
  | nil => cases h; exact hb
  | cons f fs ih =>
    rw [List.foldlM_cons] at h
    cases hm : b.merge f with
    | none => rw [hm] at h; cases h
    | some x =>
      rw [hm] at h
      exact ih (fun g hg => hf g (List.mem_cons_of_mem _ hg)) h
        (Body.merge_clean (hf f (List.mem_cons_self ..)) hm hb)

theorem Body.sized (b : Body) (h : ∀ x ∈ b.blobs, x.length < 2 ^ 64) :
    ∀ f ∈ b.fields, 1 ≤ f.1 ∧ f.1 < 2 ^ 29 ∧ f.2.Sized := by
  cases b with
  | delegate b => exact b.sized h
  | transfer b => exact b.sized h
  | withdraw b => exact b.sized h
  | request b => exact b.sized h
  | bid b => exact b.sized h
  | settle b => exact b.sized h
  | execute b => exact b.sized h
  | fulfill b => exact b.sized h

theorem fold_map {α : Type} (M : α → Nat × Raw → Option α) (F : α → Body)
    (hF : ∀ x f, Body.merge (F x) f = (M x f).map F) (fs : List (Nat × Raw)) (x : α) :
    fs.foldlM Body.merge (F x) = (fs.foldlM M x).map F := by
  induction fs generalizing x with
  | nil => rfl
  | cons f fs ih =>
    rw [List.foldlM_cons, List.foldlM_cons, hF]
    cases M x f with
    | none => rfl
    | some y => exact ih y

theorem Body.merge_fields (b : Body) (h : ∀ s ∈ b.strings, utf8 s = true) :
    (b.fields.map rawField).foldlM Body.merge (Body.default b.kind) = some b := by
  cases b <;> simp only [Body.strings, List.forall_mem_cons] at h
  case delegate b =>
    exact (fold_map _ .delegate (fun _ _ => rfl) _ _).trans (congrArg _ (b.merge_fields h.1))
  case transfer b =>
    exact (fold_map _ .transfer (fun _ _ => rfl) _ _).trans (congrArg _ (b.merge_fields h.1 h.2.1))
  case withdraw b =>
    exact (fold_map _ .withdraw (fun _ _ => rfl) _ _).trans (congrArg _ (b.merge_fields h.1 h.2.1))
  case request b =>
    exact (fold_map _ .request (fun _ _ => rfl) _ _).trans
      (congrArg _ (b.merge_fields h.1 h.2.1 h.2.2.1 h.2.2.2.1))
  case bid b => exact (fold_map _ .bid (fun _ _ => rfl) _ _).trans (congrArg _ (b.merge_fields h.1))
  case settle b => exact (fold_map _ .settle (fun _ _ => rfl) _ _).trans (congrArg _ b.merge_fields)
  case execute b =>
    exact (fold_map _ .execute (fun _ _ => rfl) _ _).trans
      (congrArg _ (b.merge_fields (fun v hv => h v (by rw [hv]; exact List.mem_singleton.mpr rfl))))
  case fulfill b => exact (fold_map _ .fulfill (fun _ _ => rfl) _ _).trans (congrArg _ b.merge_fields)

/-! ## Orders of fields -/

theorem fold_none {fs : List (Nat × Raw)} {b : Body} {f : Nat × Raw} (h : b.merge f = none) :
    (f :: fs).foldlM Body.merge b = none := by
  rw [List.foldlM_cons, h]; rfl

/-- A field can be moved in front of fields with other tags. -/
theorem fold_front (f : Nat × Raw) (gs hs : List (Nat × Raw)) (b : Body) (h : ∀ g ∈ gs, g.1 ≠ f.1) :
    (gs ++ f :: hs).foldlM Body.merge b = (f :: gs ++ hs).foldlM Body.merge b := by
  induction gs generalizing b with
  | nil => rfl
  | cons g gs ih =>
    have hc := Body.merge_comm b g f (h g (List.mem_cons_self ..))
    rw [List.cons_append, List.foldlM_cons, List.cons_append, List.cons_append, List.foldlM_cons]
    have e1 : ∀ b' : Body, (gs ++ f :: hs).foldlM Body.merge b' = (b'.merge f).bind
        fun b' => (gs ++ hs).foldlM Body.merge b' := fun b' => by
      rw [ih b' (fun x hx => h x (List.mem_cons_of_mem _ hx)), List.cons_append, List.foldlM_cons]
      rfl
    show (b.merge g).bind _ = (b.merge f).bind _
    have e2 : (b.merge g).bind (fun b' => (gs ++ f :: hs).foldlM Body.merge b') =
        ((b.merge g).bind (·.merge f)).bind fun b' => (gs ++ hs).foldlM Body.merge b' := by
      cases b.merge g with
      | none => rfl
      | some x => exact e1 x
    rw [e2, hc]
    cases b.merge f with
    | none => rfl
    | some x =>
      show (x.merge g).bind _ = (g :: (gs ++ hs)).foldlM Body.merge x
      rw [List.foldlM_cons]
      rfl

/-- The payloads with a tag, in order. -/
def atTag (t : Nat) (fs : List (Nat × Raw)) : List Raw := (fs.filter (·.1 = t)).map (·.2)

theorem atTag_cons_self (t : Nat) (x : Raw) (fs : List (Nat × Raw)) : atTag t ((t, x) :: fs) = x :: atTag t fs := by
  simp [atTag]

theorem split_at_tag {t : Nat} {x : Raw} {xs : List Raw} {fs : List (Nat × Raw)} (h : atTag t fs = x :: xs) :
    ∃ gs hs, fs = gs ++ (t, x) :: hs ∧ (∀ g ∈ gs, g.1 ≠ t) ∧ atTag t hs = xs := by
  induction fs with
  | nil => cases h
  | cons f fs ih =>
    obtain ⟨u, y⟩ := f
    by_cases hu : u = t
    · subst hu
      rw [atTag_cons_self] at h
      cases h
      exact ⟨[], fs, rfl, fun g hg => (nomatch hg), rfl⟩
    · have e : atTag t ((u, y) :: fs) = atTag t fs := by simp [atTag, hu]
      rw [e] at h
      obtain ⟨gs, hs, rfl, h1, h2⟩ := ih h
      refine ⟨(u, y) :: gs, hs, rfl, ?_, h2⟩
      intro g hg
      rcases List.mem_cons.mp hg with rfl | hg
      · exact hu
      · exact h1 g hg

theorem atTag_append (t : Nat) (fs gs : List (Nat × Raw)) : atTag t (fs ++ gs) = atTag t fs ++ atTag t gs := by
  simp [atTag]

/-- Only the order among the values of one field matters. -/
theorem fold_order (fs gs : List (Nat × Raw)) (b : Body) (h : ∀ t, atTag t fs = atTag t gs) :
    fs.foldlM Body.merge b = gs.foldlM Body.merge b := by
  induction fs generalizing gs b with
  | nil =>
    cases gs with
    | nil => rfl
    | cons g gs =>
      have := h g.1
      rw [show g = (g.1, g.2) from rfl, atTag_cons_self] at this
      cases this
  | cons f fs ih =>
    obtain ⟨t, x⟩ := f
    have ht := h t
    rw [atTag_cons_self] at ht
    obtain ⟨g1, g2, rfl, h1, h2⟩ := split_at_tag ht.symm
    rw [fold_front (t, x) g1 g2 b h1, List.cons_append, List.foldlM_cons, List.foldlM_cons]
    have e : ∀ b' : Body, fs.foldlM Body.merge b' = (g1 ++ g2).foldlM Body.merge b' := fun b' => by
      apply ih
      intro u
      have hu := h u
      by_cases hut : u = t
      · subst hut
        have h0 : atTag u g1 = [] := by
          unfold atTag
          rw [List.filter_eq_nil_iff.mpr (fun g hg => by simpa using h1 g hg)]
          rfl
        rw [atTag_append, h0, h2]
        rfl
      · have e1 : ∀ l, atTag u ((t, x) :: l) = atTag u l := fun l => by
          have : ¬ t = u := fun h => hut h.symm
          simp [atTag, this]
        rw [e1, atTag_append, e1] at hu
        rw [hu, atTag_append]
    cases b.merge (t, x) with
    | none => rfl
    | some b' => exact e b'

/-- A value of a singular field that is followed by another value of it has no effect. -/
theorem fold_last (t : Nat) (x y : Raw) (gs hs : List (Nat × Raw)) (b b' : Body) (hs' : singular b.kind t)
    (h : b.merge (t, x) = some b') (hg : ∀ g ∈ gs, g.1 ≠ t) :
    ((t, x) :: (gs ++ (t, y) :: hs)).foldlM Body.merge b = (gs ++ (t, y) :: hs).foldlM Body.merge b := by
  rw [List.foldlM_cons, h]
  show (gs ++ (t, y) :: hs).foldlM Body.merge b' = _
  rw [fold_front (t, y) gs hs b' hg, fold_front (t, y) gs hs b hg, List.cons_append, List.foldlM_cons,
    List.foldlM_cons, Body.merge_last hs' h y]

theorem fold_isSome (fs : List (Nat × Raw)) (b : Body) : (fs.foldlM Body.merge b).isSome = true ↔
    ∀ f ∈ fs, ∀ ty, fieldType b.kind f.1 = some ty → ty.reads f.2 = true := by
  induction fs generalizing b with
  | nil => exact ⟨fun _ f hf => (nomatch hf), fun _ => rfl⟩
  | cons f fs ih =>
    obtain ⟨t, x⟩ := f
    rw [List.foldlM_cons, List.forall_mem_cons]
    have ht := Body.merge_type b t x
    cases hm : b.merge (t, x) with
    | none =>
      rw [hm] at ht
      refine ⟨fun h => (nomatch h), fun h => ?_⟩
      exfalso
      cases hf : fieldType b.kind t with
      | none => rw [hf] at ht; cases ht
      | some ty =>
        rw [hf] at ht
        have h1 := h.1 ty hf
        simp only at h1 ht
        rw [h1] at ht
        cases ht
    | some b' =>
      rw [hm] at ht
      show (fs.foldlM Body.merge b').isSome = true ↔ _
      rw [ih b', Body.merge_kind hm]
      refine ⟨fun h => ⟨fun ty hty => ?_, h⟩, fun h => h.2⟩
      simp only at hty
      rw [hty] at ht
      exact ht.symm

end Verif
