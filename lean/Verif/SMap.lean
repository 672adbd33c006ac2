/-
# Ordered finite maps

Models Rust's `BTreeMap<U256, V>` (`crates/vapp/src/merkle.rs:34`, `crates/vapp/src/sparse.rs:26`)
as a strictly sorted association list. Keys are the natural-number value of the `U256` index.
-/

namespace Verif

/-- `BTreeMap<U256, V>`: an association list in strictly increasing key order. -/
structure SMap (V : Type) where
  list : List (Nat × V)
  sorted : list.Pairwise (fun a b => a.1 < b.1)

namespace SMap

variable {V : Type}

/-- Lookup in a sorted list. -/
def lget : List (Nat × V) → Nat → Option V
  | [], _ => none
  | (k', v) :: l, k => if k = k' then some v else lget l k

/-- Insertion in a sorted list. -/
def lins (k : Nat) (v : V) : List (Nat × V) → List (Nat × V)
  | [] => [(k, v)]
  | (k', v') :: l =>
    if k < k' then (k, v) :: (k', v') :: l
    else if k = k' then (k, v) :: l
    else (k', v') :: lins k v l

theorem lins_keys (k : Nat) (v : V) (l : List (Nat × V)) (x : Nat × V)
    (h : x ∈ lins k v l) : x = (k, v) ∨ x ∈ l := by
  induction l with
  | nil => simpa [lins] using h
  | cons y l ih =>
    obtain ⟨k', v'⟩ := y
    simp only [lins] at h
    split at h
    · simpa using h
    · split at h
      · simp only [List.mem_cons] at h ⊢
        rcases h with h | h
        · exact .inl h
        · exact .inr (.inr h)
      · simp only [List.mem_cons] at h ⊢
        rcases h with h | h
        · exact .inr (.inl h)
        · rcases ih h with h | h
          · exact .inl h
          · exact .inr (.inr h)

theorem lins_sorted (k : Nat) (v : V) (l : List (Nat × V))
    (h : l.Pairwise (fun a b => a.1 < b.1)) : (lins k v l).Pairwise (fun a b => a.1 < b.1) := by
  induction l with
  | nil => simp [lins]
  | cons y l ih =>
    obtain ⟨k', v'⟩ := y
    rw [List.pairwise_cons] at h
    simp only [lins]
    split
    · rename_i hlt
      rw [List.pairwise_cons]
      refine ⟨?_, by rw [List.pairwise_cons]; exact h⟩
      intro a ha
      rcases List.mem_cons.mp ha with rfl | ha
      · exact hlt
      · exact Nat.lt_trans hlt (h.1 a ha)
    · split
      · rename_i _ heq
        rw [List.pairwise_cons]
        exact ⟨fun a ha => heq ▸ h.1 a ha, h.2⟩
      · rw [List.pairwise_cons]
        refine ⟨?_, ih h.2⟩
        intro a ha
        rcases lins_keys _ _ _ _ ha with rfl | ha
        · show k' < k; omega
        · exact h.1 a ha

/-- `BTreeMap::new`. -/
def empty : SMap V := ⟨[], List.Pairwise.nil⟩

/-- `BTreeMap::get`. -/
def get? (m : SMap V) (k : Nat) : Option V := lget m.list k

/-- `BTreeMap::insert`. -/
def insert (m : SMap V) (k : Nat) (v : V) : SMap V := ⟨lins k v m.list, lins_sorted k v _ m.sorted⟩

/-- `BTreeMap::is_empty`. -/
def isEmpty (m : SMap V) : Bool := m.list.isEmpty

/-- Sum of a measure over all stored values (specification helper). -/
def sum (f : V → Nat) (m : SMap V) : Nat := (m.list.map (fun p => f p.2)).sum

@[simp] theorem get?_empty (k : Nat) : (empty : SMap V).get? k = none := rfl

theorem lget_lins (k : Nat) (v : V) (l : List (Nat × V)) (j : Nat) :
    lget (lins k v l) j = if j = k then some v else lget l j := by
  induction l with
  | nil => simp [lins, lget]
  | cons y l ih =>
    obtain ⟨k', v'⟩ := y
    simp only [lins]
    split
    · simp only [lget]
    · split
      · rename_i heq
        subst heq
        simp only [lget]
        split <;> simp_all
      · simp only [lget, ih]
        split <;> split <;> simp_all

@[simp] theorem get?_insert (m : SMap V) (k : Nat) (v : V) (j : Nat) :
    (m.insert k v).get? j = if j = k then some v else m.get? j := lget_lins k v m.list j

theorem get?_insert_self (m : SMap V) (k : Nat) (v : V) : (m.insert k v).get? k = some v := by simp

theorem get?_insert_ne (m : SMap V) {k j : Nat} (v : V) (h : j ≠ k) :
    (m.insert k v).get? j = m.get? j := by simp [h]

theorem lget_mem (l : List (Nat × V)) (k : Nat) (v : V) (h : lget l k = some v) : (k, v) ∈ l := by
  induction l with
  | nil => simp [lget] at h
  | cons y l ih =>
    obtain ⟨k', v'⟩ := y
    simp only [lget] at h
    split at h
    · simp_all
    · exact List.mem_cons_of_mem _ (ih h)

theorem lget_of_mem (l : List (Nat × V)) (hs : l.Pairwise (fun a b => a.1 < b.1)) (k : Nat) (v : V)
    (h : (k, v) ∈ l) : lget l k = some v := by
  induction l with
  | nil => simp at h
  | cons y l ih =>
    obtain ⟨k', v'⟩ := y
    rw [List.pairwise_cons] at hs
    simp only [lget]
    rcases List.mem_cons.mp h with h | h
    · simp_all
    · have := hs.1 _ h
      simp only at this
      rw [if_neg (by omega)]
      exact ih hs.2 h

theorem get?_eq_some_iff (m : SMap V) (k : Nat) (v : V) : m.get? k = some v ↔ (k, v) ∈ m.list :=
  ⟨lget_mem _ _ _, lget_of_mem _ m.sorted _ _⟩

theorem lget_none_of_lt (l : List (Nat × V)) (k : Nat) (h : ∀ x ∈ l, k < x.1) : lget l k = none := by
  induction l with
  | nil => rfl
  | cons y l ih =>
    obtain ⟨k', v'⟩ := y
    have h1 := h (k', v') (by simp)
    simp only at h1
    simp only [lget]
    rw [if_neg (by omega)]
    exact ih (fun x hx => h x (List.mem_cons_of_mem _ hx))

theorem lext (l l' : List (Nat × V)) (hs : l.Pairwise (fun a b => a.1 < b.1))
    (hs' : l'.Pairwise (fun a b => a.1 < b.1)) (h : ∀ k, lget l k = lget l' k) : l = l' := by
  induction l generalizing l' with
  | nil =>
    cases l' with
    | nil => rfl
    | cons y l' =>
      obtain ⟨k', v'⟩ := y
      have := h k'
      simp [lget] at this
  | cons x l ih =>
    obtain ⟨k, v⟩ := x
    rw [List.pairwise_cons] at hs
    cases l' with
    | nil =>
      have := h k
      simp [lget] at this
    | cons y l' =>
      obtain ⟨k', v'⟩ := y
      rw [List.pairwise_cons] at hs'
      have hk : k = k' := by
        apply Nat.le_antisymm
        · have h1 := h k'
          simp only [lget, if_true] at h1
          split at h1
          · omega
          · have := hs.1 _ (lget_mem _ _ _ h1); simp only at this; omega
        · have h1 := h k
          simp only [lget, if_true] at h1
          split at h1
          · omega
          · have := hs'.1 _ (lget_mem _ _ _ h1.symm); simp only at this; omega
      subst hk
      have hv : v = v' := by have := h k; simpa [lget] using this
      subst hv
      have : l = l' := by
        apply ih l' hs.2 hs'.2
        intro j
        have hj := h j
        simp only [lget] at hj
        split at hj
        · rename_i heq
          subst heq
          rw [lget_none_of_lt _ _ (fun x hx => hs.1 x hx), lget_none_of_lt _ _ (fun x hx => hs'.1 x hx)]
        · exact hj
      rw [this]

/-- Maps are determined by their lookups. -/
theorem ext {m m' : SMap V} (h : ∀ k, m.get? k = m'.get? k) : m = m' := by
  obtain ⟨l, hs⟩ := m
  obtain ⟨l', hs'⟩ := m'
  have := lext l l' hs hs' h
  subst this
  rfl

theorem insert_insert (m : SMap V) (k : Nat) (v w : V) :
    (m.insert k v).insert k w = m.insert k w := by
  apply ext; intro j; simp only [get?_insert]; split <;> rfl

theorem insert_comm (m : SMap V) {k j : Nat} (v w : V) (h : k ≠ j) :
    (m.insert k v).insert j w = (m.insert j w).insert k v := by
  apply ext; intro i; simp only [get?_insert]; split <;> split <;> simp_all

theorem insert_get? (m : SMap V) (k : Nat) (v : V) (h : m.get? k = some v) : m.insert k v = m := by
  apply ext; intro j; simp only [get?_insert]; split <;> simp_all

theorem isEmpty_iff (m : SMap V) : m.isEmpty = true ↔ ∀ k, m.get? k = none := by
  constructor
  · intro h k
    have : m.list = [] := by simpa [isEmpty] using h
    simp [get?, this, lget]
  · intro h
    have : m = empty := ext (fun k => by rw [h k]; rfl)
    rw [this]; rfl

theorem lsum_lins (f : V → Nat) (k : Nat) (v : V) (l : List (Nat × V))
    (hs : l.Pairwise (fun a b => a.1 < b.1)) :
    ((lins k v l).map (fun p => f p.2)).sum + ((lget l k).map f).getD 0
      = (l.map (fun p => f p.2)).sum + f v := by
  induction l with
  | nil => simp [lins, lget]
  | cons y l ih =>
    obtain ⟨k', v'⟩ := y
    have hs2 := hs
    rw [List.pairwise_cons] at hs
    simp only [lins]
    split
    · rename_i hlt
      have hn : lget ((k', v') :: l) k = none := by
        apply lget_none_of_lt
        intro x hx
        rcases List.mem_cons.mp hx with rfl | hx
        · exact hlt
        · exact Nat.lt_trans hlt (hs.1 x hx)
      rw [hn]
      simp; omega
    · split
      · rename_i _ heq
        subst heq
        simp [lget]; omega
      · rename_i hne
        simp only [lget, if_neg hne, List.map_cons, List.sum_cons]
        have := ih hs.2
        omega

/-- The total after an insertion, with the old value's contribution on the left. -/
theorem sum_insert (f : V → Nat) (m : SMap V) (k : Nat) (v : V) :
    (m.insert k v).sum f + ((m.get? k).map f).getD 0 = m.sum f + f v :=
  lsum_lins f k v m.list m.sorted

theorem le_sum (f : V → Nat) (m : SMap V) (k : Nat) : ((m.get? k).map f).getD 0 ≤ m.sum f := by
  have hl : ∀ l : List (Nat × V), ((lget l k).map f).getD 0 ≤ (l.map (fun p => f p.2)).sum := by
    intro l
    induction l with
    | nil => simp [lget]
    | cons y l ih =>
      obtain ⟨k', v'⟩ := y
      simp only [lget, List.map_cons, List.sum_cons]
      split
      · simp
      · omega
  exact hl m.list

end SMap
end Verif
