import Verif.DecodeBodies
import Verif.DecodeSpec
/-
# Fields are independent of each other
-/

set_option linter.unusedSimpArgs false

namespace Verif

theorem map_bind_comm {α β γ : Type} (a : Option α) (c : Option β) (F : α → γ) (G : β → γ) (H : γ → β → γ)
    (K : γ → α → γ) (h : ∀ v w, H (F v) w = K (G w) v) :
    (a.map F).bind (fun b => c.map (H b)) = (c.map G).bind (fun b => a.map (K b)) := by
  cases a <;> cases c <;> simp only [Option.map, Option.bind]
  rw [h]

theorem Raw.bytes_fits {n : Nat} {x : Raw} {v : Bytes} (h : x.bytes = some v) (hf : x.Fits n) : v.length ≤ n := by
  cases x <;> cases h
  exact hf

theorem Raw.string_fits {n : Nat} {x : Raw} {v : Bytes} (h : x.string = some v) (hf : x.Fits n) :
    v.length ≤ n ∧ utf8 v = true := by
  cases x <;> simp only [Raw.string] at h <;> first | (cases h; done) | skip
  split at h
  · cases h
    exact ⟨hf, by assumption⟩
  · cases h

theorem Raw.string_isSome (bs : Bytes) : (Raw.string (.len bs)).isSome = utf8 bs := by
  unfold Raw.string
  simp only
  split <;> simp_all

/-- A payload that a field of this type accepts. -/
def FieldType.reads : FieldType → Raw → Bool
  | .uint, .varint _ => true
  | .enum, .varint _ => true
  | .flag, .varint _ => true
  | .bytes, .len _ => true
  | .text, .len bs => utf8 bs
  | .message, x => (Raw.metadata none x).isSome
  | _, _ => false

theorem ReservedMetadata.merge_isSome (m m' : ReservedMetadata) (f : Nat × Raw) :
    (m.merge f).isSome = (m'.merge f).isSome := by
  unfold ReservedMetadata.merge
  split <;> simp only [Option.isSome_map, Option.isSome_some]

theorem ReservedMetadata.fold_isSome (fs : List (Nat × Raw)) (m m' : ReservedMetadata) :
    (fs.foldlM ReservedMetadata.merge m).isSome = (fs.foldlM ReservedMetadata.merge m').isSome := by
  induction fs generalizing m m' with
  | nil => rfl
  | cons f fs ih =>
    rw [List.foldlM_cons, List.foldlM_cons]
    have := ReservedMetadata.merge_isSome m m' f
    cases h1 : m.merge f <;> cases h2 : m'.merge f <;> rw [h1, h2] at this <;> first | rfl | (cases this; done) | exact ih _ _

theorem Raw.metadata_isSome (cur : Option ReservedMetadata) (x : Raw) :
    (Raw.metadata cur x).isSome = FieldType.message.reads x := by
  unfold FieldType.reads Raw.metadata
  cases x with
  | len bs =>
    simp only
    cases readFields 99 bs with
    | none => rfl
    | some fs => exact ReservedMetadata.fold_isSome fs _ _
  | _ => rfl

theorem DelegateBody.merge_cases (f : Nat × Raw) :
    f.1 = 1 ∨ f.1 = 2 ∨ f.1 = 3 ∨ f.1 = 4 ∨ f.1 = 5 ∨ f.1 = 6 ∨ f.1 = 7 ∨ ∀ b : DelegateBody, b.merge f = some b := by
  obtain ⟨t, x⟩ := f
  by_cases h : 1 ≤ t ∧ t ≤ 7
  · simp only
    omega
  · right; right; right; right; right; right; right; intro b; unfold DelegateBody.merge; split <;> first | rfl | (exfalso; rename_i h1; cases h1; omega) | (exfalso; omega)

theorem DelegateBody.merge_comm (b : DelegateBody) (f g : Nat × Raw) (h : f.1 ≠ g.1) :
    (b.merge f).bind (·.merge g) = (b.merge g).bind (·.merge f) := by
  obtain ⟨t, x⟩ := f
  obtain ⟨u, y⟩ := g
  rcases DelegateBody.merge_cases (t, x) with rfl | rfl | rfl | rfl | rfl | rfl | rfl | hf
  case inr.inr.inr.inr.inr.inr.inr => simp only [hf, Option.bind]; cases b.merge (u, y) <;> rfl
  all_goals
    rcases DelegateBody.merge_cases (u, y) with rfl | rfl | rfl | rfl | rfl | rfl | rfl | hg
  all_goals first
    | (exact absurd rfl h)
    | (simp only [hg, Option.bind]; cases DelegateBody.merge b (_, x) <;> rfl)
    | (simp only [DelegateBody.merge]; exact map_bind_comm _ _ _ _ _ _ (fun _ _ => rfl))

theorem TransferBody.merge_cases (f : Nat × Raw) :
    f.1 = 1 ∨ f.1 = 2 ∨ f.1 = 3 ∨ f.1 = 4 ∨ f.1 = 5 ∨ f.1 = 6 ∨ f.1 = 7 ∨ ∀ b : TransferBody, b.merge f = some b := by
  obtain ⟨t, x⟩ := f
  by_cases h : 1 ≤ t ∧ t ≤ 7
  · simp only
    omega
  · right; right; right; right; right; right; right; intro b; unfold TransferBody.merge; split <;> first | rfl | (exfalso; rename_i h1; cases h1; omega) | (exfalso; omega)

theorem TransferBody.merge_comm (b : TransferBody) (f g : Nat × Raw) (h : f.1 ≠ g.1) :
    (b.merge f).bind (·.merge g) = (b.merge g).bind (·.merge f) := by
  obtain ⟨t, x⟩ := f
  obtain ⟨u, y⟩ := g
  rcases TransferBody.merge_cases (t, x) with rfl | rfl | rfl | rfl | rfl | rfl | rfl | hf
  case inr.inr.inr.inr.inr.inr.inr => simp only [hf, Option.bind]; cases b.merge (u, y) <;> rfl
  all_goals
    rcases TransferBody.merge_cases (u, y) with rfl | rfl | rfl | rfl | rfl | rfl | rfl | hg
  all_goals first
    | (exact absurd rfl h)
    | (simp only [hg, Option.bind]; cases TransferBody.merge b (_, x) <;> rfl)
    | (simp only [TransferBody.merge]; exact map_bind_comm _ _ _ _ _ _ (fun _ _ => rfl))

theorem WithdrawBody.merge_cases (f : Nat × Raw) :
    f.1 = 1 ∨ f.1 = 2 ∨ f.1 = 3 ∨ f.1 = 4 ∨ f.1 = 5 ∨ f.1 = 6 ∨ f.1 = 7 ∨ ∀ b : WithdrawBody, b.merge f = some b := by
  obtain ⟨t, x⟩ := f
  by_cases h : 1 ≤ t ∧ t ≤ 7
  · simp only
    omega
  · right; right; right; right; right; right; right; intro b; unfold WithdrawBody.merge; split <;> first | rfl | (exfalso; rename_i h1; cases h1; omega) | (exfalso; omega)

theorem WithdrawBody.merge_comm (b : WithdrawBody) (f g : Nat × Raw) (h : f.1 ≠ g.1) :
    (b.merge f).bind (·.merge g) = (b.merge g).bind (·.merge f) := by
  obtain ⟨t, x⟩ := f
  obtain ⟨u, y⟩ := g
  rcases WithdrawBody.merge_cases (t, x) with rfl | rfl | rfl | rfl | rfl | rfl | rfl | hf
  case inr.inr.inr.inr.inr.inr.inr => simp only [hf, Option.bind]; cases b.merge (u, y) <;> rfl
  all_goals
    rcases WithdrawBody.merge_cases (u, y) with rfl | rfl | rfl | rfl | rfl | rfl | rfl | hg
  all_goals first
    | (exact absurd rfl h)
    | (simp only [hg, Option.bind]; cases WithdrawBody.merge b (_, x) <;> rfl)
    | (simp only [WithdrawBody.merge]; exact map_bind_comm _ _ _ _ _ _ (fun _ _ => rfl))

theorem RequestBody.merge_cases (f : Nat × Raw) :
    f.1 = 1 ∨ f.1 = 2 ∨ f.1 = 3 ∨ f.1 = 4 ∨ f.1 = 5 ∨ f.1 = 6 ∨ f.1 = 7 ∨ f.1 = 8 ∨ f.1 = 9 ∨ f.1 = 10 ∨ f.1 = 11 ∨ f.1 = 12 ∨ f.1 = 13 ∨ f.1 = 14 ∨ f.1 = 15 ∨ f.1 = 16 ∨ f.1 = 17 ∨ f.1 = 18 ∨ f.1 = 19 ∨ f.1 = 20 ∨ f.1 = 21 ∨ ∀ b : RequestBody, b.merge f = some b := by
  obtain ⟨t, x⟩ := f
  by_cases h : 1 ≤ t ∧ t ≤ 21
  · simp only
    omega
  · right; right; right; right; right; right; right; right; right; right; right; right; right; right; right; right; right; right; right; right; right; intro b; unfold RequestBody.merge; split <;> first | rfl | (exfalso; rename_i h1; cases h1; omega) | (exfalso; omega)

set_option maxHeartbeats 2000000 in
theorem RequestBody.merge_comm (b : RequestBody) (f g : Nat × Raw) (h : f.1 ≠ g.1) :
    (b.merge f).bind (·.merge g) = (b.merge g).bind (·.merge f) := by
  obtain ⟨t, x⟩ := f
  obtain ⟨u, y⟩ := g
  rcases RequestBody.merge_cases (t, x) with rfl | rfl | rfl | rfl | rfl | rfl | rfl | rfl | rfl | rfl | rfl | rfl | rfl | rfl | rfl | rfl | rfl | rfl | rfl | rfl | rfl | hf
  case inr.inr.inr.inr.inr.inr.inr.inr.inr.inr.inr.inr.inr.inr.inr.inr.inr.inr.inr.inr.inr => simp only [hf, Option.bind]; cases b.merge (u, y) <;> rfl
  all_goals
    rcases RequestBody.merge_cases (u, y) with rfl | rfl | rfl | rfl | rfl | rfl | rfl | rfl | rfl | rfl | rfl | rfl | rfl | rfl | rfl | rfl | rfl | rfl | rfl | rfl | rfl | hg
  all_goals first
    | (exact absurd rfl h)
    | (simp only [hg, Option.bind]; cases RequestBody.merge b (_, x) <;> rfl)
    | (simp only [RequestBody.merge]; exact map_bind_comm _ _ _ _ _ _ (fun _ _ => rfl))

theorem BidBody.merge_cases (f : Nat × Raw) :
    f.1 = 1 ∨ f.1 = 2 ∨ f.1 = 3 ∨ f.1 = 4 ∨ f.1 = 5 ∨ f.1 = 6 ∨ ∀ b : BidBody, b.merge f = some b := by
  obtain ⟨t, x⟩ := f
  by_cases h : 1 ≤ t ∧ t ≤ 6
  · simp only
    omega
  · right; right; right; right; right; right; intro b; unfold BidBody.merge; split <;> first | rfl | (exfalso; rename_i h1; cases h1; omega) | (exfalso; omega)

theorem BidBody.merge_comm (b : BidBody) (f g : Nat × Raw) (h : f.1 ≠ g.1) :
    (b.merge f).bind (·.merge g) = (b.merge g).bind (·.merge f) := by
  obtain ⟨t, x⟩ := f
  obtain ⟨u, y⟩ := g
  rcases BidBody.merge_cases (t, x) with rfl | rfl | rfl | rfl | rfl | rfl | hf
  case inr.inr.inr.inr.inr.inr => simp only [hf, Option.bind]; cases b.merge (u, y) <;> rfl
  all_goals
    rcases BidBody.merge_cases (u, y) with rfl | rfl | rfl | rfl | rfl | rfl | hg
  all_goals first
    | (exact absurd rfl h)
    | (simp only [hg, Option.bind]; cases BidBody.merge b (_, x) <;> rfl)
    | (simp only [BidBody.merge]; exact map_bind_comm _ _ _ _ _ _ (fun _ _ => rfl))

theorem SettleBody.merge_cases (f : Nat × Raw) :
    f.1 = 1 ∨ f.1 = 2 ∨ f.1 = 3 ∨ f.1 = 4 ∨ f.1 = 5 ∨ ∀ b : SettleBody, b.merge f = some b := by
  obtain ⟨t, x⟩ := f
  by_cases h : 1 ≤ t ∧ t ≤ 5
  · simp only
    omega
  · right; right; right; right; right; intro b; unfold SettleBody.merge; split <;> first | rfl | (exfalso; rename_i h1; cases h1; omega) | (exfalso; omega)

theorem SettleBody.merge_comm (b : SettleBody) (f g : Nat × Raw) (h : f.1 ≠ g.1) :
    (b.merge f).bind (·.merge g) = (b.merge g).bind (·.merge f) := by
  obtain ⟨t, x⟩ := f
  obtain ⟨u, y⟩ := g
  rcases SettleBody.merge_cases (t, x) with rfl | rfl | rfl | rfl | rfl | hf
  case inr.inr.inr.inr.inr => simp only [hf, Option.bind]; cases b.merge (u, y) <;> rfl
  all_goals
    rcases SettleBody.merge_cases (u, y) with rfl | rfl | rfl | rfl | rfl | hg
  all_goals first
    | (exact absurd rfl h)
    | (simp only [hg, Option.bind]; cases SettleBody.merge b (_, x) <;> rfl)
    | (simp only [SettleBody.merge]; exact map_bind_comm _ _ _ _ _ _ (fun _ _ => rfl))

theorem ExecuteBody.merge_cases (f : Nat × Raw) :
    f.1 = 1 ∨ f.1 = 2 ∨ f.1 = 3 ∨ f.1 = 4 ∨ f.1 = 5 ∨ f.1 = 6 ∨ f.1 = 7 ∨ f.1 = 8 ∨ f.1 = 9 ∨ f.1 = 10 ∨ ∀ b : ExecuteBody, b.merge f = some b := by
  obtain ⟨t, x⟩ := f
  by_cases h : 1 ≤ t ∧ t ≤ 10
  · simp only
    omega
  · right; right; right; right; right; right; right; right; right; right; intro b; unfold ExecuteBody.merge; split <;> first | rfl | (exfalso; rename_i h1; cases h1; omega) | (exfalso; omega)

theorem ExecuteBody.merge_comm (b : ExecuteBody) (f g : Nat × Raw) (h : f.1 ≠ g.1) :
    (b.merge f).bind (·.merge g) = (b.merge g).bind (·.merge f) := by
  obtain ⟨t, x⟩ := f
  obtain ⟨u, y⟩ := g
  rcases ExecuteBody.merge_cases (t, x) with rfl | rfl | rfl | rfl | rfl | rfl | rfl | rfl | rfl | rfl | hf
  case inr.inr.inr.inr.inr.inr.inr.inr.inr.inr => simp only [hf, Option.bind]; cases b.merge (u, y) <;> rfl
  all_goals
    rcases ExecuteBody.merge_cases (u, y) with rfl | rfl | rfl | rfl | rfl | rfl | rfl | rfl | rfl | rfl | hg
  all_goals first
    | (exact absurd rfl h)
    | (simp only [hg, Option.bind]; cases ExecuteBody.merge b (_, x) <;> rfl)
    | (simp only [ExecuteBody.merge]; exact map_bind_comm _ _ _ _ _ _ (fun _ _ => rfl))

theorem FulfillBody.merge_cases (f : Nat × Raw) :
    f.1 = 1 ∨ f.1 = 2 ∨ f.1 = 3 ∨ f.1 = 4 ∨ f.1 = 5 ∨ f.1 = 6 ∨ ∀ b : FulfillBody, b.merge f = some b := by
  obtain ⟨t, x⟩ := f
  by_cases h : 1 ≤ t ∧ t ≤ 6
  · simp only
    omega
  · right; right; right; right; right; right; intro b; unfold FulfillBody.merge; split <;> first | rfl | (exfalso; rename_i h1; cases h1; omega) | (exfalso; omega)

theorem FulfillBody.merge_comm (b : FulfillBody) (f g : Nat × Raw) (h : f.1 ≠ g.1) :
    (b.merge f).bind (·.merge g) = (b.merge g).bind (·.merge f) := by
  obtain ⟨t, x⟩ := f
  obtain ⟨u, y⟩ := g
  rcases FulfillBody.merge_cases (t, x) with rfl | rfl | rfl | rfl | rfl | rfl | hf
  case inr.inr.inr.inr.inr.inr => simp only [hf, Option.bind]; cases b.merge (u, y) <;> rfl
  all_goals
    rcases FulfillBody.merge_cases (u, y) with rfl | rfl | rfl | rfl | rfl | rfl | hg
  all_goals first
    | (exact absurd rfl h)
    | (simp only [hg, Option.bind]; cases FulfillBody.merge b (_, x) <;> rfl)
    | (simp only [FulfillBody.merge]; exact map_bind_comm _ _ _ _ _ _ (fun _ _ => rfl))
    | (simp only [FulfillBody.merge]
       cases hx : Raw.metadata b.reservedMetadata x <;> cases Raw.u64 y <;> cases Raw.bytes y <;>
         cases Raw.i32 y <;> (simp only [Option.map, Option.bind, hx]; done))
    | (simp only [FulfillBody.merge]
       cases hy : Raw.metadata b.reservedMetadata y <;> cases Raw.u64 x <;> cases Raw.bytes x <;>
         cases Raw.i32 x <;> simp only [Option.map, Option.bind, hy])

theorem DelegateBody.merge_last (b b' : DelegateBody) (f : Nat) (x y : Raw) (h : b.merge (f, x) = some b') :
    b'.merge (f, y) = b.merge (f, y) := by
  rcases DelegateBody.merge_cases (f, x) with rfl | rfl | rfl | rfl | rfl | rfl | rfl | hf
  case inr.inr.inr.inr.inr.inr.inr => rw [hf] at h; cases h; rfl
  all_goals first
    | (exact absurd rfl hs)
    | (simp only [DelegateBody.merge, Option.map_eq_some_iff] at h
       obtain ⟨v, _, rfl⟩ := h
       rfl)

theorem DelegateBody.merge_type (b : DelegateBody) (t : Nat) (x : Raw) :
    (b.merge (t, x)).isSome = match fieldType .delegate t with
      | none => true
      | some ty => ty.reads x := by
  by_cases h : 1 ≤ t ∧ t ≤ 7
  · have h : t = 1 ∨ t = 2 ∨ t = 3 ∨ t = 4 ∨ t = 5 ∨ t = 6 ∨ t = 7 := by omega
    rcases h with rfl | rfl | rfl | rfl | rfl | rfl | rfl
    all_goals
      simp only [DelegateBody.merge, Option.isSome_map]
      first | rfl | exact Raw.metadata_isSome _ _ | (cases x <;> first | rfl | exact Raw.string_isSome _)
  · have h1 : fieldType .delegate t = none := by
      cases t with
      | zero => rfl
      | succ t => exact List.getElem?_eq_none (show 7 ≤ t by omega)
    have h2 : b.merge (t, x) = some b := by
      rcases DelegateBody.merge_cases (t, x) with h2 | h2 | h2 | h2 | h2 | h2 | h2 | h2
      case inr.inr.inr.inr.inr.inr.inr => exact h2 b
      all_goals (exfalso; simp only at h2; omega)
    rw [h1, h2]
    rfl

theorem DelegateBody.merge_clean {n : Nat} (b b' : DelegateBody) (f : Nat × Raw) (hf : f.2.Fits n) (h : b.merge f = some b')
    (hb : (∀ s ∈ (Body.delegate b).strings, utf8 s = true) ∧ ∀ x ∈ (Body.delegate b).blobs, x.length ≤ n) :
    (∀ s ∈ (Body.delegate b').strings, utf8 s = true) ∧ ∀ x ∈ (Body.delegate b').blobs, x.length ≤ n := by
  obtain ⟨t, x⟩ := f
  rcases DelegateBody.merge_cases (t, x) with rfl | rfl | rfl | rfl | rfl | rfl | rfl | hg
  case inr.inr.inr.inr.inr.inr.inr => rw [hg] at h; cases h; exact hb
  all_goals
    simp only [DelegateBody.merge, Option.map_eq_some_iff] at h
    obtain ⟨v, hv, rfl⟩ := h
    first
      | exact hb
      | (have hv' := Raw.bytes_fits hv hf
         simp only [Body.strings, Body.blobs, List.forall_mem_append, List.forall_mem_cons, Option.toList] at hb ⊢
         simp [hb, hv'])
      | (obtain ⟨hv', hu⟩ := Raw.string_fits hv hf
         simp only [Body.strings, Body.blobs, List.forall_mem_append, List.forall_mem_cons, Option.toList] at hb ⊢
         simp [hb, hv', hu])

theorem TransferBody.merge_last (b b' : TransferBody) (f : Nat) (x y : Raw) (h : b.merge (f, x) = some b') :
    b'.merge (f, y) = b.merge (f, y) := by
  rcases TransferBody.merge_cases (f, x) with rfl | rfl | rfl | rfl | rfl | rfl | rfl | hf
  case inr.inr.inr.inr.inr.inr.inr => rw [hf] at h; cases h; rfl
  all_goals first
    | (exact absurd rfl hs)
    | (simp only [TransferBody.merge, Option.map_eq_some_iff] at h
       obtain ⟨v, _, rfl⟩ := h
       rfl)

theorem TransferBody.merge_type (b : TransferBody) (t : Nat) (x : Raw) :
    (b.merge (t, x)).isSome = match fieldType .transfer t with
      | none => true
      | some ty => ty.reads x := by
  by_cases h : 1 ≤ t ∧ t ≤ 7
  · have h : t = 1 ∨ t = 2 ∨ t = 3 ∨ t = 4 ∨ t = 5 ∨ t = 6 ∨ t = 7 := by omega
    rcases h with rfl | rfl | rfl | rfl | rfl | rfl | rfl
    all_goals
      simp only [TransferBody.merge, Option.isSome_map]
      first | rfl | exact Raw.metadata_isSome _ _ | (cases x <;> first | rfl | exact Raw.string_isSome _)
  · have h1 : fieldType .transfer t = none := by
      cases t with
      | zero => rfl
      | succ t => exact List.getElem?_eq_none (show 7 ≤ t by omega)
    have h2 : b.merge (t, x) = some b := by
      rcases TransferBody.merge_cases (t, x) with h2 | h2 | h2 | h2 | h2 | h2 | h2 | h2
      case inr.inr.inr.inr.inr.inr.inr => exact h2 b
      all_goals (exfalso; simp only at h2; omega)
    rw [h1, h2]
    rfl

theorem TransferBody.merge_clean {n : Nat} (b b' : TransferBody) (f : Nat × Raw) (hf : f.2.Fits n) (h : b.merge f = some b')
    (hb : (∀ s ∈ (Body.transfer b).strings, utf8 s = true) ∧ ∀ x ∈ (Body.transfer b).blobs, x.length ≤ n) :
    (∀ s ∈ (Body.transfer b').strings, utf8 s = true) ∧ ∀ x ∈ (Body.transfer b').blobs, x.length ≤ n := by
  obtain ⟨t, x⟩ := f
  rcases TransferBody.merge_cases (t, x) with rfl | rfl | rfl | rfl | rfl | rfl | rfl | hg
  case inr.inr.inr.inr.inr.inr.inr => rw [hg] at h; cases h; exact hb
  all_goals
    simp only [TransferBody.merge, Option.map_eq_some_iff] at h
    obtain ⟨v, hv, rfl⟩ := h
    first
      | exact hb
      | (have hv' := Raw.bytes_fits hv hf
         simp only [Body.strings, Body.blobs, List.forall_mem_append, List.forall_mem_cons, Option.toList] at hb ⊢
         simp [hb, hv'])
      | (obtain ⟨hv', hu⟩ := Raw.string_fits hv hf
         simp only [Body.strings, Body.blobs, List.forall_mem_append, List.forall_mem_cons, Option.toList] at hb ⊢
         simp [hb, hv', hu])

theorem WithdrawBody.merge_last (b b' : WithdrawBody) (f : Nat) (x y : Raw) (h : b.merge (f, x) = some b') :
    b'.merge (f, y) = b.merge (f, y) := by
  rcases WithdrawBody.merge_cases (f, x) with rfl | rfl | rfl | rfl | rfl | rfl | rfl | hf
  case inr.inr.inr.inr.inr.inr.inr => rw [hf] at h; cases h; rfl
  all_goals first
    | (exact absurd rfl hs)
    | (simp only [WithdrawBody.merge, Option.map_eq_some_iff] at h
       obtain ⟨v, _, rfl⟩ := h
       rfl)

theorem WithdrawBody.merge_type (b : WithdrawBody) (t : Nat) (x : Raw) :
    (b.merge (t, x)).isSome = match fieldType .withdraw t with
      | none => true
      | some ty => ty.reads x := by
  by_cases h : 1 ≤ t ∧ t ≤ 7
  · have h : t = 1 ∨ t = 2 ∨ t = 3 ∨ t = 4 ∨ t = 5 ∨ t = 6 ∨ t = 7 := by omega
    rcases h with rfl | rfl | rfl | rfl | rfl | rfl | rfl
    all_goals
      simp only [WithdrawBody.merge, Option.isSome_map]
      first | rfl | exact Raw.metadata_isSome _ _ | (cases x <;> first | rfl | exact Raw.string_isSome _)
  · have h1 : fieldType .withdraw t = none := by
      cases t with
      | zero => rfl
      | succ t => exact List.getElem?_eq_none (show 7 ≤ t by omega)
    have h2 : b.merge (t, x) = some b := by
      rcases WithdrawBody.merge_cases (t, x) with h2 | h2 | h2 | h2 | h2 | h2 | h2 | h2
      case inr.inr.inr.inr.inr.inr.inr => exact h2 b
      all_goals (exfalso; simp only at h2; omega)
    rw [h1, h2]
    rfl

theorem WithdrawBody.merge_clean {n : Nat} (b b' : WithdrawBody) (f : Nat × Raw) (hf : f.2.Fits n) (h : b.merge f = some b')
    (hb : (∀ s ∈ (Body.withdraw b).strings, utf8 s = true) ∧ ∀ x ∈ (Body.withdraw b).blobs, x.length ≤ n) :
    (∀ s ∈ (Body.withdraw b').strings, utf8 s = true) ∧ ∀ x ∈ (Body.withdraw b').blobs, x.length ≤ n := by
  obtain ⟨t, x⟩ := f
  rcases WithdrawBody.merge_cases (t, x) with rfl | rfl | rfl | rfl | rfl | rfl | rfl | hg
  case inr.inr.inr.inr.inr.inr.inr => rw [hg] at h; cases h; exact hb
  all_goals
    simp only [WithdrawBody.merge, Option.map_eq_some_iff] at h
    obtain ⟨v, hv, rfl⟩ := h
    first
      | exact hb
      | (have hv' := Raw.bytes_fits hv hf
         simp only [Body.strings, Body.blobs, List.forall_mem_append, List.forall_mem_cons, Option.toList] at hb ⊢
         simp [hb, hv'])
      | (obtain ⟨hv', hu⟩ := Raw.string_fits hv hf
         simp only [Body.strings, Body.blobs, List.forall_mem_append, List.forall_mem_cons, Option.toList] at hb ⊢
         simp [hb, hv', hu])

theorem RequestBody.merge_last (b b' : RequestBody) (f : Nat) (x y : Raw) (hs : f ≠ 11) (h : b.merge (f, x) = some b') :
    b'.merge (f, y) = b.merge (f, y) := by
  rcases RequestBody.merge_cases (f, x) with rfl | rfl | rfl | rfl | rfl | rfl | rfl | rfl | rfl | rfl | rfl | rfl | rfl | rfl | rfl | rfl | rfl | rfl | rfl | rfl | rfl | hf
  case inr.inr.inr.inr.inr.inr.inr.inr.inr.inr.inr.inr.inr.inr.inr.inr.inr.inr.inr.inr.inr => rw [hf] at h; cases h; rfl
  all_goals first
    | (exact absurd rfl hs)
    | (simp only [RequestBody.merge, Option.map_eq_some_iff] at h
       obtain ⟨v, _, rfl⟩ := h
       rfl)

theorem RequestBody.merge_type (b : RequestBody) (t : Nat) (x : Raw) :
    (b.merge (t, x)).isSome = match fieldType .request t with
      | none => true
      | some ty => ty.reads x := by
  by_cases h : 1 ≤ t ∧ t ≤ 21
  · have h : t = 1 ∨ t = 2 ∨ t = 3 ∨ t = 4 ∨ t = 5 ∨ t = 6 ∨ t = 7 ∨ t = 8 ∨ t = 9 ∨ t = 10 ∨ t = 11 ∨ t = 12 ∨ t = 13 ∨ t = 14 ∨ t = 15 ∨ t = 16 ∨ t = 17 ∨ t = 18 ∨ t = 19 ∨ t = 20 ∨ t = 21 := by omega
    rcases h with rfl | rfl | rfl | rfl | rfl | rfl | rfl | rfl | rfl | rfl | rfl | rfl | rfl | rfl | rfl | rfl | rfl | rfl | rfl | rfl | rfl
    all_goals
      simp only [RequestBody.merge, Option.isSome_map]
      first | rfl | exact Raw.metadata_isSome _ _ | (cases x <;> first | rfl | exact Raw.string_isSome _)
  · have h1 : fieldType .request t = none := by
      cases t with
      | zero => rfl
      | succ t => exact List.getElem?_eq_none (show 21 ≤ t by omega)
    have h2 : b.merge (t, x) = some b := by
      rcases RequestBody.merge_cases (t, x) with h2 | h2 | h2 | h2 | h2 | h2 | h2 | h2 | h2 | h2 | h2 | h2 | h2 | h2 | h2 | h2 | h2 | h2 | h2 | h2 | h2 | h2
      case inr.inr.inr.inr.inr.inr.inr.inr.inr.inr.inr.inr.inr.inr.inr.inr.inr.inr.inr.inr.inr => exact h2 b
      all_goals (exfalso; simp only at h2; omega)
    rw [h1, h2]
    rfl

theorem RequestBody.merge_clean {n : Nat} (b b' : RequestBody) (f : Nat × Raw) (hf : f.2.Fits n) (h : b.merge f = some b')
    (hb : (∀ s ∈ (Body.request b).strings, utf8 s = true) ∧ ∀ x ∈ (Body.request b).blobs, x.length ≤ n) :
    (∀ s ∈ (Body.request b').strings, utf8 s = true) ∧ ∀ x ∈ (Body.request b').blobs, x.length ≤ n := by
  obtain ⟨t, x⟩ := f
  rcases RequestBody.merge_cases (t, x) with rfl | rfl | rfl | rfl | rfl | rfl | rfl | rfl | rfl | rfl | rfl | rfl | rfl | rfl | rfl | rfl | rfl | rfl | rfl | rfl | rfl | hg
  case inr.inr.inr.inr.inr.inr.inr.inr.inr.inr.inr.inr.inr.inr.inr.inr.inr.inr.inr.inr.inr => rw [hg] at h; cases h; exact hb
  all_goals
    simp only [RequestBody.merge, Option.map_eq_some_iff] at h
    obtain ⟨v, hv, rfl⟩ := h
    first
      | exact hb
      | (have hv' := Raw.bytes_fits hv hf
         simp only [Body.strings, Body.blobs, List.forall_mem_append, List.forall_mem_cons, Option.toList_some] at hb ⊢
         grind)
      | (obtain ⟨hv', hu⟩ := Raw.string_fits hv hf
         simp only [Body.strings, Body.blobs, List.forall_mem_append, List.forall_mem_cons, Option.toList_some] at hb ⊢
         grind)

theorem BidBody.merge_last (b b' : BidBody) (f : Nat) (x y : Raw) (h : b.merge (f, x) = some b') :
    b'.merge (f, y) = b.merge (f, y) := by
  rcases BidBody.merge_cases (f, x) with rfl | rfl | rfl | rfl | rfl | rfl | hf
  case inr.inr.inr.inr.inr.inr => rw [hf] at h; cases h; rfl
  all_goals first
    | (exact absurd rfl hs)
    | (simp only [BidBody.merge, Option.map_eq_some_iff] at h
       obtain ⟨v, _, rfl⟩ := h
       rfl)

theorem BidBody.merge_type (b : BidBody) (t : Nat) (x : Raw) :
    (b.merge (t, x)).isSome = match fieldType .bid t with
      | none => true
      | some ty => ty.reads x := by
  by_cases h : 1 ≤ t ∧ t ≤ 6
  · have h : t = 1 ∨ t = 2 ∨ t = 3 ∨ t = 4 ∨ t = 5 ∨ t = 6 := by omega
    rcases h with rfl | rfl | rfl | rfl | rfl | rfl
    all_goals
      simp only [BidBody.merge, Option.isSome_map]
      first | rfl | exact Raw.metadata_isSome _ _ | (cases x <;> first | rfl | exact Raw.string_isSome _)
  · have h1 : fieldType .bid t = none := by
      cases t with
      | zero => rfl
      | succ t => exact List.getElem?_eq_none (show 6 ≤ t by omega)
    have h2 : b.merge (t, x) = some b := by
      rcases BidBody.merge_cases (t, x) with h2 | h2 | h2 | h2 | h2 | h2 | h2
      case inr.inr.inr.inr.inr.inr => exact h2 b
      all_goals (exfalso; simp only at h2; omega)
    rw [h1, h2]
    rfl

theorem BidBody.merge_clean {n : Nat} (b b' : BidBody) (f : Nat × Raw) (hf : f.2.Fits n) (h : b.merge f = some b')
    (hb : (∀ s ∈ (Body.bid b).strings, utf8 s = true) ∧ ∀ x ∈ (Body.bid b).blobs, x.length ≤ n) :
    (∀ s ∈ (Body.bid b').strings, utf8 s = true) ∧ ∀ x ∈ (Body.bid b').blobs, x.length ≤ n := by
  obtain ⟨t, x⟩ := f
  rcases BidBody.merge_cases (t, x) with rfl | rfl | rfl | rfl | rfl | rfl | hg
  case inr.inr.inr.inr.inr.inr => rw [hg] at h; cases h; exact hb
  all_goals
    simp only [BidBody.merge, Option.map_eq_some_iff] at h
    obtain ⟨v, hv, rfl⟩ := h
    first
      | exact hb
      | (have hv' := Raw.bytes_fits hv hf
         simp only [Body.strings, Body.blobs, List.forall_mem_append, List.forall_mem_cons, Option.toList] at hb ⊢
         simp [hb, hv'])
      | (obtain ⟨hv', hu⟩ := Raw.string_fits hv hf
         simp only [Body.strings, Body.blobs, List.forall_mem_append, List.forall_mem_cons, Option.toList] at hb ⊢
         simp [hb, hv', hu])

theorem SettleBody.merge_last (b b' : SettleBody) (f : Nat) (x y : Raw) (h : b.merge (f, x) = some b') :
    b'.merge (f, y) = b.merge (f, y) := by
  rcases SettleBody.merge_cases (f, x) with rfl | rfl | rfl | rfl | rfl | hf
  case inr.inr.inr.inr.inr => rw [hf] at h; cases h; rfl
  all_goals first
    | (exact absurd rfl hs)
    | (simp only [SettleBody.merge, Option.map_eq_some_iff] at h
       obtain ⟨v, _, rfl⟩ := h
       rfl)

theorem SettleBody.merge_type (b : SettleBody) (t : Nat) (x : Raw) :
    (b.merge (t, x)).isSome = match fieldType .settle t with
      | none => true
      | some ty => ty.reads x := by
  by_cases h : 1 ≤ t ∧ t ≤ 5
  · have h : t = 1 ∨ t = 2 ∨ t = 3 ∨ t = 4 ∨ t = 5 := by omega
    rcases h with rfl | rfl | rfl | rfl | rfl
    all_goals
      simp only [SettleBody.merge, Option.isSome_map]
      first | rfl | exact Raw.metadata_isSome _ _ | (cases x <;> first | rfl | exact Raw.string_isSome _)
  · have h1 : fieldType .settle t = none := by
      cases t with
      | zero => rfl
      | succ t => exact List.getElem?_eq_none (show 5 ≤ t by omega)
    have h2 : b.merge (t, x) = some b := by
      rcases SettleBody.merge_cases (t, x) with h2 | h2 | h2 | h2 | h2 | h2
      case inr.inr.inr.inr.inr => exact h2 b
      all_goals (exfalso; simp only at h2; omega)
    rw [h1, h2]
    rfl

theorem SettleBody.merge_clean {n : Nat} (b b' : SettleBody) (f : Nat × Raw) (hf : f.2.Fits n) (h : b.merge f = some b')
    (hb : (∀ s ∈ (Body.settle b).strings, utf8 s = true) ∧ ∀ x ∈ (Body.settle b).blobs, x.length ≤ n) :
    (∀ s ∈ (Body.settle b').strings, utf8 s = true) ∧ ∀ x ∈ (Body.settle b').blobs, x.length ≤ n := by
  obtain ⟨t, x⟩ := f
  rcases SettleBody.merge_cases (t, x) with rfl | rfl | rfl | rfl | rfl | hg
  case inr.inr.inr.inr.inr => rw [hg] at h; cases h; exact hb
  all_goals
    simp only [SettleBody.merge, Option.map_eq_some_iff] at h
    obtain ⟨v, hv, rfl⟩ := h
    first
      | exact hb
      | (have hv' := Raw.bytes_fits hv hf
         simp only [Body.strings, Body.blobs, List.forall_mem_append, List.forall_mem_cons, Option.toList] at hb ⊢
         simp [hb, hv'])
      | (obtain ⟨hv', hu⟩ := Raw.string_fits hv hf
         simp only [Body.strings, Body.blobs, List.forall_mem_append, List.forall_mem_cons, Option.toList] at hb ⊢
         simp [hb, hv', hu])

theorem ExecuteBody.merge_last (b b' : ExecuteBody) (f : Nat) (x y : Raw) (h : b.merge (f, x) = some b') :
    b'.merge (f, y) = b.merge (f, y) := by
  rcases ExecuteBody.merge_cases (f, x) with rfl | rfl | rfl | rfl | rfl | rfl | rfl | rfl | rfl | rfl | hf
  case inr.inr.inr.inr.inr.inr.inr.inr.inr.inr => rw [hf] at h; cases h; rfl
  all_goals first
    | (exact absurd rfl hs)
    | (simp only [ExecuteBody.merge, Option.map_eq_some_iff] at h
       obtain ⟨v, _, rfl⟩ := h
       rfl)

theorem ExecuteBody.merge_type (b : ExecuteBody) (t : Nat) (x : Raw) :
    (b.merge (t, x)).isSome = match fieldType .execute t with
      | none => true
      | some ty => ty.reads x := by
  by_cases h : 1 ≤ t ∧ t ≤ 10
  · have h : t = 1 ∨ t = 2 ∨ t = 3 ∨ t = 4 ∨ t = 5 ∨ t = 6 ∨ t = 7 ∨ t = 8 ∨ t = 9 ∨ t = 10 := by omega
    rcases h with rfl | rfl | rfl | rfl | rfl | rfl | rfl | rfl | rfl | rfl
    all_goals
      simp only [ExecuteBody.merge, Option.isSome_map]
      first | rfl | exact Raw.metadata_isSome _ _ | (cases x <;> first | rfl | exact Raw.string_isSome _)
  · have h1 : fieldType .execute t = none := by
      cases t with
      | zero => rfl
      | succ t => exact List.getElem?_eq_none (show 10 ≤ t by omega)
    have h2 : b.merge (t, x) = some b := by
      rcases ExecuteBody.merge_cases (t, x) with h2 | h2 | h2 | h2 | h2 | h2 | h2 | h2 | h2 | h2 | h2
      case inr.inr.inr.inr.inr.inr.inr.inr.inr.inr => exact h2 b
      all_goals (exfalso; simp only at h2; omega)
    rw [h1, h2]
    rfl

theorem ExecuteBody.merge_clean {n : Nat} (b b' : ExecuteBody) (f : Nat × Raw) (hf : f.2.Fits n) (h : b.merge f = some b')
    (hb : (∀ s ∈ (Body.execute b).strings, utf8 s = true) ∧ ∀ x ∈ (Body.execute b).blobs, x.length ≤ n) :
    (∀ s ∈ (Body.execute b').strings, utf8 s = true) ∧ ∀ x ∈ (Body.execute b').blobs, x.length ≤ n := by
  obtain ⟨t, x⟩ := f
  rcases ExecuteBody.merge_cases (t, x) with rfl | rfl | rfl | rfl | rfl | rfl | rfl | rfl | rfl | rfl | hg
  case inr.inr.inr.inr.inr.inr.inr.inr.inr.inr => rw [hg] at h; cases h; exact hb
  all_goals
    simp only [ExecuteBody.merge, Option.map_eq_some_iff] at h
    obtain ⟨v, hv, rfl⟩ := h
    first
      | exact hb
      | (have hv' := Raw.bytes_fits hv hf
         simp only [Body.strings, Body.blobs] at hb ⊢
         grind)
      | (obtain ⟨hv', hu⟩ := Raw.string_fits hv hf
         simp only [Body.strings, Body.blobs] at hb ⊢
         grind)

theorem FulfillBody.merge_last (b b' : FulfillBody) (f : Nat) (x y : Raw) (hs : f ≠ 4) (h : b.merge (f, x) = some b') :
    b'.merge (f, y) = b.merge (f, y) := by
  rcases FulfillBody.merge_cases (f, x) with rfl | rfl | rfl | rfl | rfl | rfl | hf
  case inr.inr.inr.inr.inr.inr => rw [hf] at h; cases h; rfl
  all_goals first
    | (exact absurd rfl hs)
    | (simp only [FulfillBody.merge, Option.map_eq_some_iff] at h
       obtain ⟨v, _, rfl⟩ := h
       rfl)

theorem FulfillBody.merge_type (b : FulfillBody) (t : Nat) (x : Raw) :
    (b.merge (t, x)).isSome = match fieldType .fulfill t with
      | none => true
      | some ty => ty.reads x := by
  by_cases h : 1 ≤ t ∧ t ≤ 6
  · have h : t = 1 ∨ t = 2 ∨ t = 3 ∨ t = 4 ∨ t = 5 ∨ t = 6 := by omega
    rcases h with rfl | rfl | rfl | rfl | rfl | rfl
    all_goals
      simp only [FulfillBody.merge, Option.isSome_map]
      first | rfl | exact Raw.metadata_isSome _ _ | (cases x <;> first | rfl | exact Raw.string_isSome _)
  · have h1 : fieldType .fulfill t = none := by
      cases t with
      | zero => rfl
      | succ t => exact List.getElem?_eq_none (show 6 ≤ t by omega)
    have h2 : b.merge (t, x) = some b := by
      rcases FulfillBody.merge_cases (t, x) with h2 | h2 | h2 | h2 | h2 | h2 | h2
      case inr.inr.inr.inr.inr.inr => exact h2 b
      all_goals (exfalso; simp only at h2; omega)
    rw [h1, h2]
    rfl

theorem FulfillBody.merge_clean {n : Nat} (b b' : FulfillBody) (f : Nat × Raw) (hf : f.2.Fits n) (h : b.merge f = some b')
    (hb : (∀ s ∈ (Body.fulfill b).strings, utf8 s = true) ∧ ∀ x ∈ (Body.fulfill b).blobs, x.length ≤ n) :
    (∀ s ∈ (Body.fulfill b').strings, utf8 s = true) ∧ ∀ x ∈ (Body.fulfill b').blobs, x.length ≤ n := by
  obtain ⟨t, x⟩ := f
  rcases FulfillBody.merge_cases (t, x) with rfl | rfl | rfl | rfl | rfl | rfl | hg
  case inr.inr.inr.inr.inr.inr => rw [hg] at h; cases h; exact hb
  all_goals
    simp only [FulfillBody.merge, Option.map_eq_some_iff] at h
    obtain ⟨v, hv, rfl⟩ := h
    first
      | exact hb
      | (have hv' := Raw.bytes_fits hv hf
         simp only [Body.strings, Body.blobs, List.forall_mem_append, List.forall_mem_cons, Option.toList] at hb ⊢
         simp [hb, hv'])
      | (obtain ⟨hv', hu⟩ := Raw.string_fits hv hf
         simp only [Body.strings, Body.blobs, List.forall_mem_append, List.forall_mem_cons, Option.toList] at hb ⊢
         simp [hb, hv', hu])

theorem sized_append {fs gs : List (Nat × Wire)} (h : ∀ f ∈ fs, 1 ≤ f.1 ∧ f.1 < 2 ^ 29 ∧ f.2.Sized)
    (h' : ∀ f ∈ gs, 1 ≤ f.1 ∧ f.1 < 2 ^ 29 ∧ f.2.Sized) : ∀ f ∈ fs ++ gs, 1 ≤ f.1 ∧ f.1 < 2 ^ 29 ∧ f.2.Sized := by
  intro f hf
  rcases List.mem_append.mp hf with hf | hf
  · exact h f hf
  · exact h' f hf

section
variable {t : Nat} (h1 : 1 ≤ t) (h2 : t < 2 ^ 29)
include h1 h2

theorem sized_U64 (x : U64) : ∀ f ∈ fU64 t x, 1 ≤ f.1 ∧ f.1 < 2 ^ 29 ∧ f.2.Sized := by
  intro f hf
  unfold fU64 at hf
  split at hf
  · cases hf
  · rcases List.mem_singleton.mp hf with rfl
    exact ⟨h1, h2, x.isLt⟩

theorem sized_Enum (x : I32) : ∀ f ∈ fEnum t x, 1 ≤ f.1 ∧ f.1 < 2 ^ 29 ∧ f.2.Sized := by
  intro f hf
  unfold fEnum at hf
  split at hf
  · cases hf
  · rcases List.mem_singleton.mp hf with rfl
    exact ⟨h1, h2, (x.signExtend 64).isLt⟩

theorem sized_Bool (x : Bool) : ∀ f ∈ fBool t x, 1 ≤ f.1 ∧ f.1 < 2 ^ 29 ∧ f.2.Sized := by
  intro f hf
  unfold fBool at hf
  split at hf
  · rcases List.mem_singleton.mp hf with rfl
    exact ⟨h1, h2, (by decide : (1 : Nat) < 2 ^ 64)⟩
  · cases hf

theorem sized_Bytes {x : Bytes} (hx : x.length < 2 ^ 64) :
    ∀ f ∈ fBytes t x, 1 ≤ f.1 ∧ f.1 < 2 ^ 29 ∧ f.2.Sized := by
  intro f hf
  unfold fBytes at hf
  split at hf
  · cases hf
  · rcases List.mem_singleton.mp hf with rfl
    exact ⟨h1, h2, hx⟩

theorem sized_OptU64 (x : Option U64) : ∀ f ∈ fOptU64 t x, 1 ≤ f.1 ∧ f.1 < 2 ^ 29 ∧ f.2.Sized := by
  intro f hf
  cases x with
  | none => cases hf
  | some v =>
    rcases List.mem_singleton.mp hf with rfl
    exact ⟨h1, h2, v.isLt⟩

theorem sized_OptEnum (x : Option I32) : ∀ f ∈ fOptEnum t x, 1 ≤ f.1 ∧ f.1 < 2 ^ 29 ∧ f.2.Sized := by
  intro f hf
  cases x with
  | none => cases hf
  | some v =>
    rcases List.mem_singleton.mp hf with rfl
    exact ⟨h1, h2, (v.signExtend 64).isLt⟩

theorem sized_OptBytes {x : Option Bytes} (hx : ∀ v ∈ x.toList, v.length < 2 ^ 64) :
    ∀ f ∈ fOptBytes t x, 1 ≤ f.1 ∧ f.1 < 2 ^ 29 ∧ f.2.Sized := by
  intro f hf
  cases x with
  | none => cases hf
  | some v =>
    rcases List.mem_singleton.mp hf with rfl
    exact ⟨h1, h2, hx v (List.mem_singleton.mpr rfl)⟩

theorem sized_Rep {x : List Bytes} (hx : ∀ v ∈ x, v.length < 2 ^ 64) :
    ∀ f ∈ fRep t x, 1 ≤ f.1 ∧ f.1 < 2 ^ 29 ∧ f.2.Sized := by
  intro f hf
  obtain ⟨v, hv, rfl⟩ := List.mem_map.mp hf
  exact ⟨h1, h2, hx v hv⟩

theorem sized_OptMsg (x : Option ReservedMetadata) : ∀ f ∈ fOptMsg t x, 1 ≤ f.1 ∧ f.1 < 2 ^ 29 ∧ f.2.Sized := by
  intro f hf
  cases x with
  | none => cases hf
  | some v =>
    rcases List.mem_singleton.mp hf with rfl
    refine ⟨h1, h2, ?_⟩
    obtain ⟨y⟩ := v
    cases y with
    | none => exact (by decide : (0 : Nat) < 2 ^ 64)
    | some w =>
      have : (encFields (ReservedMetadata.fields ⟨some w⟩)).length = 5 := by
        simp only [ReservedMetadata.fields, fOptFloat, encFields, List.flatMap_cons, List.flatMap_nil, encField,
          List.append_nil, List.length_append, le32_length]
        rfl
      show (encFields (ReservedMetadata.fields ⟨some w⟩)).length < 2 ^ 64
      rw [this]
      decide

end

theorem DelegateBody.sized (b : DelegateBody) (h : ∀ x ∈ (Body.delegate b).blobs, x.length < 2 ^ 64) :
    ∀ f ∈ b.fields, 1 ≤ f.1 ∧ f.1 < 2 ^ 29 ∧ f.2.Sized := by
  simp only [Body.blobs, List.forall_mem_append, List.forall_mem_cons] at h
  unfold DelegateBody.fields
  refine sized_append (sized_U64 (by decide) (by decide) _) ?_
  refine sized_append (sized_Bytes (by decide) (by decide) (by simp only [h])) ?_
  refine sized_append (sized_Bytes (by decide) (by decide) (by simp only [h])) ?_
  refine sized_append (sized_Bytes (by decide) (by decide) (by simp only [h])) ?_
  refine sized_append (sized_Enum (by decide) (by decide) _) ?_
  refine sized_append (sized_Bytes (by decide) (by decide) (by simp only [h])) ?_
  exact sized_Bytes (by decide) (by decide) (by simp only [h])

theorem TransferBody.sized (b : TransferBody) (h : ∀ x ∈ (Body.transfer b).blobs, x.length < 2 ^ 64) :
    ∀ f ∈ b.fields, 1 ≤ f.1 ∧ f.1 < 2 ^ 29 ∧ f.2.Sized := by
  simp only [Body.blobs, List.forall_mem_append, List.forall_mem_cons] at h
  unfold TransferBody.fields
  refine sized_append (sized_U64 (by decide) (by decide) _) ?_
  refine sized_append (sized_Bytes (by decide) (by decide) (by simp only [h])) ?_
  refine sized_append (sized_Bytes (by decide) (by decide) (by simp only [h])) ?_
  refine sized_append (sized_Bytes (by decide) (by decide) (by simp only [h])) ?_
  refine sized_append (sized_Enum (by decide) (by decide) _) ?_
  refine sized_append (sized_Bytes (by decide) (by decide) (by simp only [h])) ?_
  exact sized_Bytes (by decide) (by decide) (by simp only [h])

theorem WithdrawBody.sized (b : WithdrawBody) (h : ∀ x ∈ (Body.withdraw b).blobs, x.length < 2 ^ 64) :
    ∀ f ∈ b.fields, 1 ≤ f.1 ∧ f.1 < 2 ^ 29 ∧ f.2.Sized := by
  simp only [Body.blobs, List.forall_mem_append, List.forall_mem_cons] at h
  unfold WithdrawBody.fields
  refine sized_append (sized_U64 (by decide) (by decide) _) ?_
  refine sized_append (sized_Bytes (by decide) (by decide) (by simp only [h])) ?_
  refine sized_append (sized_Bytes (by decide) (by decide) (by simp only [h])) ?_
  refine sized_append (sized_Bytes (by decide) (by decide) (by simp only [h])) ?_
  refine sized_append (sized_Enum (by decide) (by decide) _) ?_
  refine sized_append (sized_Bytes (by decide) (by decide) (by simp only [h])) ?_
  exact sized_Bytes (by decide) (by decide) (by simp only [h])

theorem RequestBody.sized (b : RequestBody) (h : ∀ x ∈ (Body.request b).blobs, x.length < 2 ^ 64) :
    ∀ f ∈ b.fields, 1 ≤ f.1 ∧ f.1 < 2 ^ 29 ∧ f.2.Sized := by
  simp only [Body.blobs, List.forall_mem_append, List.forall_mem_cons] at h
  unfold RequestBody.fields
  refine sized_append (sized_U64 (by decide) (by decide) _) ?_
  refine sized_append (sized_Bytes (by decide) (by decide) (by simp only [h])) ?_
  refine sized_append (sized_Bytes (by decide) (by decide) (by simp only [h])) ?_
  refine sized_append (sized_Enum (by decide) (by decide) _) ?_
  refine sized_append (sized_Enum (by decide) (by decide) _) ?_
  refine sized_append (sized_Bytes (by decide) (by decide) (by simp only [h])) ?_
  refine sized_append (sized_U64 (by decide) (by decide) _) ?_
  refine sized_append (sized_U64 (by decide) (by decide) _) ?_
  refine sized_append (sized_U64 (by decide) (by decide) _) ?_
  refine sized_append (sized_U64 (by decide) (by decide) _) ?_
  refine sized_append (sized_Rep (by decide) (by decide) (by intro v hv; simp_all)) ?_
  refine sized_append (sized_Bytes (by decide) (by decide) (by simp only [h])) ?_
  refine sized_append (sized_Bytes (by decide) (by decide) (by simp only [h])) ?_
  refine sized_append (sized_Bytes (by decide) (by decide) (by simp only [h])) ?_
  refine sized_append (sized_Bytes (by decide) (by decide) (by simp only [h])) ?_
  refine sized_append (sized_OptBytes (by decide) (by decide) (by intro v hv; simp_all)) ?_
  refine sized_append (sized_Bytes (by decide) (by decide) (by simp only [h])) ?_
  refine sized_append (sized_Bytes (by decide) (by decide) (by simp only [h])) ?_
  refine sized_append (sized_Enum (by decide) (by decide) _) ?_
  refine sized_append (sized_Bytes (by decide) (by decide) (by simp only [h])) ?_
  exact sized_Bool (by decide) (by decide) _

theorem BidBody.sized (b : BidBody) (h : ∀ x ∈ (Body.bid b).blobs, x.length < 2 ^ 64) :
    ∀ f ∈ b.fields, 1 ≤ f.1 ∧ f.1 < 2 ^ 29 ∧ f.2.Sized := by
  simp only [Body.blobs, List.forall_mem_append, List.forall_mem_cons] at h
  unfold BidBody.fields
  refine sized_append (sized_U64 (by decide) (by decide) _) ?_
  refine sized_append (sized_Bytes (by decide) (by decide) (by simp only [h])) ?_
  refine sized_append (sized_Bytes (by decide) (by decide) (by simp only [h])) ?_
  refine sized_append (sized_Bytes (by decide) (by decide) (by simp only [h])) ?_
  refine sized_append (sized_Bytes (by decide) (by decide) (by simp only [h])) ?_
  exact sized_Enum (by decide) (by decide) _

theorem SettleBody.sized (b : SettleBody) (h : ∀ x ∈ (Body.settle b).blobs, x.length < 2 ^ 64) :
    ∀ f ∈ b.fields, 1 ≤ f.1 ∧ f.1 < 2 ^ 29 ∧ f.2.Sized := by
  simp only [Body.blobs, List.forall_mem_append, List.forall_mem_cons] at h
  unfold SettleBody.fields
  refine sized_append (sized_U64 (by decide) (by decide) _) ?_
  refine sized_append (sized_Bytes (by decide) (by decide) (by simp only [h])) ?_
  refine sized_append (sized_Bytes (by decide) (by decide) (by simp only [h])) ?_
  refine sized_append (sized_Bytes (by decide) (by decide) (by simp only [h])) ?_
  exact sized_Enum (by decide) (by decide) _

theorem ExecuteBody.sized (b : ExecuteBody) (h : ∀ x ∈ (Body.execute b).blobs, x.length < 2 ^ 64) :
    ∀ f ∈ b.fields, 1 ≤ f.1 ∧ f.1 < 2 ^ 29 ∧ f.2.Sized := by
  simp only [Body.blobs, List.forall_mem_append, List.forall_mem_cons] at h
  unfold ExecuteBody.fields
  refine sized_append (sized_U64 (by decide) (by decide) _) ?_
  refine sized_append (sized_Bytes (by decide) (by decide) (by simp only [h])) ?_
  refine sized_append (sized_Enum (by decide) (by decide) _) ?_
  refine sized_append (sized_OptBytes (by decide) (by decide) (by intro v hv; simp_all)) ?_
  refine sized_append (sized_OptU64 (by decide) (by decide) _) ?_
  refine sized_append (sized_OptU64 (by decide) (by decide) _) ?_
  refine sized_append (sized_Bytes (by decide) (by decide) (by simp only [h])) ?_
  refine sized_append (sized_OptBytes (by decide) (by decide) (by intro v hv; simp_all)) ?_
  refine sized_append (sized_OptEnum (by decide) (by decide) _) ?_
  exact sized_Enum (by decide) (by decide) _

theorem FulfillBody.sized (b : FulfillBody) (h : ∀ x ∈ (Body.fulfill b).blobs, x.length < 2 ^ 64) :
    ∀ f ∈ b.fields, 1 ≤ f.1 ∧ f.1 < 2 ^ 29 ∧ f.2.Sized := by
  simp only [Body.blobs, List.forall_mem_append, List.forall_mem_cons] at h
  unfold FulfillBody.fields
  refine sized_append (sized_U64 (by decide) (by decide) _) ?_
  refine sized_append (sized_Bytes (by decide) (by decide) (by simp only [h])) ?_
  refine sized_append (sized_Bytes (by decide) (by decide) (by simp only [h])) ?_
  refine sized_append (sized_OptMsg (by decide) (by decide) _) ?_
  refine sized_append (sized_Bytes (by decide) (by decide) (by simp only [h])) ?_
  exact sized_Enum (by decide) (by decide) _

end Verif
