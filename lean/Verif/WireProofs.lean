import Verif.Messages
/-
# The wire encoding is unambiguous
-/

set_option linter.unusedSimpArgs false

namespace Verif

theorem uint8_ofNat_inj {a b : Nat} (ha : a < 256) (hb : b < 256) (h : UInt8.ofNat a = UInt8.ofNat b) :
    a = b := by
  have := congrArg UInt8.toNat h
  simp only [UInt8.toNat_ofNat'] at this
  omega

/-- Varints are self-delimiting. -/
theorem varint_prefix (n m : Nat) (xs ys : Bytes) (h : varint n ++ xs = varint m ++ ys) :
    n = m ∧ xs = ys := by
  induction n using Nat.strongRecOn generalizing m with
  | ind n ih =>
    rw [varint_eq n, varint_eq m] at h
    by_cases hn : n < 128 <;> by_cases hm : m < 128
    · rw [if_pos hn, if_pos hm] at h
      simp only [List.cons_append, List.nil_append, List.cons.injEq] at h
      exact ⟨uint8_ofNat_inj (by omega) (by omega) h.1, h.2⟩
    · rw [if_pos hn, if_neg hm] at h
      simp only [List.cons_append, List.nil_append, List.cons.injEq] at h
      have := uint8_ofNat_inj (by omega) (by omega) h.1
      omega
    · rw [if_neg hn, if_pos hm] at h
      simp only [List.cons_append, List.nil_append, List.cons.injEq] at h
      have := uint8_ofNat_inj (by omega) (by omega) h.1
      omega
    · rw [if_neg hn, if_neg hm] at h
      simp only [List.cons_append, List.cons.injEq] at h
      have h1 := uint8_ofNat_inj (by omega) (by omega) h.1
      obtain ⟨h2, h3⟩ := ih (n / 128) (by omega) (m / 128) h.2
      exact ⟨by omega, h3⟩

theorem varint_ne_nil (n : Nat) : varint n ≠ [] := by
  rw [varint_eq]; split <;> simp

theorem le32_length (w : BitVec 32) : (le32 w).length = 4 := by simp [le32, beBytes_length]

theorem le32_inj {a b : BitVec 32} (h : le32 a = le32 b) : a = b := by
  unfold le32 at h
  have h := List.reverse_inj.mp h
  apply BitVec.eq_of_toNat_eq
  exact beBytes_inj (k := 4) a.isLt b.isLt h

/-- Fields are self-delimiting. -/
theorem encField_prefix (f g : Nat × Wire) (xs ys : Bytes) (h : encField f ++ xs = encField g ++ ys) :
    f = g ∧ xs = ys := by
  obtain ⟨t, w⟩ := f
  obtain ⟨t', w'⟩ := g
  cases w <;> cases w' <;> simp only [encField, List.append_assoc] at h
  case varint.varint =>
    obtain ⟨h1, h⟩ := varint_prefix _ _ _ _ h
    obtain ⟨h2, h⟩ := varint_prefix _ _ _ _ h
    have : t = t' := by omega
    exact ⟨by simp_all, h⟩
  case len.len =>
    obtain ⟨h1, h⟩ := varint_prefix _ _ _ _ h
    obtain ⟨h2, h⟩ := varint_prefix _ _ _ _ h
    obtain ⟨h3, h⟩ := List.append_inj h h2
    have : t = t' := by omega
    exact ⟨by simp_all, h⟩
  case fixed32.fixed32 =>
    obtain ⟨h1, h⟩ := varint_prefix _ _ _ _ h
    obtain ⟨h3, h⟩ := List.append_inj h (by rw [le32_length, le32_length])
    have : t = t' := by omega
    have e := le32_inj h3
    exact ⟨by simp_all, h⟩
  all_goals
    obtain ⟨h1, h⟩ := varint_prefix _ _ _ _ h
    omega

theorem encField_ne_nil (f : Nat × Wire) : encField f ≠ [] := by
  obtain ⟨t, w⟩ := f
  cases w <;> simp [encField, varint_ne_nil]

/-- A field list is determined by its encoding. -/
theorem encFields_inj (fs gs : List (Nat × Wire)) (h : encFields fs = encFields gs) : fs = gs := by
  unfold encFields at h
  induction fs generalizing gs with
  | nil =>
    cases gs with
    | nil => rfl
    | cons g gs =>
      rw [List.flatMap_nil, List.flatMap_cons] at h
      have := List.append_eq_nil_iff.mp h.symm
      exact absurd this.1 (encField_ne_nil g)
  | cons f fs ih =>
    cases gs with
    | nil =>
      rw [List.flatMap_nil, List.flatMap_cons] at h
      have := List.append_eq_nil_iff.mp h
      exact absurd this.1 (encField_ne_nil f)
    | cons g gs =>
      rw [List.flatMap_cons, List.flatMap_cons] at h
      obtain ⟨h1, h2⟩ := encField_prefix f g _ _ h
      rw [h1, ih gs h2]

/-! ## Fields of one tag -/

/-- The fields with a given tag. -/
def withTag (t : Nat) (fs : List (Nat × Wire)) : List Wire := (fs.filter (fun f => f.1 = t)).map (·.2)

@[simp] theorem withTag_append (t : Nat) (fs gs : List (Nat × Wire)) :
    withTag t (fs ++ gs) = withTag t fs ++ withTag t gs := by simp [withTag]

/-- The payloads of one message field. -/
def wU64 (x : U64) : List Wire := if x = 0 then [] else [.varint x.toNat]
def wEnum (x : I32) : List Wire := if x = 0 then [] else [.varint (x.signExtend 64).toNat]
def wBool (x : Bool) : List Wire := if x then [.varint 1] else []
def wBytes (x : Bytes) : List Wire := if x = [] then [] else [.len x]
def wOptU64 (x : Option U64) : List Wire := x.toList.map (fun v => .varint v.toNat)
def wOptEnum (x : Option I32) : List Wire := x.toList.map (fun v => .varint (v.signExtend 64).toNat)
def wOptBytes (x : Option Bytes) : List Wire := x.toList.map .len
def wRep (x : List Bytes) : List Wire := x.map .len
def wOptMsg (x : Option ReservedMetadata) : List Wire := x.toList.map (fun m => .len (encFields m.fields))

@[simp] theorem withTag_fU64 (t t' : Nat) (x : U64) :
    withTag t (fU64 t' x) = if t' = t then wU64 x else [] := by
  unfold fU64 wU64 withTag; repeat' split
  all_goals simp_all
@[simp] theorem withTag_fEnum (t t' : Nat) (x : I32) :
    withTag t (fEnum t' x) = if t' = t then wEnum x else [] := by
  unfold fEnum wEnum withTag; repeat' split
  all_goals simp_all
@[simp] theorem withTag_fBool (t t' : Nat) (x : Bool) :
    withTag t (fBool t' x) = if t' = t then wBool x else [] := by
  unfold fBool wBool withTag; repeat' split
  all_goals simp_all
@[simp] theorem withTag_fBytes (t t' : Nat) (x : Bytes) :
    withTag t (fBytes t' x) = if t' = t then wBytes x else [] := by
  unfold fBytes wBytes withTag; repeat' split
  all_goals simp_all
@[simp] theorem withTag_fOptU64 (t t' : Nat) (x : Option U64) :
    withTag t (fOptU64 t' x) = if t' = t then wOptU64 x else [] := by
  cases x <;> by_cases h : t' = t <;> simp [fOptU64, wOptU64, withTag, h]
@[simp] theorem withTag_fOptEnum (t t' : Nat) (x : Option I32) :
    withTag t (fOptEnum t' x) = if t' = t then wOptEnum x else [] := by
  cases x <;> by_cases h : t' = t <;> simp [fOptEnum, wOptEnum, withTag, h]
@[simp] theorem withTag_fOptBytes (t t' : Nat) (x : Option Bytes) :
    withTag t (fOptBytes t' x) = if t' = t then wOptBytes x else [] := by
  cases x <;> by_cases h : t' = t <;> simp [fOptBytes, wOptBytes, withTag, h]
@[simp] theorem withTag_fOptMsg (t t' : Nat) (x : Option ReservedMetadata) :
    withTag t (fOptMsg t' x) = if t' = t then wOptMsg x else [] := by
  cases x <;> by_cases h : t' = t <;> simp [fOptMsg, wOptMsg, withTag, h]
@[simp] theorem withTag_fRep (t t' : Nat) (x : List Bytes) :
    withTag t (fRep t' x) = if t' = t then wRep x else [] := by
  unfold fRep wRep withTag
  induction x with
  | nil => simp
  | cons b x ih => split <;> simp_all

theorem signExtend_inj {a b : I32} (h : (a.signExtend 64).toNat = (b.signExtend 64).toNat) : a = b := by
  have h := BitVec.eq_of_toNat_eq h
  apply BitVec.eq_of_getLsbD_eq
  intro i hi
  have := congrArg (fun x => x.getLsbD i) h
  simp only [BitVec.getLsbD_signExtend] at this
  have h64 : i < 64 := by omega
  simpa [hi, h64] using this

theorem wU64_inj {a b : U64} (h : wU64 a = wU64 b) : a = b := by
  unfold wU64 at h
  repeat' split at h
  all_goals simp_all [BitVec.toNat_inj]
theorem wEnum_inj {a b : I32} (h : wEnum a = wEnum b) : a = b := by
  unfold wEnum at h
  split at h <;> split at h
  · simp_all
  · simp_all
  · simp_all
  · simp only [List.cons.injEq, Wire.varint.injEq, and_true] at h
    exact signExtend_inj h
theorem wBool_inj {a b : Bool} (h : wBool a = wBool b) : a = b := by
  revert h; cases a <;> cases b <;> decide
theorem wBytes_inj {a b : Bytes} (h : wBytes a = wBytes b) : a = b := by
  unfold wBytes at h
  repeat' split at h
  all_goals simp_all
theorem wOptU64_inj {a b : Option U64} (h : wOptU64 a = wOptU64 b) : a = b := by
  cases a <;> cases b <;> simp_all [wOptU64, BitVec.toNat_inj]
theorem wOptEnum_inj {a b : Option I32} (h : wOptEnum a = wOptEnum b) : a = b := by
  cases a <;> cases b
  · rfl
  · simp [wOptEnum] at h
  · simp [wOptEnum] at h
  · simp only [wOptEnum, Option.toList, List.map_cons, List.map_nil, List.cons.injEq,
      Wire.varint.injEq, and_true] at h
    rw [signExtend_inj h]
theorem wOptBytes_inj {a b : Option Bytes} (h : wOptBytes a = wOptBytes b) : a = b := by
  cases a <;> cases b <;> simp_all [wOptBytes]
theorem wRep_inj {a b : List Bytes} (h : wRep a = wRep b) : a = b := by
  unfold wRep at h
  exact (List.map_inj_right (fun _ _ h => by simpa using h)).mp h

theorem ReservedMetadata.fields_inj {a b : ReservedMetadata} (h : a.fields = b.fields) : a = b := by
  obtain ⟨a⟩ := a
  obtain ⟨b⟩ := b
  cases a <;> cases b <;> simp_all [ReservedMetadata.fields, fOptFloat]

theorem wOptMsg_inj {a b : Option ReservedMetadata} (h : wOptMsg a = wOptMsg b) : a = b := by
  cases a <;> cases b
  · rfl
  · simp [wOptMsg] at h
  · simp [wOptMsg] at h
  · simp only [wOptMsg, Option.toList, List.map_cons, List.map_nil, List.cons.injEq,
      Wire.len.injEq, and_true] at h
    rw [ReservedMetadata.fields_inj (encFields_inj _ _ h)]

theorem DelegateBody.fields_inj {a b : DelegateBody} (h : a.fields = b.fields) : a = b := by
  have t := fun n => congrArg (withTag n) h
  have t1 := t 1; have t2 := t 2; have t3 := t 3; have t4 := t 4; have t5 := t 5; have t6 := t 6
  have t7 := t 7
  simp [DelegateBody.fields] at t1 t2 t3 t4 t5 t6 t7
  obtain ⟨⟩ := a
  obtain ⟨⟩ := b
  simp only [DelegateBody.mk.injEq]
  exact ⟨wU64_inj t1, wBytes_inj t2, wBytes_inj t3, wBytes_inj t4, wEnum_inj t5, wBytes_inj t6,
    wBytes_inj t7⟩

theorem TransferBody.fields_inj {a b : TransferBody} (h : a.fields = b.fields) : a = b := by
  have t := fun n => congrArg (withTag n) h
  have t1 := t 1; have t2 := t 2; have t3 := t 3; have t4 := t 4; have t5 := t 5; have t6 := t 6
  have t7 := t 7
  simp [TransferBody.fields] at t1 t2 t3 t4 t5 t6 t7
  obtain ⟨⟩ := a
  obtain ⟨⟩ := b
  simp only [TransferBody.mk.injEq]
  exact ⟨wU64_inj t1, wBytes_inj t2, wBytes_inj t3, wBytes_inj t4, wEnum_inj t5, wBytes_inj t6,
    wBytes_inj t7⟩

theorem WithdrawBody.fields_inj {a b : WithdrawBody} (h : a.fields = b.fields) : a = b := by
  have t := fun n => congrArg (withTag n) h
  have t1 := t 1; have t2 := t 2; have t3 := t 3; have t4 := t 4; have t5 := t 5; have t6 := t 6
  have t7 := t 7
  simp [WithdrawBody.fields] at t1 t2 t3 t4 t5 t6 t7
  obtain ⟨⟩ := a
  obtain ⟨⟩ := b
  simp only [WithdrawBody.mk.injEq]
  exact ⟨wU64_inj t1, wBytes_inj t2, wBytes_inj t3, wBytes_inj t4, wEnum_inj t5, wBytes_inj t6,
    wBytes_inj t7⟩

theorem BidBody.fields_inj {a b : BidBody} (h : a.fields = b.fields) : a = b := by
  have t := fun n => congrArg (withTag n) h
  have t1 := t 1; have t2 := t 2; have t3 := t 3; have t4 := t 4; have t5 := t 5; have t6 := t 6
  simp [BidBody.fields] at t1 t2 t3 t4 t5 t6
  obtain ⟨⟩ := a
  obtain ⟨⟩ := b
  simp only [BidBody.mk.injEq]
  exact ⟨wU64_inj t1, wBytes_inj t2, wBytes_inj t3, wBytes_inj t4, wBytes_inj t5, wEnum_inj t6⟩

theorem SettleBody.fields_inj {a b : SettleBody} (h : a.fields = b.fields) : a = b := by
  have t := fun n => congrArg (withTag n) h
  have t1 := t 1; have t2 := t 2; have t3 := t 3; have t4 := t 4; have t5 := t 5
  simp [SettleBody.fields] at t1 t2 t3 t4 t5
  obtain ⟨⟩ := a
  obtain ⟨⟩ := b
  simp only [SettleBody.mk.injEq]
  exact ⟨wU64_inj t1, wBytes_inj t2, wBytes_inj t3, wBytes_inj t4, wEnum_inj t5⟩

theorem ExecuteBody.fields_inj {a b : ExecuteBody} (h : a.fields = b.fields) : a = b := by
  have t := fun n => congrArg (withTag n) h
  have t1 := t 1; have t2 := t 2; have t3 := t 3; have t4 := t 4; have t5 := t 5; have t6 := t 6
  have t7 := t 7; have t8 := t 8; have t9 := t 9; have t10 := t 10
  simp [ExecuteBody.fields] at t1 t2 t3 t4 t5 t6 t7 t8 t9 t10
  obtain ⟨⟩ := a
  obtain ⟨⟩ := b
  simp only [ExecuteBody.mk.injEq]
  exact ⟨wU64_inj t1, wBytes_inj t2, wEnum_inj t3, wOptBytes_inj t4, wOptU64_inj t5, wOptU64_inj t6,
    wBytes_inj t7, wOptBytes_inj t8, wOptEnum_inj t9, wEnum_inj t10⟩

theorem FulfillBody.fields_inj {a b : FulfillBody} (h : a.fields = b.fields) : a = b := by
  have t := fun n => congrArg (withTag n) h
  have t1 := t 1; have t2 := t 2; have t3 := t 3; have t4 := t 4; have t5 := t 5; have t6 := t 6
  simp [FulfillBody.fields] at t1 t2 t3 t4 t5 t6
  obtain ⟨⟩ := a
  obtain ⟨⟩ := b
  simp only [FulfillBody.mk.injEq]
  exact ⟨wU64_inj t1, wBytes_inj t2, wBytes_inj t3, wOptMsg_inj t4, wBytes_inj t5, wEnum_inj t6⟩

theorem RequestBody.fields_inj {a b : RequestBody} (h : a.fields = b.fields) : a = b := by
  have t := fun n => congrArg (withTag n) h
  have t1 := t 1; have t2 := t 2; have t3 := t 3; have t4 := t 4; have t5 := t 5; have t6 := t 6
  have t7 := t 7; have t8 := t 8; have t9 := t 9; have t10 := t 10; have t11 := t 11
  have t12 := t 12; have t13 := t 13; have t14 := t 14; have t15 := t 15; have t16 := t 16
  have t17 := t 17; have t18 := t 18; have t19 := t 19; have t20 := t 20; have t21 := t 21
  simp [RequestBody.fields] at t1 t2 t3 t4 t5 t6 t7 t8 t9 t10 t11 t12 t13 t14 t15 t16 t17 t18 t19 t20 t21
  obtain ⟨⟩ := a
  obtain ⟨⟩ := b
  simp only [RequestBody.mk.injEq]
  exact ⟨wU64_inj t1, wBytes_inj t2, wBytes_inj t3, wEnum_inj t4, wEnum_inj t5, wBytes_inj t6,
    wU64_inj t7, wU64_inj t8, wU64_inj t9, wU64_inj t10, wRep_inj t11, wBytes_inj t12, wBytes_inj t13,
    wBytes_inj t14, wBytes_inj t15, wOptBytes_inj t16, wBytes_inj t17, wBytes_inj t18, wEnum_inj t19,
    wBytes_inj t20, wBool_inj t21⟩

/-! ## Kinds -/

/-- The kind of a message body. -/
def Body.kind : Body → Variant
  | .delegate _ => .delegate | .transfer _ => .transfer | .withdraw _ => .withdraw
  | .request _ => .request | .bid _ => .bid | .settle _ => .settle | .execute _ => .execute
  | .fulfill _ => .fulfill

/-- The variant field a message body carries. -/
def Body.variant : Body → I32
  | .delegate b => b.variant | .transfer b => b.variant | .withdraw b => b.variant
  | .request b => b.variant | .bid b => b.variant | .settle b => b.variant | .execute b => b.variant
  | .fulfill b => b.variant

/-- The domain field a message body carries. -/
def Body.domain : Body → Bytes
  | .delegate b => b.domain | .transfer b => b.domain | .withdraw b => b.domain
  | .request b => b.domain | .bid b => b.domain | .settle b => b.domain | .execute b => b.domain
  | .fulfill b => b.domain

/-- The message declares its own kind and a 32-byte domain: what every message passes before the
ledger acts on it. -/
structure Body.Declared (b : Body) : Prop where
  variant : Variant.ofI32? b.variant = some b.kind
  domain : b.domain.length = 32

theorem Variant.ofI32?_eq {v : I32} {k : Variant} (h : Variant.ofI32? v = some k) : v = k.toI32 := by
  unfold Variant.ofI32? at h
  repeat' split at h
  all_goals first | (cases h; subst_vars; rfl) | cases h

theorem wEnum_toI32 (k : Variant) :
    wEnum k.toI32 = (match k with
      | .request => [] | .bid => [.varint 1] | .settle => [.varint 2] | .execute => [.varint 3]
      | .fulfill => [.varint 4] | .delegate => [.varint 5] | .transfer => [.varint 6]
      | .withdraw => [.varint 7]) := by
  cases k <;> decide +kernel

theorem wBytes_ne_nil {b : Bytes} (h : b.length = 32) : wBytes b = [.len b] := by
  unfold wBytes
  rw [if_neg]
  intro h'
  rw [h'] at h
  cases h

theorem wBytes_ne_varint (b : Bytes) (n : Nat) (l : List Wire) : wBytes b ≠ .varint n :: l := by
  unfold wBytes; split <;> simp

/-- What tells the kinds apart on the wire. -/
theorem Body.kind_of_fields {a b : Body} (ha : a.Declared) (hb : b.Declared)
    (h : a.fields = b.fields) : a.kind = b.kind := by
  have t := fun n => congrArg (withTag n) h
  have va := Variant.ofI32?_eq ha.variant
  have vb := Variant.ofI32?_eq hb.variant
  have da := wBytes_ne_nil ha.domain
  have db := wBytes_ne_nil hb.domain
  have t5 := t 5; have t6 := t 6; have t10 := t 10; have t12 := t 12
  clear t h ha hb
  cases a <;> cases b <;> first | rfl | skip
  all_goals
    exfalso
    simp only [Body.variant, Body.kind, Body.domain] at va vb da db
    simp [Body.fields, DelegateBody.fields, TransferBody.fields, WithdrawBody.fields,
      RequestBody.fields, BidBody.fields, SettleBody.fields, ExecuteBody.fields,
      FulfillBody.fields, va, vb, da, db, wEnum_toI32, wBytes_ne_varint,
      (wBytes_ne_varint _ _ _).symm] at t5 t6 t10 t12

theorem Body.fields_inj {a b : Body} (ha : a.Declared) (hb : b.Declared)
    (h : a.fields = b.fields) : a = b := by
  have hk := Body.kind_of_fields ha hb h
  clear ha hb
  cases a <;> cases b <;> first | (cases hk; done) | skip
  · exact congrArg _ (DelegateBody.fields_inj h)
  · exact congrArg _ (TransferBody.fields_inj h)
  · exact congrArg _ (WithdrawBody.fields_inj h)
  · exact congrArg _ (RequestBody.fields_inj h)
  · exact congrArg _ (BidBody.fields_inj h)
  · exact congrArg _ (SettleBody.fields_inj h)
  · exact congrArg _ (ExecuteBody.fields_inj h)
  · exact congrArg _ (FulfillBody.fields_inj h)

theorem Body.fields_domain {b : Body} (h : b.domain.length = 32) : ∃ t, (t, Wire.len b.domain) ∈ b.fields := by
  have hd : b.domain ≠ [] := by intro h'; rw [h'] at h; cases h
  have hf : ∀ t, fBytes t b.domain = [(t, Wire.len b.domain)] := fun t => by
    unfold fBytes; rw [if_neg hd]
  cases b <;> simp only [Body.domain] at hf ⊢ <;>
    simp only [Body.fields, DelegateBody.fields, TransferBody.fields, WithdrawBody.fields,
      RequestBody.fields, BidBody.fields, SettleBody.fields, ExecuteBody.fields,
      FulfillBody.fields, hf, List.mem_append, List.mem_singleton]
  · exact ⟨4, by simp⟩
  · exact ⟨4, by simp⟩
  · exact ⟨4, by simp⟩
  · exact ⟨12, by simp⟩
  · exact ⟨4, by simp⟩
  · exact ⟨4, by simp⟩
  · exact ⟨7, by simp⟩
  · exact ⟨5, by simp⟩

theorem encFields_length_of_mem {fs : List (Nat × Wire)} {f : Nat × Wire} (h : f ∈ fs) :
    (encField f).length ≤ (encFields fs).length := by
  unfold encFields
  induction fs with
  | nil => cases h
  | cons g fs ih =>
    rw [List.flatMap_cons, List.length_append]
    rcases List.mem_cons.mp h with rfl | h
    · omega
    · have := ih h; omega

/-- A message is longer than a hash. -/
theorem Body.encode_length {b : Body} (h : b.domain.length = 32) : 32 < b.encode.length := by
  obtain ⟨t, ht⟩ := Body.fields_domain h
  have := encFields_length_of_mem ht
  unfold Body.encode
  have hv := List.length_pos_iff.mpr (varint_ne_nil (t * 8 + 2))
  simp only [encField, List.length_append, h] at this
  omega

end Verif
