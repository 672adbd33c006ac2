import Verif.Abi
/-
# Round trip of the ABI codec
-/

namespace Verif

/-- `x` is found in `bs` at offset `o`. -/
def At (bs : Bytes) (o : Nat) (x : Bytes) : Prop := ∃ pre post, bs = pre ++ (x ++ post) ∧ pre.length = o

theorem At.self (x : Bytes) : At x 0 x := ⟨[], [], by simp, rfl⟩

theorem At.left {bs x y : Bytes} {o : Nat} (h : At bs o (x ++ y)) : At bs o x := by
  obtain ⟨pre, post, h1, h2⟩ := h
  exact ⟨pre, y ++ post, by rw [h1, List.append_assoc], h2⟩

theorem At.right {bs x y : Bytes} {o : Nat} (h : At bs o (x ++ y)) : At bs (o + x.length) y := by
  obtain ⟨pre, post, h1, h2⟩ := h
  exact ⟨pre ++ x, post, by rw [h1]; simp [List.append_assoc], by rw [List.length_append, h2]⟩

theorem At.right' {bs x y : Bytes} {o n : Nat} (h : At bs o (x ++ y)) (hn : o + x.length = n) :
    At bs n y := hn ▸ h.right

theorem At.le {bs x : Bytes} {o : Nat} (h : At bs o x) : o + x.length ≤ bs.length := by
  obtain ⟨pre, post, h1, h2⟩ := h
  rw [h1, List.length_append, List.length_append]
  omega

theorem At.take {bs x : Bytes} {o : Nat} (h : At bs o x) : (bs.drop o).take x.length = x := by
  obtain ⟨pre, post, h1, h2⟩ := h
  rw [h1, List.drop_left' h2, List.take_left']
  rfl

theorem abiWord_len (n : Nat) : (abiWord n).length = 32 := beBytes_length 32 n

theorem readWord_at {bs : Bytes} {o n : Nat} (hn : n < 2 ^ 256) (h : At bs o (abiWord n)) :
    readWord bs o = some n := by
  have h1 := h.le
  have h2 := h.take
  rw [abiWord_len] at h1 h2
  unfold readWord
  rw [if_pos h1, h2]
  unfold abiWord
  rw [beNat_beBytes, Nat.mod_eq_of_lt (by exact hn)]

theorem readWord_bytes {bs : Bytes} {o : Nat} {w : B256} (h : At bs o (B256.bytes w)) :
    readWord bs o = some w.toNat := readWord_at (n := w.toNat) w.isLt h

theorem decBytes_at {bs b : Bytes} {o : Nat} (hb : b.length < 2 ^ 256) (h : At bs o (encBytes b)) :
    decBytes bs o = some b := by
  unfold encBytes at h
  have h1 := h.left
  have h2 := readWord_at hb h1.left
  have h3 := h1.right
  rw [abiWord_len] at h3
  unfold decBytes
  rw [h2]
  have h4 := h3.le
  simp only
  rw [if_pos h4, h3.take]

theorem TxVariant.ofCode_code (v : TxVariant) : TxVariant.ofCode v.code = some v := by cases v <;> rfl
theorem TxStatus.ofCode_code (v : TxStatus) : TxStatus.ofCode v.code = some v := by cases v <;> rfl
theorem TxVariant.code_lt (v : TxVariant) : v.code < 2 ^ 256 := by cases v <;> decide
theorem TxStatus.code_lt (v : TxStatus) : v.code < 2 ^ 256 := by cases v <;> decide

theorem word64_toNat (x : U64) : word64 x.toNat = some x := by
  unfold word64
  rw [if_pos x.isLt]
  simp

theorem U64.lt256 (x : U64) : x.toNat < 2 ^ 256 := Nat.lt_trans x.isLt (by decide)

theorem decReceipt_at {bs : Bytes} {o : Nat} (hbs : bs.length < 2 ^ 256) (r : SolReceipt)
    (h : At bs o (encReceipt r)) : decReceipt bs o = some r := by
  unfold encReceipt at h
  have e1 := readWord_at r.variant.code_lt h.left
  have h := h.right' (n := o + 32) (by rw [abiWord_len])
  have e2 := readWord_at r.status.code_lt h.left
  have h := h.right' (n := o + 64) (by rw [abiWord_len])
  have e3 := readWord_at (U64.lt256 _) h.left
  have h := h.right' (n := o + 96) (by rw [abiWord_len])
  have e4 := readWord_at (by decide) h.left
  have h := h.right' (n := o + 128) (by rw [abiWord_len])
  have hl := h.le
  have hl2 : r.action.length ≤ (encBytes r.action).length := by
    unfold encBytes; simp only [List.length_append]; omega
  have e5 := decBytes_at (by omega) h
  unfold decReceipt
  simp only [e1, e2, e3, e4, e5, TxVariant.ofCode_code, TxStatus.ofCode_code, word64_toNat,
    Option.bind_eq_bind, Option.bind_some]
  rfl

theorem decElems_at {bs : Bytes} (hbs : bs.length < 2 ^ 256) (base : Nat) (rs : List SolReceipt) :
    ∀ (i o : Nat), At bs (base + 32 * i) (encOffsets rs o) → At bs (base + o) (rs.flatMap encReceipt) →
      decElems bs base rs.length i = some rs := by
  induction rs with
  | nil => intro i o _ _; rfl
  | cons r rs ih =>
    intro i o h1 h2
    rw [encOffsets] at h1
    rw [List.flatMap_cons] at h2
    have hle := h2.le
    have e1 := readWord_at (by omega) h1.left
    have e2 := decReceipt_at hbs r h2.left
    have e3 := ih (i + 1) (o + (encReceipt r).length) (h1.right' (by rw [abiWord_len]; omega))
      (h2.right' (by omega))
    rw [List.length_cons, decElems]
    simp only [e1, e2, e3, Option.bind_eq_bind, Option.bind_some]
    rfl

theorem encOffsets_length (rs : List SolReceipt) : ∀ o, (encOffsets rs o).length = 32 * rs.length := by
  induction rs with
  | nil => intro o; rfl
  | cons r rs ih =>
    intro o
    rw [encOffsets, List.length_append, abiWord_len, ih, List.length_cons]
    omega

theorem decReceipts_at {bs : Bytes} {o : Nat} (hbs : bs.length < 2 ^ 256) (rs : List SolReceipt)
    (h : At bs o (encReceipts rs)) : decReceipts bs o = some rs := by
  have hle := h.le
  unfold encReceipts at h hle
  simp only [List.length_append, encOffsets_length, abiWord_len] at hle
  have e1 := readWord_at (by omega) h.left
  have h2 := h.right' (n := o + 32) (by rw [abiWord_len])
  unfold decReceipts
  simp only [e1, Option.bind_eq_bind, Option.bind_some]
  apply decElems_at hbs (o + 32) rs 0 (32 * rs.length)
  · exact h2.left
  · exact h2.right' (by rw [encOffsets_length])

theorem decode_at {bs : Bytes} (s : StepValues) (hs : bs.length < 2 ^ 256) (h : At bs 0 s.encode) :
    StepValues.decode bs = some s := by
  unfold StepValues.encode at h
  have e0 := readWord_at (by decide) h.left
  have h := h.right' (n := 32) (by rw [abiWord_len])
  have e1 := readWord_bytes h.left
  have h := h.right' (n := 32 + 32) (by rw [B256.bytes_length])
  have e2 := readWord_bytes h.left
  have h := h.right' (n := 32 + 64) (by rw [B256.bytes_length])
  have e3 := readWord_at (U64.lt256 _) h.left
  have h := h.right' (n := 32 + 96) (by rw [abiWord_len])
  have e4 := readWord_at (by decide) h.left
  have h := h.right' (n := 32 + 128) (by rw [abiWord_len])
  have e5 := decReceipts_at hs _ h
  unfold StepValues.decode
  simp only [e0, e1, e2, e3, e4, e5, word64_toNat, Option.bind_eq_bind, Option.bind_some]
  simp

/-- Decoding an encoding gives the value back. -/
theorem decode_encode (s : StepValues) (hs : s.encode.length < 2 ^ 256) :
    StepValues.decode s.encode = some s := decode_at s hs (At.self _)

end Verif
