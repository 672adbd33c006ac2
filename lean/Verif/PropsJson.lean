import Verif.JsonProofs
import Verif.PropsWire
/-
# C88: messages signed as JSON
-/

namespace Verif
open Json Domain Node

/-- Metadata without a ratio, or with one that is no finite number. -/
def ReservedMetadata.NoRatio (m : ReservedMetadata) : Prop := ∀ w, m.onDemandRatio = some w → finite w = false

/-- Two messages that are equal, up to ratios in the metadata of a fulfilment that are no finite numbers. -/
def Body.Alike (a b : Body) : Prop :=
  a = b ∨ ∃ (x : FulfillBody) (m m' : ReservedMetadata), a = .fulfill { x with reservedMetadata := some m } ∧ b = .fulfill { x with reservedMetadata := some m' } ∧
    m.NoRatio ∧ m'.NoRatio

theorem seen_eq {m m' : ReservedMetadata} (h : seen m = seen m') : m = m' ∨ m.NoRatio ∧ m'.NoRatio := by
  obtain ⟨o⟩ := m
  obtain ⟨o'⟩ := m'
  have h : o.filter finite = o'.filter finite := ReservedMetadata.mk.inj h
  have key : ∀ o : Option (BitVec 32), o.filter finite = none → ReservedMetadata.NoRatio ⟨o⟩ := by
    intro o ho w hw
    have hw : o = some w := hw
    rw [hw] at ho
    simpa [Option.filter] using ho
  have key2 : ∀ (o : Option (BitVec 32)) w, o.filter finite = some w → o = some w := by
    intro o w ho
    cases o with
    | none => exact nomatch ho
    | some v =>
      simp only [Option.filter] at ho
      split at ho
      · exact ho
      · exact nomatch ho
  cases e : o.filter finite with
  | none => exact Or.inr ⟨key o e, key o' (by rw [← h, e])⟩
  | some w => exact Or.inl (by rw [key2 o w e, key2 o' w (by rw [← h, e])])

attribute [ext] DelegateBody TransferBody WithdrawBody RequestBody BidBody SettleBody ExecuteBody

/-- **C88, JSON texts are unambiguous.** Two messages, of the same or of different kinds, with the same JSON text are
equal, up to ratios that are no finite numbers. -/
theorem c88_json {ryu : BitVec 32 → Bytes} (hr : Ryu ryu) {a b : Body} (h : body ryu a = body ryu b) : a.Alike b := by
  replace h := fields_inj hr h
  cases a <;> cases b <;>
    simp only [fields, delegate, transfer, withdraw, request, bid, settle, Json.execute, fulfill, List.map_cons, List.map_nil,
      List.cons.injEq, Prod.mk.injEq, Val.seen, Val.u64.injEq, Val.bytes.injEq, Val.i32.injEq, Val.string.injEq, Val.list.injEq,
      Val.optBytes.injEq, Val.optU64.injEq, Val.optI32.injEq, Val.optString.injEq, Val.bool.injEq, Val.metadata.injEq,
      true_and, and_true, String.reduceEq, false_and, and_false, reduceCtorEq] at h
  all_goals rename_i x y
  · exact Or.inl (congrArg _ (by ext1 <;> simp only [h]))
  · exact Or.inl (congrArg _ (by ext1 <;> simp only [h]))
  · exact Or.inl (congrArg _ (by ext1 <;> simp only [h]))
  · exact Or.inl (congrArg _ (by ext1 <;> simp only [h]))
  · exact Or.inl (congrArg _ (by ext1 <;> simp only [h]))
  · exact Or.inl (congrArg _ (by ext1 <;> simp only [h]))
  · exact Or.inl (congrArg _ (by ext1 <;> simp only [h]))
  obtain ⟨h1, h2, h3, h4, h5, h6⟩ := h
  obtain ⟨n, i, p, o, d, v⟩ := x
  obtain ⟨n', i', p', o', d', v'⟩ := y
  dsimp only at h1 h2 h3 h4 h5 h6
  subst h1 h2 h3 h5 h6
  cases o with
  | none =>
    cases o' with
    | none => exact Or.inl rfl
    | some m' => exact nomatch h4
  | some m =>
    cases o' with
    | none => exact nomatch h4
    | some m' =>
      rcases seen_eq (Option.some.inj h4) with e | ⟨e1, e2⟩
      · left; rw [e]
      · exact Or.inr ⟨⟨n, i, p, none, d, v⟩, m, m', rfl, rfl, e1, e2⟩

/-- The first byte of a binary encoding is never a brace. -/
theorem encode_head (b : Body) (t : Bytes) : b.encode ≠ 123 :: t := by
  unfold Body.encode encFields
  have key : ∀ n k t, k < 8 → k ≠ 3 → varint (n * 8 + k) ++ t ≠ [] ∧ ∀ u, varint (n * 8 + k) ++ t ≠ 123 :: u := by
    intro n k t hk h3
    rw [varint_eq]
    split
    · refine ⟨by simp, fun u e => ?_⟩
      have e := (List.cons.inj e).1
      have := congrArg UInt8.toNat e
      simp at this
      omega
    · refine ⟨by simp, fun u e => ?_⟩
      have e := (List.cons.inj e).1
      have := congrArg UInt8.toNat e
      simp at this
      omega
  cases b.fields with
  | nil => exact fun h => nomatch h
  | cons f fs =>
    rw [List.flatMap_cons]
    obtain ⟨tag, w⟩ := f
    cases w with
    | varint n =>
      unfold encField
      rw [List.append_assoc]
      exact (key tag 0 _ (by decide) (by decide)).2 t
    | len bs =>
      unfold encField
      rw [List.append_assoc]
      exact (key tag 2 _ (by decide) (by decide)).2 t
    | fixed32 w =>
      unfold encField
      rw [List.append_assoc]
      exact (key tag 5 _ (by decide) (by decide)).2 t

/-- **C88, formats are not confused.** The JSON text of a message is the binary encoding of no message. -/
theorem c88_formats (ryu : BitVec 32 → Bytes) (a b : Body) : body ryu a ≠ b.encode :=
  fun h => encode_head b _ h.symm

/-! ## Lengths -/

theorem length_commas (ts : List Bytes) : (ts.map List.length).sum ≤ (commas ts).length := by
  induction ts with
  | nil => exact Nat.le_refl _
  | cons t ts ih =>
    rw [commas_cons, List.map_cons, List.sum_cons, List.length_append]
    cases ts with
    | nil => simp [more]
    | cons u us =>
      dsimp only [more, List.length_cons]
      omega

theorem length_string (s : Bytes) : s.length + 2 ≤ (Json.string s).length := by
  have : s.length ≤ (s.flatMap escape).length := by
    induction s with
    | nil => exact Nat.le_refl _
    | cons b s ih =>
      obtain ⟨c, t, hc, _⟩ := escape_head b
      rw [List.flatMap_cons, List.length_append, hc, List.length_cons, List.length_cons]
      omega
  unfold Json.string
  simp only [List.length_cons, List.length_append, List.length_nil]
  omega

theorem length_body (ryu : BitVec 32 → Bytes) (b : Body) : ((fields b).map fun f => f.1.length + 3).sum ≤ (body ryu b).length := by
  unfold body object
  rw [List.length_cons, List.length_append, List.map_map]
  have h1 := length_commas ((fields b).map ((fun f : Bytes × Bytes => Json.string f.1 ++ 58 :: f.2) ∘
    fun f => (ascii f.1.toList, f.2.text ryu)))
  rw [List.map_map] at h1
  have h2 : ∀ fs : List (String × Val), (fs.map fun f => f.1.length + 3).sum ≤
      (fs.map (List.length ∘ (fun f : Bytes × Bytes => Json.string f.1 ++ 58 :: f.2) ∘
        fun f => (ascii f.1.toList, f.2.text ryu))).sum := by
    intro fs
    induction fs with
    | nil => exact Nat.le_refl _
    | cons f fs ih =>
      rw [List.map_cons, List.map_cons, List.sum_cons, List.sum_cons]
      have h3 := length_string (ascii f.1.toList)
      have h4 : (ascii f.1.toList).length = f.1.length := by
        unfold ascii
        rw [List.length_map]; exact String.length_toList
      have h5 : (List.length ∘ (fun f : Bytes × Bytes => Json.string f.1 ++ 58 :: f.2) ∘
        fun f => (ascii f.1.toList, f.2.text ryu)) f = (Json.string (ascii f.1.toList)).length + (1 + (f.2.text ryu).length) := by
        show (Json.string (ascii f.1.toList) ++ 58 :: f.2.text ryu).length = _
        rw [List.length_append, List.length_cons, Nat.add_comm 1]
      omega
  have := h2 (fields b)
  omega

/-- **C88, no verification.** The JSON text of a message is never a 32-byte identity, which is what a verifier signs. -/
theorem c88_not_a_verification (ryu : BitVec 32 → Bytes) (b : Body) (id : B256) : body ryu b ≠ B256.bytes id := by
  intro h
  have h1 := length_body ryu b
  rw [h, B256.bytes_length] at h1
  have h2 : 33 ≤ ((fields b).map fun f => f.1.length + 3).sum := by
    cases b <;>
      simp only [fields, delegate, transfer, withdraw, request, bid, settle, Json.execute, fulfill, List.map_cons, List.map_nil,
        List.sum_cons, List.sum_nil] <;> decide
  omega

/-- **C88, what is hashed determines the message text.** The prefix of `personal_sign` with the length does not make two
texts the same. -/
theorem c88_personal {m m' : Bytes} (h : personal m = personal m') : m = m' := by
  unfold personal at h
  have h := List.append_cancel_left (List.cons.inj h).2
  have hlen := congrArg List.length h
  rw [List.length_append, List.length_append] at hlen
  have mono : ∀ n k : Nat, n ≤ k → (decimal n).length ≤ (decimal k).length := by
    intro n
    induction n using Nat.strongRecOn with
    | ind n ih =>
      intro k hk
      rw [decimal, decimal.eq_def k]
      by_cases hn : n < 10
      · rw [if_pos hn]
        split
        · exact Nat.le_refl _
        · simp
      · rw [if_neg hn, if_neg (by omega), List.length_append, List.length_append]
        have := ih (n / 10) (by omega) (k / 10) (by omega)
        simp only [List.length_singleton]
        omega
  have hl : m.length = m'.length := by
    rcases Nat.lt_trichotomy m.length m'.length with h1 | h1 | h1
    · have := mono _ _ (Nat.le_of_lt h1); omega
    · exact h1
    · have := mono _ _ (Nat.le_of_lt h1); omega
  rw [hl] at h
  exact List.append_cancel_left h

/-- **C88, a signature is for one message.** If the bytes that are signed for two messages on which ledgers act are the
same, in whatever formats, then the formats and the messages are the same, up to ratios that are no finite numbers. -/
theorem c88_signed {ryu : BitVec 32 → Bytes} (hr : Ryu ryu) (env : Env) (hj : ∀ b, env.json b = some (body ryu b))
    (tx tx' : Tx) (s s1 s' s1' : Ledger) (r r' : Result)
    (h : Ledger.execute env tx s = (r, s1)) (hacc : r.accepted = true)
    (h' : Ledger.execute env tx' s' = (r', s1')) (hacc' : r'.accepted = true)
    (b b' : Body) (hb : b ∈ tx.messages) (hb' : b' ∈ tx'.messages) (f f' : MessageFormat) (m : Bytes)
    (hm : messageBytes env b f = .ok m) (hm' : messageBytes env b' f' = .ok m) : f = f' ∧ b.Alike b' := by
  have key : ∀ b f m, messageBytes env b f = .ok m → f = .binary ∧ m = b.encode ∨ f = .json ∧ m = body ryu b := by
    intro b f m hm
    unfold messageBytes at hm
    cases f with
    | unspecified => exact nomatch hm
    | binary => exact Or.inl ⟨rfl, (Except.ok.inj hm).symm⟩
    | json =>
      dsimp only at hm
      rw [hj] at hm
      exact Or.inr ⟨rfl, (Except.ok.inj hm).symm⟩
  rcases key b f m hm with ⟨e1, e2⟩ | ⟨e1, e2⟩ <;> rcases key b' f' m hm' with ⟨e3, e4⟩ | ⟨e3, e4⟩
  · exact ⟨e1.trans e3.symm, Or.inl (c31_signed_bytes env m tx tx' s s1 s' s1' r r' h hacc h' hacc' b b' hb hb' e2.symm e4.symm)⟩
  · exact absurd (e4.symm.trans e2) (c88_formats ryu b' b)
  · exact absurd (e2.symm.trans e4) (c88_formats ryu b b')
  · exact ⟨e1.trans e3.symm, c88_json hr (e2.symm.trans e4)⟩

/-- The exception is real: a fulfilment without a ratio and one whose ratio is not a number have the same JSON text,
whatever the rendering of numbers. Their binary encodings differ. -/
theorem c88_ratio (ryu : BitVec 32 → Bytes) : ∃ x y : FulfillBody,
    x ≠ y ∧ body ryu (.fulfill x) = body ryu (.fulfill y) ∧ (Body.fulfill x).encode ≠ (Body.fulfill y).encode :=
  ⟨{ reservedMetadata := some ⟨none⟩ }, { reservedMetadata := some ⟨some 0x7fc00000⟩ }, by decide, rfl, by decide +kernel⟩

/-! ## Witnesses -/

/-- A rendering of numbers with the assumed properties. -/
theorem ryu_decimal : Ryu (fun w => decimal w.toNat) where
  inj v w _ _ h := BitVec.eq_of_toNat_eq (decimal_inj h)
  free w _ := digit_free w.toNat
  notNull w _ h := by
    obtain ⟨c, t, hc, _, hle⟩ := decimal_head w.toNat
    have h : decimal w.toNat = null := h
    rw [hc] at h
    exact small_ne hle (List.cons.inj h).1

/-- A JSON text, with escapes. -/
example : body (fun _ => []) (.transfer { nonce := 5, to := [1, 255], amount := ascii "a\"\\\n\x01".toList, variant := -6 }) =
    ascii "{\"nonce\":5,\"to\":[1,255],\"amount\":\"a\\\"\\\\\\n\\u0001\",\"domain\":[],\"variant\":-6,\"auctioneer\":[],\"fee\":\"\"}".toList := by
  decide +kernel

/-- The toy environment with JSON. -/
def Toy.jsonEnv : Env := { Toy.env with json := fun b => some (body (fun w => decimal w.toNat) b) }

/-- The hypotheses of `c88_signed` hold: a transfer signed as JSON is accepted. -/
example : (∀ b, Toy.jsonEnv.json b = some (body (fun w => decimal w.toNat) b)) ∧
    (Ledger.execute Toy.jsonEnv (match Toy.transfer Toy.bob 100 7 with | .transfer t => .transfer { t with format := 2 } | t => t)
      (Ledger.after Toy.jsonEnv [Toy.deposit1] (Ledger.new Toy.dom))).1 = .ok none := ⟨fun _ => rfl, by decide +kernel⟩

end Verif
