import Verif.PropsLedger2
import Verif.WireProofs
import Verif.MerkleSpec
/-
# C31 - C33: message encodings, transaction identities, verification keys

Specification vocabulary: `Body.kind`, `Body.variant`, `Body.domain`, `Body.Declared`
(`Verif/WireProofs.lean`), `SignedBy`, `identity`, `Tx.signedAs`, `Tx.hasId` (`Verif/Spec.lean`).
-/

namespace Verif

/-! ## C31 -/

/-- C31: two messages of the same kind with the same protobuf bytes are equal, field by field;
nothing is assumed about the messages. -/
theorem c31_same_kind (a b : Body) (hk : a.kind = b.kind) (h : a.encode = b.encode) : a = b := by
  have h := encFields_inj _ _ h
  cases a <;> cases b <;> first | (cases hk; done) | skip
  · exact congrArg _ (DelegateBody.fields_inj h)
  · exact congrArg _ (TransferBody.fields_inj h)
  · exact congrArg _ (WithdrawBody.fields_inj h)
  · exact congrArg _ (RequestBody.fields_inj h)
  · exact congrArg _ (BidBody.fields_inj h)
  · exact congrArg _ (SettleBody.fields_inj h)
  · exact congrArg _ (ExecuteBody.fields_inj h)
  · exact congrArg _ (FulfillBody.fields_inj h)

/-- C31: messages of any of the eight kinds that declare their kind and a 32-byte domain have the
same bytes only if they are the same message of the same kind. -/
theorem c31_unambiguous (a b : Body) (ha : a.Declared) (hb : b.Declared) (h : a.encode = b.encode) :
    a = b := Body.fields_inj ha hb (encFields_inj _ _ h)

/-- The declarations are needed: without them a delegation, a transfer and a withdrawal with the same
field values have the same bytes, so a signature on one would be a signature on the others. -/
theorem c31_declaration_needed :
    (Body.transfer { nonce := 1, to := [1], amount := [2] }).encode =
      (Body.withdraw { nonce := 1, account := [1], amount := [2] }).encode ∧
    (Body.transfer { nonce := 1, to := [1], amount := [2] }).encode =
      (Body.delegate { nonce := 1, delegate := [1], prover := [2] }).encode := by decide +kernel

/-- The messages of a transaction that the ledger acts on: one body for a delegation, a transfer or a
withdrawal; request, bid, settlement and execution for a clear, and the fulfilment unless the clear
is a punishment (execution status 3). -/
def Tx.messages : Tx → List Body
  | .deposit _ => []
  | .createProver _ => []
  | .delegate d => d.body.toList.map .delegate
  | .transfer d => d.body.toList.map .transfer
  | .withdraw d => d.body.toList.map .withdraw
  | .clear c => c.request.body.toList.map .request ++ c.bid.body.toList.map .bid ++
      c.settle.body.toList.map .settle ++ c.execute.body.toList.map .execute ++
      (if c.execute.body.map (·.executionStatus) = some 3 then []
       else (c.fulfill.bind (·.body)).toList.map .fulfill)

theorem declared_of {b : Body} {d : B256} (h1 : Variant.ofI32? b.variant = some b.kind)
    (h2 : b.domain = B256.bytes d) : b.Declared ∧ b.domain = B256.bytes d :=
  ⟨⟨h1, by rw [h2, B256.bytes_length]⟩, h2⟩

/-- C31: every message the ledger acts on declares its own kind, a 32-byte domain, and the domain of
this ledger; so `c31_unambiguous` applies to all of them. -/
theorem c31_accepted_declared (env : Env) (tx : Tx) (s s' : Ledger) (r : Result)
    (h : Ledger.execute env tx s = (r, s')) (hr : r.accepted = true) :
    ∀ b ∈ tx.messages, b.Declared ∧ b.domain = B256.bytes s.sc.domain := by
  obtain ⟨out, s1, hp, _, rfl⟩ := execute_accepted h hr
  cases tx with
  | deposit d => intro b hb; cases hb
  | createProver d => intro b hb; cases hb
  | delegate d =>
    obtain ⟨x, hpre, _⟩ := hp
    intro b hb
    simp only [Tx.messages, hpre.body, Option.toList, List.map_cons, List.map_nil,
      List.mem_singleton] at hb
    subst hb
    exact declared_of hpre.variant hpre.domain
  | transfer d =>
    obtain ⟨x, hpre, _⟩ := hp
    intro b hb
    simp only [Tx.messages, hpre.body, Option.toList, List.map_cons, List.map_nil,
      List.mem_singleton] at hb
    subst hb
    exact declared_of hpre.variant hpre.domain
  | withdraw d =>
    obtain ⟨x, hpre, _⟩ := hp
    intro b hb
    simp only [Tx.messages, hpre.body, Option.toList, List.map_cons, List.map_nil,
      List.mem_singleton] at hb
    subst hb
    exact declared_of hpre.variant hpre.domain
  | clear c =>
    obtain ⟨x, g, hpre, hc⟩ := hp
    intro b hb
    simp only [Tx.messages, hpre.request, hpre.bid, hpre.settle, hpre.execute, Option.toList,
      List.map_cons, List.map_nil, List.mem_append, List.mem_singleton, Option.map_some] at hb
    rcases hb with (((rfl | rfl) | rfl) | rfl) | hb
    · exact declared_of hpre.requestVariant hpre.requestDomain
    · exact declared_of hpre.bidVariant hpre.bidDomain
    · exact declared_of hpre.settleVariant hpre.settleDomain
    · exact declared_of hpre.executeVariant hpre.executeDomain
    · rcases hc with ⟨h3, _⟩ | ⟨⟨f, b', g', p, hpf⟩, _⟩
      · simp [h3] at hb
      · rw [hpf.executed] at hb
        simp [hpf.fulfill, hpf.body] at hb
        subst hb
        exact declared_of hpf.variant hpf.domain

/-- C31, signatures: the bytes a key holder signs determine the message. If `m` is what was signed,
then any two messages the ledger acted on (in any transactions, in any states, of any kinds) whose
protobuf bytes are `m` are the same message. -/
theorem c31_signed_bytes (env : Env) (m : Bytes) (tx tx' : Tx) (s s1 s' s1' : Ledger) (r r' : Result)
    (h : Ledger.execute env tx s = (r, s1)) (hr : r.accepted = true)
    (h' : Ledger.execute env tx' s' = (r', s1')) (hr' : r'.accepted = true)
    (b b' : Body) (hb : b ∈ tx.messages) (hb' : b' ∈ tx'.messages)
    (hm : b.encode = m) (hm' : b'.encode = m) : b = b' :=
  c31_unambiguous b b' (c31_accepted_declared env tx s s1 r h hr b hb).1
    (c31_accepted_declared env tx' s' s1' r' h' hr' b' hb').1 (hm.trans hm'.symm)

/-- C31: a message the ledger acts on is never the 32-byte fulfilment identity that a verifier
signs, so a verifier's signature can never be presented as a signature over a message or the other
way round. -/
theorem c31_not_a_verification (env : Env) (tx : Tx) (s s1 : Ledger) (r : Result)
    (h : Ledger.execute env tx s = (r, s1)) (hr : r.accepted = true) (b : Body) (hb : b ∈ tx.messages)
    (id : B256) : b.encode ≠ B256.bytes id := by
  intro he
  have := Body.encode_length (c31_accepted_declared env tx s s1 r h hr b hb).1.domain
  rw [he, B256.bytes_length] at this
  omega

/-- Witness: the accepted clear carries five messages, of five kinds, and the accepted transfer one
more. -/
example :
    ((Tx.clear (Toy.clear Toy.request 2 Toy.prover Toy.owner)).messages.map Body.kind =
      [.request, .bid, .settle, .execute, .fulfill]) ∧
    (Ledger.execute Toy.env (.clear (Toy.clear Toy.request 2 Toy.prover Toy.owner)) Toy.s2).1 = .ok none ∧
    ((Toy.transfer Toy.bob 100 7).messages.map Body.kind = [.transfer]) ∧
    (Ledger.execute Toy.env (Toy.transfer Toy.bob 100 7) Toy.s2).1 = .ok none := by decide +kernel

/-! ## C32 -/

theorem signedAs_mem {env : Env} {tx : Tx} {b : Body} {a : Address} (h : tx.signedAs env b a) :
    b ∈ tx.messages := by
  cases tx with
  | deposit _ => exact h.elim
  | createProver _ => exact h.elim
  | delegate d => obtain ⟨x, h1, rfl, _⟩ := h; simp [Tx.messages, h1]
  | transfer d => obtain ⟨x, h1, rfl, _⟩ := h; simp [Tx.messages, h1]
  | withdraw d => obtain ⟨x, h1, rfl, _⟩ := h; simp [Tx.messages, h1]
  | clear d => obtain ⟨x, h1, rfl, _⟩ := h; simp [Tx.messages, h1]

/-- C32: two accepted off-chain transactions (in any two states) with the same identity carry the
same message signed by the same key, unless the hash collides on the two signed strings. -/
theorem c32_identity (env : Env) (tx tx' : Tx) (s s1 s' s1' : Ledger) (r r' : Result)
    (h : Ledger.execute env tx s = (r, s1)) (hr : r.accepted = true)
    (h' : Ledger.execute env tx' s' = (r', s1')) (hr' : r'.accepted = true)
    (b b' : Body) (a a' : Address) (hb : tx.signedAs env b a) (hb' : tx'.signedAs env b' a')
    (hcf : CollisionFree env.keccak
      (fun x => x = Address.bytes a ++ b.encode ∨ x = Address.bytes a' ++ b'.encode))
    (hid : identity env a b = identity env a' b') : a = a' ∧ b = b' := by
  have e := hcf _ _ (.inl rfl) (.inr rfl) hid
  obtain ⟨e1, e2⟩ := List.append_inj e (by rw [Address.bytes_length, Address.bytes_length])
  exact ⟨Address.bytes_inj e1, c31_signed_bytes env _ tx tx' s s1 s' s1' r r' h hr h' hr' b b'
    (signedAs_mem hb) (signedAs_mem hb') e2 rfl⟩

/-- C32: an off-chain transaction has at most one identity. -/
theorem c32_one_identity (env : Env) (tx : Tx) (id id' : B256) (h : tx.hasId env id)
    (h' : tx.hasId env id') : id = id' := hasId_fun h h'

theorem done_congr {s : Ledger} {id id' : B256} (h : (B256.bytes id).take 20 = (B256.bytes id').take 20) :
    s.done id = s.done id' := by
  have e : B256.index id = B256.index id' := congrArg beNat h
  unfold Ledger.done
  rw [e]

/-- C32, slot clashes: identities that agree on their first 20 bytes share a storage slot. Once a
transaction has been accepted, no transaction whose identity clashes with it is accepted later: a
clash never lets a transaction be accepted twice, it only gets the later one rejected. -/
theorem c32_slot_clash (env : Env) (s s1 : Ledger) (tx1 tx2 : Tx) (r1 : Result) (mid : List Tx)
    (id1 id2 : B256) (h1 : Ledger.execute env tx1 s = (r1, s1)) (hr1 : r1.accepted = true)
    (hid1 : tx1.hasId env id1) (hid2 : tx2.hasId env id2)
    (hclash : (B256.bytes id1).take 20 = (B256.bytes id2).take 20) :
    (Ledger.execute env tx2 (Ledger.after env mid s1)).1.accepted = false := by
  have hd := after_mono env mid s1 id1 (accepted_done h1 hr1 hid1).2
  rw [done_congr hclash] at hd
  rcases h : Ledger.execute env tx2 (Ledger.after env mid s1) with ⟨r2, s2⟩
  cases hr : r2.accepted with
  | false => rfl
  | true => rw [(accepted_done h hr hid2).1] at hd; cases hd

/-- Witness for `c32_identity`: two different accepted transactions with collision-free, different
identities. -/
example : ∃ b b' : Body,
    (Toy.transfer Toy.bob 100 7).signedAs Toy.env b Toy.alice ∧
    (Toy.withdraw Toy.alice Toy.alice 30 2).signedAs Toy.env b' Toy.alice ∧
    (Ledger.execute Toy.env (Toy.transfer Toy.bob 100 7) Toy.s2).1.accepted = true ∧
    (Ledger.execute Toy.env (Toy.withdraw Toy.alice Toy.alice 30 2) Toy.s2).1.accepted = true ∧
    CollisionFree Toy.env.keccak
      (fun x => x = Address.bytes Toy.alice ++ b.encode ∨ x = Address.bytes Toy.alice ++ b'.encode) := by
  refine ⟨_, _, ⟨_, rfl, rfl, .inl ⟨rfl, ?_⟩⟩, ⟨_, rfl, rfl, .inl ⟨rfl, ?_⟩⟩, ?_, ?_, ?_⟩
  · decide +kernel
  · decide +kernel
  · decide +kernel
  · decide +kernel
  · rintro x y (rfl | rfl) (rfl | rfl) h
    · rfl
    · exact absurd h (by decide +kernel)
    · exact absurd h (by decide +kernel)
    · rfl

/-- An environment whose hash keeps only the length: the identities of a transfer and of a withdrawal
with equally long messages clash. -/
def Toy.clashEnv : Env := { Toy.env with keccak := fun bs => BitVec.ofNat 256 (bs.length * 2 ^ 100) }

/-- Witness for `c32_slot_clash`: the transfer is accepted, the later withdrawal (which would be
accepted on its own) is rejected. -/
example :
    (Ledger.execute Toy.clashEnv (Toy.transfer Toy.bob 100 7) Toy.s2).1.accepted = true ∧
    (Ledger.execute Toy.clashEnv (Toy.withdraw Toy.alice Toy.alice 30 2) Toy.s2).1.accepted = true ∧
    (Ledger.execute Toy.clashEnv (Toy.withdraw Toy.alice Toy.alice 30 2)
      (Ledger.execute Toy.clashEnv (Toy.transfer Toy.bob 100 7) Toy.s2).2).1.accepted = false := by decide +kernel

/-! ## C33 -/

/-- The bytes of eight big-endian 32-bit words. -/
def wordsToBytes (ws : List (BitVec 32)) : Bytes := ws.flatMap fun w => beBytes 4 w.toNat

theorem wordsToBytes_length (ws : List (BitVec 32)) : (wordsToBytes ws).length = 4 * ws.length := by
  induction ws with
  | nil => rfl
  | cons w ws ih =>
    simp only [wordsToBytes, List.flatMap_cons, List.length_append, beBytes_length,
      List.length_cons] at *
    omega

theorem drop_wordsToBytes (ws : List (BitVec 32)) (i : Nat) :
    (wordsToBytes ws).drop (i * 4) = wordsToBytes (ws.drop i) := by
  induction i generalizing ws with
  | zero => simp
  | succ i ih =>
    cases ws with
    | nil => simp [wordsToBytes]
    | cons w ws =>
      rw [List.drop_succ_cons, ← ih ws]
      simp only [wordsToBytes, List.flatMap_cons]
      rw [show (i + 1) * 4 = (beBytes 4 w.toNat).length + i * 4 by rw [beBytes_length]; omega,
        List.drop_length_add_append]

theorem bytesToWords_words (ws : List (BitVec 32)) (h : ws.length = 8) :
    bytesToWordsBE (wordsToBytes ws) = some ws := by
  unfold bytesToWordsBE
  rw [if_pos (by rw [wordsToBytes_length, h])]
  congr 1
  apply List.ext_getElem
  · simp [h]
  intro i h1 h2
  simp only [List.getElem_map, List.getElem_range]
  rw [drop_wordsToBytes, List.drop_eq_getElem_cons h2]
  simp only [wordsToBytes, List.flatMap_cons]
  rw [List.take_left' (beBytes_length _ _), beNat_beBytes]
  apply BitVec.eq_of_toNat_eq
  have := (ws[i]).isLt
  rw [BitVec.toNat_ofNat]
  omega

theorem words_bytesToWords (bs : Bytes) (n : Nat) (h : bs.length = 4 * n) :
    wordsToBytes ((List.range n).map fun i => BitVec.ofNat 32 (beNat ((bs.drop (i * 4)).take 4))) = bs := by
  induction n generalizing bs with
  | zero => cases bs with
    | nil => rfl
    | cons b bs => simp at h
  | succ n ih =>
    have h4 : (bs.take 4).length = 4 := by rw [List.length_take]; omega
    have hb : beBytes 4 (BitVec.ofNat 32 (beNat (bs.take 4))).toNat = bs.take 4 := by
      have hl := beNat_lt (bs.take 4)
      rw [h4] at hl
      rw [BitVec.toNat_ofNat, Nat.mod_eq_of_lt (by omega)]
      have := beBytes_beNat (bs.take 4)
      rwa [h4] at this
    have e := ih (bs.drop 4) (by rw [List.length_drop]; omega)
    rw [List.range_succ_eq_map, List.map_cons, List.map_map]
    simp only [wordsToBytes, List.flatMap_cons] at e ⊢
    rw [show List.drop (0 * 4) bs = bs from by simp, hb]
    have e2 : ((fun i => BitVec.ofNat 32 (beNat (List.take 4 (List.drop (i * 4) bs)))) ∘ Nat.succ) =
        (fun i => BitVec.ofNat 32 (beNat (List.take 4 (List.drop (i * 4) (List.drop 4 bs))))) := by
      funext i
      simp only [Function.comp, List.drop_drop]
      congr 5
      omega
    rw [e2, e, List.take_append_drop]

/-- C33: the conversion of a verification key hash to eight words fails exactly on the strings that
are not 32 bytes long; it is injective; and every sequence of eight words is the image of a string,
namely of its big-endian bytes. -/
theorem c33_words :
    (∀ bs, (bytesToWordsBE bs).isSome ↔ bs.length = 32) ∧
    (∀ bs ws, bytesToWordsBE bs = some ws ↔ ws.length = 8 ∧ bs = wordsToBytes ws) ∧
    (∀ bs bs' ws, bytesToWordsBE bs = some ws → bytesToWordsBE bs' = some ws → bs = bs') := by
  have key : ∀ bs ws, bytesToWordsBE bs = some ws ↔ ws.length = 8 ∧ bs = wordsToBytes ws := by
    intro bs ws
    constructor
    · intro h
      unfold bytesToWordsBE at h
      split at h
      · rename_i hl
        simp only [Option.some.injEq] at h
        subst h
        exact ⟨by simp, (words_bytesToWords bs 8 (by omega)).symm⟩
      · cases h
    · rintro ⟨h, rfl⟩
      exact bytesToWords_words ws h
  refine ⟨?_, key, ?_⟩
  · intro bs
    unfold bytesToWordsBE
    split <;> simp_all
  · intro bs bs' ws h h'
    rw [((key _ _).mp h).2, ((key _ _).mp h').2]

example : bytesToWordsBE (List.replicate 28 0 ++ [1, 2, 3, 4]) =
    some [0, 0, 0, 0, 0, 0, 0, 0x01020304] := by decide +kernel

end Verif
