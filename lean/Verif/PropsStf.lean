import Verif.SparseProofs
import Verif.PropsMerkle
import Verif.ToyStf
/-
# Properties C20, C25 (states), C26, C27, C28
-/

set_option linter.unusedSectionVars false

namespace Verif

/-! ## C20: execution does not depend on the storage backend -/

/-- A sparse state is a faithful excerpt of a full state: same cursors, and at every witnessed index
the same value (or absence); nothing is stored elsewhere. -/
structure Excerpt (sp : SparseState) (s : FullState) : Prop where
  cursors : sp.sc = s.sc
  account : ∀ i ∈ sp.accounts.witnessed, sp.accounts.inner.get? i = s.accounts.leaves.get? i
  noAccount : ∀ i, i ∉ sp.accounts.witnessed → sp.accounts.inner.get? i = none
  tx : ∀ i ∈ sp.transactions.witnessed, sp.transactions.inner.get? i = s.transactions.leaves.get? i
  noTx : ∀ i, i ∉ sp.transactions.witnessed → sp.transactions.inner.get? i = none

/-- Every key in the two tracked sets of `s` is witnessed in `sp`. -/
def Covers (sp : SparseState) (s : FullState) : Prop :=
  (∀ a ∈ s.accounts.touched, StoreKey.index a ∈ sp.accounts.witnessed) ∧
  (∀ i ∈ s.transactions.touched, StoreKey.index i ∈ sp.transactions.witnessed)

theorem Excerpt.agree {sp : SparseState} {s : FullState} (h : Excerpt sp s) :
    AgreeSt sp.accounts.witnessed sp.transactions.witnessed s.plain sp s.plain :=
  ⟨h.cursors, ⟨rfl, h.account, h.noAccount, fun _ _ => rfl, fun _ h => h⟩,
    ⟨rfl, h.tx, h.noTx, fun _ _ => rfl, fun _ h => h⟩⟩

theorem AgreeSt.excerpt {wa wt : List Nat} {s0 : Ledger} {sp : SparseState} {s : FullState}
    (h : AgreeSt wa wt s0 sp s.plain) : Excerpt sp s := by
  refine ⟨h.sc, ?_, ?_, ?_, ?_⟩
  · intro i hi; rw [h.acc.wit] at hi; exact h.acc.on i hi
  · intro i hi; rw [h.acc.wit] at hi; exact h.acc.off i hi
  · intro i hi; rw [h.txs.wit] at hi; exact h.txs.on i hi
  · intro i hi; rw [h.txs.wit] at hi; exact h.txs.off i hi

/-- **C20.** Executing a transaction on Merkle storage and on plain maps gives the same outcome and the
same contents. -/
theorem c20_merkle (env : Env) (tx : Tx) (s : FullState) :
    (execute merkleOps merkleOps env tx s).1 = (Ledger.execute env tx s.plain).1 ∧
    FullState.plain (execute merkleOps merkleOps env tx s).2 = (Ledger.execute env tx s.plain).2 :=
  ⟨(execute_merkle env tx s).1, (execute_merkle env tx s).2.1⟩

/-- **C20.** Executing a transaction on an excerpt of a full state (whose key tracking was just
cleared): if every key the full execution touches is witnessed, outcome and contents are the same as
on the full state; otherwise it fails with the storage error. -/
theorem c20_sparse (env : Env) (tx : Tx) (sp : SparseState) (s : FullState) (h : Excerpt sp s)
    (ha : s.accounts.touched = []) (ht : s.transactions.touched = []) :
    (Covers sp (execute merkleOps merkleOps env tx s).2 →
      (execute sparseOps sparseOps env tx sp).1 = (execute merkleOps merkleOps env tx s).1 ∧
      Excerpt (execute sparseOps sparseOps env tx sp).2 (execute merkleOps merkleOps env tx s).2 ∧
      (execute sparseOps sparseOps env tx sp).2.accounts.witnessed = sp.accounts.witnessed ∧
      (execute sparseOps sparseOps env tx sp).2.transactions.witnessed = sp.transactions.witnessed) ∧
    (¬ Covers sp (execute merkleOps merkleOps env tx s).2 →
      (execute sparseOps sparseOps env tx sp).1 = .panic .storageKeyNotAllowed) := by
  obtain ⟨m1, m2, m3, m4⟩ := execute_merkle env tx s
  have hc : Covers sp (execute merkleOps merkleOps env tx s).2 ↔
      ∀ x ∈ (execInner env tx).trace s.plain,
        Witnessed sp.accounts.witnessed sp.transactions.witnessed x := by
    unfold Covers
    constructor
    · rintro ⟨h1, h2⟩ x hx
      cases x with
      | acct a => exact h1 a ((m3 a).mpr (Or.inr hx))
      | tx i => exact h2 i ((m4 i).mpr (Or.inr hx))
    · intro hall
      constructor
      · intro a hh
        rw [m3, ha] at hh
        rcases hh with hh | hh
        · simp at hh
        · exact hall _ hh
      · intro a hh
        rw [m4, ht] at hh
        rcases hh with hh | hh
        · simp at hh
        · exact hall _ hh
  rw [hc]
  rcases execute_sparse env tx _ _ s.plain sp s.plain h.agree with ⟨h1, h2, h3⟩ | ⟨⟨x, hx, hx'⟩, h2⟩
  · rw [← m2] at h3
    refine ⟨fun _ => ⟨h2.trans m1.symm, h3.excerpt, h3.acc.wit, h3.txs.wit⟩, fun hn => absurd h1 hn⟩
  · exact ⟨fun hall => absurd (hall x hx) hx', fun _ => h2⟩

/-- **C20**, whole batches on Merkle storage: same receipts, same final contents, and an abort on one
is an abort on the other. -/
theorem c20_merkle_batch (env : Env) (txs : List (Int × Tx)) (s : FullState) :
    runTxs (mapOps Address Account) (mapOps B256 Bool) env txs s.plain =
      (runTxs merkleOps merkleOps env txs s).map (fun r => (r.1, FullState.plain r.2)) :=
  runTxs_merkle env txs s

/-- **C20**, whole batches on an excerpt: a batch that is executed on the excerpt is executed on the full
state, with the same receipts, and ends in an excerpt of the final full state. -/
theorem c20_sparse_batch (env : Env) (txs : List (Int × Tx)) (sp sp' : SparseState) (s : FullState)
    (rs : List Receipt) (h : Excerpt sp s)
    (hr : runTxs sparseOps sparseOps env txs sp = some (rs, sp')) :
    ∃ s' : FullState, runTxs merkleOps merkleOps env txs s = some (rs, s') ∧ Excerpt sp' s' := by
  obtain ⟨l', h1, h2⟩ := runTxs_sparse_sound env txs _ _ s.plain sp s.plain h.agree rs sp' hr
  rw [runTxs_merkle] at h1
  cases hq : runTxs merkleOps merkleOps env txs s with
  | none => rw [hq] at h1; simp at h1
  | some q =>
    rw [hq] at h1
    simp only [Option.map_some, Option.some.injEq, Prod.mk.injEq] at h1
    obtain ⟨e1, e2⟩ := h1
    subst e2
    exact ⟨q.2, by rw [← e1], h2.excerpt⟩

/-! ## C25: the state root binds the state -/

theorem abiWord_length (n : Nat) : (abiWord n).length = 32 := beBytes_length 32 n

theorem abiWord_inj64 {a b : U64} (h : abiWord a.toNat = abiWord b.toNat) : a = b := by
  have h1 := a.isLt
  have h2 := b.isLt
  apply BitVec.eq_of_toNat_eq
  exact beBytes_inj (k := 32) (by omega) (by omega) h

theorem abiWord_inj160 {a b : Address} (h : abiWord a.toNat = abiWord b.toNat) : a = b := by
  have h1 := a.isLt
  have h2 := b.isLt
  apply BitVec.eq_of_toNat_eq
  exact beBytes_inj (k := 32) (by omega) (by omega) h

theorem abiWord_inj256 {a b : U256} (h : abiWord a.toNat = abiWord b.toNat) : a = b := by
  have h1 := a.isLt
  have h2 := b.isLt
  apply BitVec.eq_of_toNat_eq
  exact beBytes_inj (k := 32) (by omega) (by omega) h

theorem Account.abi_inj (a b : Account) (h : a.abi = b.abi) : a = b := by
  unfold Account.abi at h
  obtain ⟨h1, h⟩ := List.append_inj h (by simp only [abiWord_length])
  obtain ⟨h2, h⟩ := List.append_inj h (by simp only [abiWord_length])
  obtain ⟨h3, h4⟩ := List.append_inj h (by simp only [abiWord_length])
  obtain ⟨a1, a2, a3, a4⟩ := a
  obtain ⟨b1, b2, b3, b4⟩ := b
  simp only at h1 h2 h3 h4
  rw [abiWord_inj256 h1, abiWord_inj160 h2, abiWord_inj160 h3, abiWord_inj256 h4]

theorem containerAbi_inj {c c' : Scalars} {a a' t t' : B256}
    (h : containerAbi c a t = containerAbi c' a' t') : c = c' ∧ a = a' ∧ t = t' := by
  unfold containerAbi at h
  obtain ⟨h1, h⟩ := List.append_inj h (by simp only [B256.bytes_length])
  obtain ⟨h2, h⟩ := List.append_inj h (by simp only [abiWord_length])
  obtain ⟨h3, h⟩ := List.append_inj h (by simp only [abiWord_length])
  obtain ⟨h4, h⟩ := List.append_inj h (by simp only [abiWord_length])
  obtain ⟨h5, h⟩ := List.append_inj h (by simp only [abiWord_length])
  have h6 := bytes_append_inj h
  obtain ⟨x1, x2, x3, x4, x5⟩ := c
  obtain ⟨y1, y2, y3, y4, y5⟩ := c'
  simp only at h1 h2 h3 h4 h5
  rw [B256.bytes_inj h1, abiWord_inj64 h2, abiWord_inj64 h3, abiWord_inj64 h4, abiWord_inj64 h5]
  exact ⟨rfl, h6⟩

/-- The input hashed for the state root of a full state. -/
def FullState.container (kc : Bytes → B256) (s : FullState) : Bytes :=
  containerAbi s.sc (s.accounts.root kc Account.abi) (s.transactions.root kc abiBool)

/-- All inputs hashed for the state root of a full state. -/
def FullState.Hashed (kc : Bytes → B256) (s : FullState) (x : Bytes) : Prop :=
  x = s.container kc ∨ TreeInput kc Account.abi s.accounts.leaves.get? 160 x ∨
    TreeInput kc abiBool s.transactions.leaves.get? 160 x

/-- No leaf of the state hashes to the zero word. -/
def FullState.NoZero (kc : Bytes → B256) (s : FullState) : Prop :=
  (∀ i v, s.accounts.leaves.get? i = some v → kc v.abi ≠ 0) ∧
  (∀ i v, s.transactions.leaves.get? i = some v → kc (abiBool v) ≠ 0)

/-- **C25.** Two states with the same state root have the same domain and cursors, the same record for
every address and the same mark for every identity, provided the hash function has no collision among
the inputs hashed for the two roots and no stored leaf hashes to the zero word. -/
theorem c25_state (kc : Bytes → B256) (s s' : FullState)
    (hcf : CollisionFree kc (fun x => s.Hashed kc x ∨ s'.Hashed kc x))
    (hz : s.NoZero kc) (hz' : s'.NoZero kc) (h : s.root kc = s'.root kc) :
    s.sc = s'.sc ∧
    (∀ a : Address, s.accounts.leaves.get? (StoreKey.index a) = s'.accounts.leaves.get? (StoreKey.index a)) ∧
    (∀ i : B256, s.transactions.leaves.get? (StoreKey.index i) =
      s'.transactions.leaves.get? (StoreKey.index i)) := by
  have h0 := hcf _ _ (Or.inl (Or.inl rfl)) (Or.inr (Or.inl rfl)) h
  obtain ⟨h1, h2, h3⟩ := containerAbi_inj h0
  rw [root_eq, root_eq] at h2 h3
  refine ⟨h1, ?_, ?_⟩
  · intro a
    exact treeRoot_binds kc Account.abi Account.abi_inj _ _ _ _ hcf
      (fun x hx => Or.inl (Or.inr (Or.inl hx))) (fun x hx => Or.inr (Or.inr (Or.inl hx)))
      hz.1 hz'.1 h2 _ (TreeKey.index_lt a)
  · intro i
    exact treeRoot_binds kc abiBool abiBool_inj _ _ _ _ hcf
      (fun x hx => Or.inl (Or.inr (Or.inr hx))) (fun x hx => Or.inr (Or.inr (Or.inr hx)))
      hz.2 hz'.2 h3 _ (TreeKey.index_lt i)

/-! ## C26: recovery of sparse storage -/

section
variable {K V : Type} [TreeKey K] [DecidableEq K] [Inhabited V]
variable (kc : Bytes → B256) (abi : V → Bytes)

/-- **C26.** Recovery against the root of a full storage: every proof used was true, the witnessed
indices are exactly those of the proofs, no two proofs are for the same index, and the recovered
storage holds the full storage's values there and nothing else - whatever was in it before. -/
theorem c26_recover (habi : ∀ a b : V, abi a = abi b → a = b) (m : Merkle K V) (junk s : Sparse V)
    (ps : List (MerkleProof K V))
    (hcf : CollisionFree kc (proofsInput kc abi m.leaves.get? ps))
    (hz : NoZeroLeaf kc abi m.leaves.get? ps)
    (h : junk.recover kc abi (m.root kc abi) ps = .ok s) :
    (∀ p ∈ ps, p.value = m.leaves.get? (StoreKey.index p.key)) ∧
    (ps.map (fun p => StoreKey.index p.key)).Nodup ∧
    (∀ i, i ∈ s.witnessed ↔ i ∈ ps.map (fun p => StoreKey.index p.key)) ∧
    (∀ i, s.inner.get? i =
      if i ∈ ps.map (fun p => StoreKey.index p.key) then m.leaves.get? i else none) := by
  obtain ⟨h1, h2, -⟩ := (recoverLoop_ok_iff kc abi _ ps ⟨SMap.empty, []⟩).mp ⟨s, h⟩
  rw [root_eq] at h1
  have ht := verified_true kc abi habi m.leaves.get? ps _ hcf (fun x hx => hx) hz h1
  obtain ⟨hag, hw⟩ := recover_agree kc abi _ ps junk s m.leaves h (fun p hp => (ht p hp).1)
  refine ⟨fun p hp => (ht p hp).1, h2, hw, ?_⟩
  intro i
  split
  · rename_i hi; exact hag.on i ((hw i).mpr hi)
  · rename_i hi; exact hag.off i (fun hc => hi ((hw i).mp hc))

/-- **C26.** Recovery succeeds exactly if every proof verifies and no two proofs are for the same index
(no assumption on the hash function); what was in the storage before does not matter. -/
theorem c26_accepts_iff (junk : Sparse V) (root : B256) (ps : List (MerkleProof K V)) :
    (∃ s, junk.recover kc abi root ps = .ok s) ↔
      (∀ p ∈ ps, verifyProof kc abi root p = .ok ()) ∧
      (ps.map (fun p => StoreKey.index p.key)).Nodup := by
  unfold Sparse.recover
  rw [recoverLoop_ok_iff]
  simp

/-- **C26.** Preloaded contents and witnesses are discarded. -/
theorem c26_junk (junk : Sparse V) (root : B256) (ps : List (MerkleProof K V)) :
    junk.recover kc abi root ps = Sparse.new.recover kc abi root ps := rfl

end

/-! ## C27 and C28: the state transition program -/

/-- The inputs hashed by the STF run on `input` while checking the old state, and by hashing the
container and the proved paths of the full state `s`. -/
def StfHashed (kc : Bytes → B256) (input : StfInput) (s : FullState) (x : Bytes) : Prop :=
  x = containerAbi input.state.sc input.accountsRoot input.requestsRoot ∨
  x = s.container kc ∨
  proofsInput kc Account.abi s.accounts.leaves.get? input.accountProofs x ∨
  proofsInput kc abiBool s.transactions.leaves.get? input.requestProofs x

/-- **C27.** If the STF program accepts an input and commits `out`, then for every full state whose root
is the committed old root, executing the same transactions on the full state does not abort, gives the
same receipts and ends in a state whose root is the committed new root - provided the hash function
has no collision among the inputs hashed by the STF's checks and on the corresponding paths of the
full state, and no leaf involved hashes to the zero word. -/
theorem c27_stf_sound (env : Env) (input : StfInput) (out : StepValues) (s : FullState)
    (hacc : stf env input = some out) (hroot : s.root env.keccak = out.oldRoot)
    (hcf : CollisionFree env.keccak (StfHashed env.keccak input s))
    (hza : NoZeroLeaf env.keccak Account.abi s.accounts.leaves.get? input.accountProofs)
    (hzt : NoZeroLeaf env.keccak abiBool s.transactions.leaves.get? input.requestProofs) :
    ∃ (rs : List Receipt) (s' : FullState),
      runTxs merkleOps merkleOps env input.txs s = some (rs, s') ∧
      out.receipts = rs.map Receipt.sol ∧
      out.newRoot = s'.root env.keccak ∧
      out.timestamp = input.timestamp := by
  unfold stf at hacc
  split at hacc
  · simp at hacc
  · rename_i hr
    simp only [Decidable.not_not] at hr
    split at hacc
    · simp at hacc
    · rename_i accounts hra
      split at hacc
      · simp at hacc
      · rename_i transactions hrt
        split at hacc
        · simp at hacc
        · rename_i receipts sp' hrun
          split at hacc
          · simp at hacc
          · rename_i nar hna
            split at hacc
            · simp at hacc
            · rename_i nrr hnr
              simp only [Option.some.injEq] at hacc
              subst hacc
              simp only at hroot
              have h0 := hcf _ _ (Or.inl rfl) (Or.inr (Or.inl rfl)) (hr.trans hroot.symm)
              obtain ⟨hsc, har, hrr⟩ := containerAbi_inj h0
              rw [har] at hra hna
              rw [hrr] at hrt hnr
              rw [root_eq] at hra hna hrt hnr
              have va := (recoverLoop_ok_iff _ _ _ _ _).mp ⟨_, hra⟩
              have vt := (recoverLoop_ok_iff _ _ _ _ _).mp ⟨_, hrt⟩
              have ta := verified_true env.keccak Account.abi Account.abi_inj _ _ _ hcf
                (fun x hx => Or.inr (Or.inr (Or.inl hx))) hza va.1
              have tt := verified_true env.keccak abiBool abiBool_inj _ _ _ hcf
                (fun x hx => Or.inr (Or.inr (Or.inr hx))) hzt vt.1
              obtain ⟨aga, wa⟩ := recover_agree _ _ _ _ _ _ s.accounts.leaves hra (fun p hp => (ta p hp).1)
              obtain ⟨agt, wt⟩ := recover_agree _ _ _ _ _ _ s.transactions.leaves hrt
                (fun p hp => (tt p hp).1)
              have ag : AgreeSt accounts.witnessed transactions.witnessed s.plain
                  ⟨input.state.sc, accounts, transactions⟩ s.plain := ⟨hsc, aga, agt⟩
              obtain ⟨l', g1, g2⟩ := runTxs_sparse_sound env input.txs _ _ s.plain _ _ ag _ _ hrun
              rw [runTxs_merkle] at g1
              cases hq : runTxs merkleOps merkleOps env input.txs s with
              | none => rw [hq] at g1; simp at g1
              | some q =>
                rw [hq] at g1
                simp only [Option.map_some, Option.some.injEq, Prod.mk.injEq] at g1
                obtain ⟨e1, e2⟩ := g1
                subst e2
                refine ⟨receipts, q.2, by rw [← e1], rfl, ?_, rfl⟩
                have n1 := calculateNewRootSparse_true env.keccak Account.abi s.accounts.leaves
                  q.2.accounts.leaves input.accountProofs sp'.accounts ta _ wa g2.acc
                have n2 := calculateNewRootSparse_true env.keccak abiBool s.transactions.leaves
                  q.2.transactions.leaves input.requestProofs sp'.transactions tt _ wt g2.txs
                rw [n1] at hna
                rw [n2] at hnr
                simp only [Except.ok.injEq] at hna hnr
                simp only [FullState.root, root_eq, ← hna, ← hnr, g2.sc]
                rfl

/-- The proofs that Merkle storage generates for a list of keys. -/
def proofsFor {K V : Type} [TreeKey K] (kc : Bytes → B256) (abi : V → Bytes) (m : Merkle K V)
    (ks : List K) : List (MerkleProof K V) :=
  ks.filterMap (fun k => (m.proof kc abi k).1.toOption)

theorem proofsFor_eq {K V : Type} [TreeKey K] [DecidableEq K] [Inhabited V] (kc : Bytes → B256)
    (abi : V → Bytes) {f : Contents V} {m : Merkle K V} (h : MInv kc abi f m) (ks : List K) :
    proofsFor kc abi m ks =
      ks.map (fun k => ⟨k, f (StoreKey.index k), truePath kc abi f (TreeKey.bits K) (StoreKey.index k)⟩) := by
  unfold proofsFor
  induction ks with
  | nil => rfl
  | cons k ks ih =>
    rw [List.filterMap_cons, (proof_ok kc abi h k).1]
    rw [List.map_cons, ← ih]
    rfl

/-- **C28.** For every full state (storages in any state reachable by storage operations) and every
transaction list that executes on it, the STF program accepts the input made of the state's roots and
cursors and of the proofs that the storages generate for a list of keys which covers the indices of the
touched keys without repeating an index; it commits the state's root, the final state's root, the given
timestamp and the receipts. The preloaded sparse contents do not matter. -/
theorem c28_stf_complete (env : Env) (txs : List (Int × Tx)) (timestamp : U64) (sc : Scalars)
    (opsA : List (MOp Address Account)) (opsT : List (MOp B256 Bool))
    (junkA : Sparse Account) (junkT : Sparse Bool)
    (keysA : List Address) (keysT : List B256) (s s' : FullState) (rs : List Receipt)
    (hs : s = ⟨sc, Merkle.after env.keccak Account.abi opsA, Merkle.after env.keccak abiBool opsT⟩)
    (hrun : runTxs merkleOps merkleOps env txs s = some (rs, s'))
    (hA : ∀ a ∈ s'.accounts.touched, StoreKey.index a ∈ keysA.map StoreKey.index)
    (hT : ∀ i ∈ s'.transactions.touched, StoreKey.index i ∈ keysT.map StoreKey.index)
    (hdA : (keysA.map StoreKey.index).Nodup) (hdT : (keysT.map StoreKey.index).Nodup) :
    stf env
      { root := s.root env.keccak
        accountsRoot := s.accounts.root env.keccak Account.abi
        requestsRoot := s.transactions.root env.keccak abiBool
        state := ⟨sc, junkA, junkT⟩
        accountProofs := proofsFor env.keccak Account.abi s.accounts keysA
        requestProofs := proofsFor env.keccak abiBool s.transactions keysT
        txs, timestamp } =
    some
      { oldRoot := s.root env.keccak
        newRoot := s'.root env.keccak
        timestamp
        receipts := rs.map Receipt.sol } := by
  have iA : MInv env.keccak Account.abi s.accounts.leaves.get? s.accounts := by
    have := after_inv env.keccak Account.abi opsA
    rw [hs]
    rw [← this.contents] at this
    exact this
  have iT : MInv env.keccak abiBool s.transactions.leaves.get? s.transactions := by
    have := after_inv env.keccak abiBool opsT
    rw [hs]
    rw [← this.contents] at this
    exact this
  have hsc : s.sc = sc := by rw [hs]
  rw [proofsFor_eq _ _ iA, proofsFor_eq _ _ iT]
  generalize hpa : keysA.map (fun k => (⟨k, s.accounts.leaves.get? (StoreKey.index k),
    truePath env.keccak Account.abi s.accounts.leaves.get? (TreeKey.bits Address) (StoreKey.index k)⟩ :
      MerkleProof Address Account)) = pa
  generalize hpt : keysT.map (fun k => (⟨k, s.transactions.leaves.get? (StoreKey.index k),
    truePath env.keccak abiBool s.transactions.leaves.get? (TreeKey.bits B256) (StoreKey.index k)⟩ :
      MerkleProof B256 Bool)) = pt
  have ta : ∀ p ∈ pa, TrueProof env.keccak Account.abi s.accounts.leaves.get? p := by
    intro p hp
    rw [← hpa] at hp
    obtain ⟨k, _, rfl⟩ := List.mem_map.mp hp
    exact ⟨rfl, rfl⟩
  have tt : ∀ p ∈ pt, TrueProof env.keccak abiBool s.transactions.leaves.get? p := by
    intro p hp
    rw [← hpt] at hp
    obtain ⟨k, _, rfl⟩ := List.mem_map.mp hp
    exact ⟨rfl, rfl⟩
  have ka : pa.map (fun p => StoreKey.index p.key) = keysA.map StoreKey.index := by
    rw [← hpa, List.map_map]; rfl
  have kt : pt.map (fun p => StoreKey.index p.key) = keysT.map StoreKey.index := by
    rw [← hpt, List.map_map]; rfl
  have va : ∀ p ∈ pa, verifyProof env.keccak Account.abi
      (treeRoot env.keccak Account.abi (TreeKey.bits Address) s.accounts.leaves.get?) p = .ok () := by
    intro p hp
    obtain ⟨h1, h2⟩ := ta p hp
    rw [verifyProof_ok_iff, h1, h2]
    exact ⟨by simp [truePath], truePath_root _ _ _ _ _ (TreeKey.index_lt p.key)⟩
  have vt : ∀ p ∈ pt, verifyProof env.keccak abiBool
      (treeRoot env.keccak abiBool (TreeKey.bits B256) s.transactions.leaves.get?) p = .ok () := by
    intro p hp
    obtain ⟨h1, h2⟩ := tt p hp
    rw [verifyProof_ok_iff, h1, h2]
    exact ⟨by simp [truePath], truePath_root _ _ _ _ _ (TreeKey.index_lt p.key)⟩
  obtain ⟨spa, hra⟩ := (c26_accepts_iff env.keccak Account.abi junkA _ pa).mpr ⟨va, by rw [ka]; exact hdA⟩
  obtain ⟨spt, hrt⟩ := (c26_accepts_iff env.keccak abiBool junkT _ pt).mpr ⟨vt, by rw [kt]; exact hdT⟩
  obtain ⟨aga, wa⟩ := recover_agree _ _ _ _ _ _ s.accounts.leaves hra (fun p hp => (ta p hp).1)
  obtain ⟨agt, wt⟩ := recover_agree _ _ _ _ _ _ s.transactions.leaves hrt (fun p hp => (tt p hp).1)
  have ag : AgreeSt spa.witnessed spt.witnessed s.plain ⟨sc, spa, spt⟩ s.plain := ⟨hsc.symm, aga, agt⟩
  obtain ⟨sp', g1, g2⟩ := runTxs_sparse_complete env txs _ _ s.plain _ s s' rs ag hrun
    (fun a ha => (wa _).mpr (by rw [ka]; exact hA a ha))
    (fun i hi => (wt _).mpr (by rw [kt]; exact hT i hi))
  have n1 := calculateNewRootSparse_true env.keccak Account.abi s.accounts.leaves
    s'.accounts.leaves pa sp'.accounts ta _ wa g2.acc
  have n2 := calculateNewRootSparse_true env.keccak abiBool s.transactions.leaves
    s'.transactions.leaves pt sp'.transactions tt _ wt g2.txs
  unfold stf
  simp only
  rw [root_eq, root_eq]
  rw [if_neg (by
    simp only [Decidable.not_not, FullState.root, root_eq, hsc])]
  rw [hra]
  simp only
  rw [hrt]
  simp only
  rw [g1]
  simp only
  rw [n1]
  simp only
  rw [n2]
  simp only [FullState.root, root_eq, g2.sc]
  rfl

/-! ## Witnesses -/

namespace Toy

def envMax : Env := { Toy.env with keccak := kcMax }
theorem envMax_keccak : envMax.keccak = kcMax := rfl
def aliceAcct : Account := { balance := 1000 }
def fsOps : List (MOp Address Account) := [.insert alice aliceAcct, .clearKeyTracking]
/-- A state in which only Alice has an account. -/
def fs : FullState :=
  ⟨(Ledger.new dom).sc, Merkle.after kcMax Account.abi fsOps, Merkle.after kcMax abiBool []⟩
/-- The prover that `fsCreate` creates. -/
def fsProver : Address := BitVec.ofNat 160 (2 ^ 159 + 1)
def fsCreate : Tx := .createProver ⟨10, 4, 2, ⟨fsProver, owner, 2500⟩⟩
/-- A deposit, a new prover, a transfer to a new account and a withdrawal. -/
def fsTxs : List (Int × Tx) :=
  [(0, deposit1), (1, fsCreate), (2, transfer bob 100 7), (3, withdraw alice alice 50 7)]
def fsEnd : List Receipt × FullState := (runTxs merkleOps merkleOps envMax fsTxs fs).getD ([], fs)
/-- Keys proved: the touched ones and one more. -/
def fsKeysA : List Address := [alice, bob, auctioneer, carol, fsProver]
def fsKeysT : List B256 := fsEnd.2.transactions.touched

/-- The input the host would build, with junk in the preloaded sparse storage. -/
def fsInput : StfInput :=
  { root := fs.root kcMax
    accountsRoot := fs.accounts.root kcMax Account.abi
    requestsRoot := fs.transactions.root kcMax abiBool
    state := ⟨(Ledger.new dom).sc, ⟨SMap.empty.insert 5 aliceAcct, [5]⟩, ⟨SMap.empty, [9]⟩⟩
    accountProofs := proofsFor kcMax Account.abi fs.accounts fsKeysA
    requestProofs := proofsFor kcMax abiBool fs.transactions fsKeysT
    txs := fsTxs, timestamp := 1700 }

theorem fsRun : runTxs merkleOps merkleOps envMax fsTxs fs = some fsEnd := by
  have h : (runTxs merkleOps merkleOps envMax fsTxs fs).isSome = true := by decide +kernel
  obtain ⟨x, hx⟩ := Option.isSome_iff_exists.mp h
  unfold fsEnd
  rw [hx]
  rfl

/-- The hypotheses of C28 are met: the program accepts. -/
theorem fsAccepted : stf envMax fsInput = some
    ⟨fs.root kcMax, fsEnd.2.root kcMax, 1700, fsEnd.1.map Receipt.sol⟩ := by
  have hs : fs = ⟨(Ledger.new dom).sc, Merkle.after envMax.keccak Account.abi fsOps,
      Merkle.after envMax.keccak abiBool []⟩ := rfl
  have h1 : ∀ a ∈ fsEnd.2.accounts.touched, StoreKey.index a ∈ fsKeysA.map StoreKey.index := by
    have ht : fsEnd.2.accounts.touched = [auctioneer, bob, fsProver, alice] := by decide +kernel
    rw [ht]
    intro a ha
    refine List.mem_map.mpr ⟨a, ?_, rfl⟩
    simp only [List.mem_cons, List.not_mem_nil, or_false] at ha
    rcases ha with h | h | h | h <;> rw [h] <;> simp [fsKeysA]
  have h2 : ∀ a ∈ fsEnd.2.transactions.touched, StoreKey.index a ∈ fsKeysT.map StoreKey.index :=
    fun a ha => List.mem_map.mpr ⟨a, ha, rfl⟩
  have h3 : (fsKeysA.map StoreKey.index).Nodup := by decide +kernel
  have h4 : (fsKeysT.map StoreKey.index).Nodup := by decide +kernel
  have he : ∀ x : List Receipt × FullState, some x = some (x.1, x.2) := fun _ => rfl
  have h := c28_stf_complete envMax fsTxs 1700 (Ledger.new dom).sc fsOps []
    ⟨SMap.empty.insert 5 aliceAcct, [5]⟩ ⟨SMap.empty, [9]⟩ fsKeysA fsKeysT fs fsEnd.2 fsEnd.1
    hs (fsRun.trans (he fsEnd)) h1 h2 h3 h4
  rw [envMax_keccak] at h
  exact h

theorem fs_accounts : fs.accounts.leaves.get? = single (StoreKey.index alice) aliceAcct := by
  funext i
  show (SMap.insert SMap.empty (StoreKey.index alice) aliceAcct).get? i = _
  rw [SMap.get?_insert, SMap.get?_empty]
  rfl

theorem fs_transactions : fs.transactions.leaves.get? = fun _ => none := by
  funext i
  exact SMap.get?_empty i

theorem proofsFor_true {K V : Type} [TreeKey K] [DecidableEq K] [Inhabited V] (kc : Bytes → B256)
    (abi : V → Bytes) (ops : List (MOp K V)) (ks : List K) :
    ∀ p ∈ proofsFor kc abi (Merkle.after kc abi ops) ks,
      TrueProof kc abi (Merkle.after kc abi ops).leaves.get? p := by
  have := after_inv kc abi ops
  rw [← this.contents] at this
  rw [proofsFor_eq kc abi this]
  intro p hp
  obtain ⟨k, _, rfl⟩ := List.mem_map.mp hp
  exact ⟨rfl, rfl⟩

theorem fs_acc : fs.accounts = Merkle.after kcMax Account.abi fsOps := rfl
theorem fs_txs : fs.transactions = Merkle.after kcMax abiBool [] := rfl
theorem fsInput_cont : containerAbi fsInput.state.sc fsInput.accountsRoot fsInput.requestsRoot =
    fs.container kcMax := by
  have h : ∀ (c : Scalars) (s : FullState), c = s.sc →
    containerAbi c (s.accounts.root kcMax Account.abi) (s.transactions.root kcMax abiBool) =
      s.container kcMax := fun c s h => by rw [h]; rfl
  have hsc : (Ledger.new dom).sc = fs.sc := rfl
  simp only [fsInput]
  exact h _ fs hsc
theorem fsInput_acc : fsInput.accountProofs = proofsFor kcMax Account.abi fs.accounts fsKeysA := by
  simp only [fsInput]
theorem fsInput_txs : fsInput.requestProofs = proofsFor kcMax abiBool fs.transactions fsKeysT := by
  simp only [fsInput]

theorem fs_trueA : ∀ p ∈ fsInput.accountProofs, TrueProof kcMax Account.abi fs.accounts.leaves.get? p := by
  rw [fsInput_acc, fs_acc]
  exact proofsFor_true kcMax Account.abi fsOps fsKeysA
theorem fs_trueT : ∀ p ∈ fsInput.requestProofs, TrueProof kcMax abiBool fs.transactions.leaves.get? p := by
  rw [fsInput_txs, fs_txs]
  exact proofsFor_true kcMax abiBool [] fsKeysT

theorem fs_kind (x : Bytes) (h : StfHashed kcMax fsInput fs x ∨ fs.Hashed kcMax x) :
    Kind (kcMax aliceAcct.abi).toNat aliceAcct.abi (fs.container kcMax) (StoreKey.index alice)
      (kcMax x).toNat x := by
  have ta := proofsInput_tree kcMax Account.abi _ _ fs_trueA
  have tt := proofsInput_tree kcMax abiBool _ _ fs_trueT
  have hcont : Kind (kcMax aliceAcct.abi).toNat aliceAcct.abi (fs.container kcMax) (StoreKey.index alice)
      (kcMax (fs.container kcMax)).toNat (fs.container kcMax) := by
    refine Or.inr (Or.inl ⟨?_, rfl⟩)
    have hA : (kcMax aliceAcct.abi).toNat + 1000 < 2 ^ 200 := by decide +kernel
    have hl : (fs.container kcMax).length = 224 := by
      simp [FullState.container, containerAbi, B256.bytes_length, abiWord_length]
    have hc := kcMax_container _ hl
    omega
  have hacc : TreeInput kcMax Account.abi fs.accounts.leaves.get? 160 x →
      Kind (kcMax aliceAcct.abi).toNat aliceAcct.abi (fs.container kcMax) (StoreKey.index alice)
      (kcMax x).toNat x := by
    intro h
    rw [fs_accounts] at h
    exact tree_kind Account.abi _ aliceAcct _ (by decide +kernel) (by decide +kernel) x h
  have htx : TreeInput kcMax abiBool fs.transactions.leaves.get? 160 x →
      Kind (kcMax aliceAcct.abi).toNat aliceAcct.abi (fs.container kcMax) (StoreKey.index alice)
      (kcMax x).toNat x := by
    intro h
    rw [fs_transactions] at h
    exact empty_kind Account.abi abiBool _ aliceAcct _ x h
  rcases h with (h | h | h | h) | (h | h | h)
  · rw [fsInput_cont] at h; rw [h]; exact hcont
  · rw [h]; exact hcont
  · exact hacc (ta x h)
  · exact htx (tt x h)
  · rw [h]; exact hcont
  · exact hacc h
  · exact htx h

theorem fs_collisionFree (S : Bytes → Prop)
    (hS : ∀ x, S x → StfHashed kcMax fsInput fs x ∨ fs.Hashed kcMax x) : CollisionFree kcMax S := by
  intro x y hx hy h
  have h1 := fs_kind x (hS x hx)
  have h2 := fs_kind y (hS y hy)
  rw [h] at h1
  exact Kind.inj (by decide +kernel) h1 h2

theorem fs_noZero : fs.NoZero kcMax := by
  constructor
  · intro i v h
    rw [fs_accounts] at h
    unfold single at h
    split at h
    · simp only [Option.some.injEq] at h
      subst h
      decide +kernel
    · simp at h
  · intro i v h
    rw [fs_transactions] at h
    simp at h

theorem noZero_proofs {K V : Type} [TreeKey K] (kc : Bytes → B256) (abi : V → Bytes) (f : Contents V)
    (ps : List (MerkleProof K V)) (ht : ∀ p ∈ ps, TrueProof kc abi f p)
    (hz : ∀ i v, f i = some v → kc (abi v) ≠ 0) : NoZeroLeaf kc abi f ps := by
  intro p hp x hx
  rw [(ht p hp).1] at hx
  have hx' : x ∈ leafInputs abi (f (StoreKey.index p.key)) := by
    rcases List.mem_append.mp hx with h | h <;> exact h
  cases hf : f (StoreKey.index p.key) with
  | none => rw [hf] at hx'; simp [leafInputs] at hx'
  | some v =>
    rw [hf] at hx'
    simp only [leafInputs, List.mem_singleton] at hx'
    rw [hx']
    exact hz _ _ hf

end Toy

/-- C27 and C28: a run with four transactions, three receipts and five new accounts or marks, all at the
real tree height, meets all hypotheses; the transactions change the balances. -/
example :
    stf Toy.envMax Toy.fsInput = some ⟨Toy.fs.root Toy.kcMax, Toy.fsEnd.2.root Toy.kcMax, 1700,
      Toy.fsEnd.1.map Receipt.sol⟩ ∧
    CollisionFree Toy.envMax.keccak (StfHashed Toy.envMax.keccak Toy.fsInput Toy.fs) ∧
    NoZeroLeaf Toy.envMax.keccak Account.abi Toy.fs.accounts.leaves.get? Toy.fsInput.accountProofs ∧
    NoZeroLeaf Toy.envMax.keccak abiBool Toy.fs.transactions.leaves.get? Toy.fsInput.requestProofs ∧
    Toy.fsEnd.1.length = 3 ∧ Toy.fsKeysT.length = 2 ∧
    (Toy.fsEnd.2.accounts.leaves.get? (StoreKey.index Toy.alice)).map Account.balance =
      some (1000 + 1000 - 100 - 7 - 50 - 7) := by
  rw [Toy.envMax_keccak]
  exact ⟨Toy.fsAccepted, Toy.fs_collisionFree _ (fun _ h => Or.inl h),
    Toy.noZero_proofs _ _ _ _ Toy.fs_trueA Toy.fs_noZero.1,
    Toy.noZero_proofs _ _ _ _ Toy.fs_trueT Toy.fs_noZero.2,
    by decide +kernel, by decide +kernel, by decide +kernel⟩

namespace Toy
/-- The same contents by another history, with cached hashes and tracked keys. -/
def fs2 : FullState :=
  ⟨(Ledger.new dom).sc, Merkle.after kcMax Account.abi
    [.insert alice { balance := 3 }, .proof bob, .insert alice aliceAcct],
    Merkle.after kcMax abiBool [.proof 7]⟩

theorem fs2_accounts : fs2.accounts.leaves.get? = fs.accounts.leaves.get? := by
  funext i
  show ((SMap.empty.insert (StoreKey.index alice) _).insert (StoreKey.index alice) aliceAcct).get? i =
    (SMap.insert SMap.empty (StoreKey.index alice) aliceAcct).get? i
  simp only [SMap.get?_insert]
  split <;> rfl

theorem fs2_transactions : fs2.transactions.leaves.get? = fs.transactions.leaves.get? := rfl

theorem fs2_roots : fs2.accounts.root kcMax Account.abi = fs.accounts.root kcMax Account.abi ∧
    fs2.transactions.root kcMax abiBool = fs.transactions.root kcMax abiBool := by
  simp only [root_eq, fs2_accounts, fs2_transactions, and_self]

end Toy

/-- C25: the hypotheses hold for two states built by different histories. -/
example :
    CollisionFree Toy.kcMax (fun x => Toy.fs2.Hashed Toy.kcMax x ∨ Toy.fs.Hashed Toy.kcMax x) ∧
    Toy.fs.NoZero Toy.kcMax ∧ Toy.fs2.NoZero Toy.kcMax ∧
    Toy.fs2.root Toy.kcMax = Toy.fs.root Toy.kcMax := by
  have hsc : Toy.fs2.sc = Toy.fs.sc := rfl
  have hc : Toy.fs2.container Toy.kcMax = Toy.fs.container Toy.kcMax := by
    unfold FullState.container
    rw [Toy.fs2_roots.1, Toy.fs2_roots.2, hsc]
  refine ⟨Toy.fs_collisionFree _ (fun x h => Or.inr ?_), Toy.fs_noZero, ?_, ?_⟩
  · unfold FullState.Hashed at h
    rw [hc, Toy.fs2_accounts, Toy.fs2_transactions] at h
    exact h.elim id id
  · have := Toy.fs_noZero
    unfold FullState.NoZero at *
    rw [Toy.fs2_accounts, Toy.fs2_transactions]
    exact this
  · unfold FullState.root
    rw [Toy.fs2_roots.1, Toy.fs2_roots.2, hsc]

/-- C26: recovering from three true proofs, over a preloaded storage, succeeds and witnesses the
absence of key 7; a repeated proof is refused. -/
example :
    ((Sparse.mk (SMap.empty.insert 1 false) [1]).recover Toy.kc abiBool
      (Toy.storage.root Toy.kc abiBool) [Toy.proof7, Toy.proof3, Toy.proof6]).toBool = true ∧
    (Sparse.new.recover Toy.kc abiBool
      (Toy.storage.root Toy.kc abiBool) [Toy.proof7, Toy.proof3, Toy.proof7]).toBool = false := by
  decide +kernel

namespace Toy
/-- An excerpt of the state with Alice and Bob (absent) witnessed. -/
def spAB : SparseState := ⟨fs.sc, ⟨SMap.empty.insert (StoreKey.index alice) aliceAcct,
  [StoreKey.index alice, StoreKey.index bob]⟩, ⟨SMap.empty, []⟩⟩
end Toy

/-- C20: a deposit to Alice only needs Alice; one to Carol is refused on the excerpt. -/
example : Excerpt Toy.spAB Toy.fs ∧ Toy.fs.accounts.touched = [] ∧ Toy.fs.transactions.touched = [] ∧
    ((execute sparseOps sparseOps Toy.envMax Toy.deposit1 Toy.spAB).1 =
      .ok (some (.deposit 1 .completed ⟨Toy.alice, 1000⟩))) ∧
    ((execute sparseOps sparseOps Toy.envMax (.deposit ⟨10, 3, 1, ⟨Toy.carol, 1000⟩⟩) Toy.spAB).1 =
      .panic .storageKeyNotAllowed) := by
  refine ⟨⟨rfl, ?_, ?_, ?_, ?_⟩, rfl, rfl, by decide +kernel, by decide +kernel⟩
  · intro i hi
    rw [Toy.fs_accounts]
    show (SMap.insert SMap.empty (StoreKey.index Toy.alice) Toy.aliceAcct).get? i = _
    rw [SMap.get?_insert, SMap.get?_empty]
    rfl
  · intro i hi
    show (SMap.insert SMap.empty (StoreKey.index Toy.alice) Toy.aliceAcct).get? i = _
    rw [SMap.get?_insert, SMap.get?_empty, if_neg]
    intro h
    exact hi (by rw [h]; exact List.mem_cons_self)
  · intro i hi; exact absurd hi (by simp [Toy.spAB])
  · intro i hi; exact SMap.get?_empty i

end Verif
