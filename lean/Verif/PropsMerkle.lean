import Verif.MerkleUpdate
import Verif.Toy
/-
# Properties C21 to C25: Merkle storage
-/

set_option linter.unusedSectionVars false

namespace Verif

section
variable {K V : Type} [TreeKey K] [DecidableEq K] [Inhabited V]
variable (kc : Bytes → B256) (abi : V → Bytes)

/-- The storage after a history of operations on a fresh storage. -/
def Merkle.after (ops : List (MOp K V)) : Merkle K V :=
  ops.foldl (MOp.run kc abi) Merkle.new

/-- What a storage should hold after a history of operations. -/
def Contents.after (ops : List (MOp K V)) : Contents V :=
  ops.foldl MOp.spec (fun _ => none)

/-- Invariant of reachable storages. -/
structure MInv (f : Contents V) (m : Merkle K V) : Prop where
  contents : m.leaves.get? = f
  bound : ∀ j, (f j).isSome = true → j < 2 ^ TreeKey.bits K
  cache : CacheOk kc abi f m.cache

theorem Contents.set_apply (f : Contents V) (i j : Nat) (v : Option V) :
    f.set i v j = if j = i then v else f j := rfl

theorem bound_set {f : Contents V} (hb : ∀ j, (f j).isSome = true → j < 2 ^ TreeKey.bits K) (k : K)
    (v : Option V) : ∀ j, (f.set (StoreKey.index k) v j).isSome = true → j < 2 ^ TreeKey.bits K := by
  intro j hj
  rw [Contents.set_apply] at hj
  split at hj
  · rename_i h; rw [h]; exact TreeKey.index_lt k
  · exact hb j hj

theorem MInv.key_lt {f : Contents V} {m : Merkle K V} (h : MInv kc abi f m) :
    ∀ j, (m.leaves.get? j).isSome = true → j < 2 ^ 256 := by
  intro j hj
  rw [h.contents] at hj
  exact Nat.lt_of_lt_of_le (h.bound j hj) (Nat.pow_le_pow_right (by omega) (TreeKey.bits_le))

theorem proof_ok {f : Contents V} {m : Merkle K V} (h : MInv kc abi f m) (k : K) :
    (m.proof kc abi k).1 =
      .ok ⟨k, f (StoreKey.index k), truePath kc abi f (TreeKey.bits K) (StoreKey.index k)⟩ ∧
    MInv kc abi f (m.proof kc abi k).2 := by
  have hk : StoreKey.index k < 2 ^ TreeKey.bits K := TreeKey.index_lt k
  have hb : TreeKey.bits K ≤ 256 := TreeKey.bits_le
  unfold Merkle.proof
  simp only
  rw [if_neg ?_]
  · have hl := proofLoop_ok kc abi (TreeKey.bits K) hb m.leaves (h.key_lt) (TreeKey.bits K) 0
      (StoreKey.index k) m.cache (by omega) hk (by rw [h.contents]; exact h.cache)
    simp only [Nat.zero_add] at hl
    rw [h.contents] at hl ⊢
    refine ⟨?_, h.contents, h.bound, hl.2⟩
    simp only [hl.1]
    rfl
  · intro hc
    rw [shl256_eq (by rw [Nat.one_mul]; exact Nat.pow_lt_pow_right (by omega) hc.1)] at hc
    omega

theorem run_inv {f : Contents V} {m : Merkle K V} (h : MInv kc abi f m) (op : MOp K V) :
    MInv kc abi (MOp.spec f op) (MOp.run kc abi m op) := by
  cases op with
  | insert k v =>
    refine ⟨?_, bound_set h.bound k _, CacheOk.none kc abi _⟩
    funext j
    simp only [MOp.run, merkleOps, MOp.spec, SMap.get?_insert, Contents.set_apply, h.contents]
  | entry k w =>
    have hc : m.leaves.get? (StoreKey.index k) = f (StoreKey.index k) := by rw [h.contents]
    refine ⟨?_, bound_set h.bound k _, ?_⟩
    · funext j
      simp only [MOp.run, merkleOps, MOp.spec, Contents.set_apply]
      cases hg : m.leaves.get? (StoreKey.index k) with
      | some v =>
        rw [hg] at hc
        simp only [SMap.get?_insert, ← hc, h.contents, Option.getD_some]
      | none =>
        rw [hg] at hc
        simp only [SMap.get?_insert, ← hc, h.contents, Option.getD_none]
        split <;> rfl
    · simp only [MOp.run, merkleOps]
      cases hg : m.leaves.get? (StoreKey.index k) <;> exact CacheOk.none kc abi _
  | getMut k w =>
    have hc : m.leaves.get? (StoreKey.index k) = f (StoreKey.index k) := by rw [h.contents]
    refine ⟨?_, bound_set h.bound k _, ?_⟩
    · funext j
      simp only [MOp.run, merkleOps, MOp.spec, Contents.set_apply]
      cases hg : m.leaves.get? (StoreKey.index k) with
      | some v =>
        rw [hg] at hc
        simp only [SMap.get?_insert, ← hc, h.contents, Option.map_some]
      | none =>
        rw [hg] at hc
        simp only [← hc, h.contents, Option.map_none]
        split
        · rename_i hj; rw [hj, ← hc]
        · rfl
    · simp only [MOp.run, merkleOps]
      cases hg : m.leaves.get? (StoreKey.index k) <;> exact CacheOk.none kc abi _
  | get k => exact ⟨h.contents, h.bound, h.cache⟩
  | getUntracked k => exact h
  | getTracked k => exact ⟨h.contents, h.bound, h.cache⟩
  | trackTouched k => exact ⟨h.contents, h.bound, h.cache⟩
  | clearKeyTracking => exact ⟨h.contents, h.bound, h.cache⟩
  | root => exact h
  | proof k => exact (proof_ok kc abi h k).2
  | reload => exact ⟨h.contents, h.bound, CacheOk.none kc abi _⟩

theorem after_inv (ops : List (MOp K V)) :
    MInv kc abi (Contents.after ops) (Merkle.after kc abi ops) := by
  have key : ∀ (ops : List (MOp K V)) (f : Contents V) (m : Merkle K V), MInv kc abi f m →
      MInv kc abi (ops.foldl MOp.spec f) (ops.foldl (MOp.run kc abi) m) := by
    intro ops
    induction ops with
    | nil => intro f m h; exact h
    | cons op ops ih => intro f m h; exact ih _ _ (run_inv kc abi h op)
  exact key ops _ _ ⟨by funext j; rfl, by intro j hj; simp at hj, CacheOk.none kc abi _⟩

/-- **C21.** After any history of storage operations (inserts, writes through entries, reads, proof
and root computations, reloads) the root is the root of the complete binary tree over the contents the
history should have produced. -/
theorem c21_root (ops : List (MOp K V)) :
    (Merkle.after kc abi ops).root kc abi = treeRoot kc abi (TreeKey.bits K) (Contents.after ops) := by
  rw [root_eq, (after_inv kc abi ops).contents]

/-- **C21.** Two histories that leave the same contents leave the same root. -/
theorem c21_same_contents (ops ops' : List (MOp K V))
    (h : ∀ i, Contents.after ops i = Contents.after ops' i) :
    (Merkle.after kc abi ops).root kc abi = (Merkle.after kc abi ops').root kc abi := by
  rw [c21_root, c21_root, show Contents.after ops = Contents.after ops' from funext h]

/-- **C21.** The value read back at a key is the one the history should have produced. -/
theorem c21_contents (ops : List (MOp K V)) (k : K) :
    (Merkle.after kc abi ops).leaves.get? (StoreKey.index k) = Contents.after ops (StoreKey.index k) := by
  rw [(after_inv kc abi ops).contents]

/-- **C22.** After any history of storage operations a proof can be generated for every key; it carries
the key, the value the history left there (or none), and verifies against the root. -/
theorem c22_proof_verifies (ops : List (MOp K V)) (k : K) :
    ∃ p : MerkleProof K V,
      ((Merkle.after kc abi ops).proof kc abi k).1 = .ok p ∧ p.key = k ∧
      p.value = Contents.after ops (StoreKey.index k) ∧
      verifyProof kc abi ((Merkle.after kc abi ops).root kc abi) p = .ok () := by
  refine ⟨_, (proof_ok kc abi (after_inv kc abi ops) k).1, rfl, rfl, ?_⟩
  rw [verifyProof_ok_iff, c21_root]
  exact ⟨by simp [truePath], truePath_root kc abi _ _ _ (TreeKey.index_lt k)⟩

/-- **C23.** If a proof is accepted against the root of a storage, its claim about the key is what the
storage holds, provided the hash function has no collision among the inputs hashed by the
verification and those on the path of that key in the storage's tree, and the two leaf encodings
involved do not hash to the zero word. -/
theorem c23_accepted_true (habi : ∀ a b : V, abi a = abi b → a = b)
    (m : Merkle K V) (p : MerkleProof K V)
    (hcf : CollisionFree kc (fun x => x ∈ proofInputs kc abi p ∨
      x ∈ pathInputs kc abi m.leaves.get? (TreeKey.bits K) (StoreKey.index p.key)))
    (hz : ∀ x ∈ leafInputs abi p.value ++ leafInputs abi (m.leaves.get? (StoreKey.index p.key)), kc x ≠ 0)
    (hv : verifyProof kc abi (m.root kc abi) p = .ok ()) :
    p.value = m.leaves.get? (StoreKey.index p.key) := by
  rw [root_eq] at hv
  exact (verify_sound kc abi habi m.leaves.get? p _ hcf (fun x hx => Or.inl hx) (fun x hx => Or.inr hx)
    hz hv).1

/-- **C23.** A proof of the wrong length is never accepted. -/
theorem c23_length (root : B256) (p : MerkleProof K V) (h : p.proof.length ≠ TreeKey.bits K) :
    verifyProof kc abi root p = .error .invalidMerkleProofLength := by
  unfold verifyProof verifyProofWithHash
  rw [if_pos h]

/-- The storage after inserting a list of values. -/
def Merkle.insertAll (m : Merkle K V) (new : List (K × V)) : Merkle K V :=
  new.foldl (fun m e => MOp.run kc abi m (.insert e.1 e.2)) m

theorem insertAll_contents (m : Merkle K V) (new : List (K × V)) :
    (m.insertAll kc abi new).leaves.get? = Contents.write m.leaves.get? new := by
  have key : ∀ (new : List (K × V)) (m : Merkle K V) (f : Contents V), m.leaves.get? = f →
      (m.insertAll kc abi new).leaves.get? = Contents.write f new := by
    intro new
    induction new with
    | nil => intro m f h; exact h
    | cons e new ih =>
      intro m f h
      apply ih
      funext j
      simp only [MOp.run, merkleOps, SMap.get?_insert, Contents.set_apply, h]
  exact key new m _ rfl

/-- The inputs hashed for the proofs `ps` and for the paths of their keys in the tree of `f`. -/
def proofsInput (f : Contents V) (ps : List (MerkleProof K V)) (x : Bytes) : Prop :=
  ∃ p ∈ ps, x ∈ proofInputs kc abi p ∨ x ∈ pathInputs kc abi f (TreeKey.bits K) (StoreKey.index p.key)

/-- No leaf encoding claimed by the proofs, or stored at their keys, hashes to the zero word. -/
def NoZeroLeaf (f : Contents V) (ps : List (MerkleProof K V)) : Prop :=
  ∀ p ∈ ps, ∀ x ∈ leafInputs abi p.value ++ leafInputs abi (f (StoreKey.index p.key)), kc x ≠ 0

theorem verified_true (habi : ∀ a b : V, abi a = abi b → a = b) (f : Contents V)
    (ps : List (MerkleProof K V)) (S : Bytes → Prop) (hcf : CollisionFree kc S)
    (hS : ∀ x, proofsInput kc abi f ps x → S x) (hz : NoZeroLeaf kc abi f ps)
    (hv : ∀ p ∈ ps, verifyProof kc abi (treeRoot kc abi (TreeKey.bits K) f) p = .ok ()) :
    ∀ p ∈ ps, TrueProof kc abi f p := by
  intro p hp
  exact verify_sound kc abi habi f p S hcf (fun x hx => hS x ⟨p, hp, Or.inl hx⟩)
    (fun x hx => hS x ⟨p, hp, Or.inr hx⟩) (hz p hp) (hv p hp)

/-- **C24.** If the root update succeeds, the root it returns is the root of the storage after
inserting the new values, in order, into the storage with the old root. The proofs may come in any
order, may share path nodes and may be more than the updated keys. -/
theorem c24_new_root (habi : ∀ a b : V, abi a = abi b → a = b) (m : Merkle K V)
    (ps : List (MerkleProof K V)) (new : List (K × V)) (r : B256)
    (hcf : CollisionFree kc (proofsInput kc abi m.leaves.get? ps))
    (hz : NoZeroLeaf kc abi m.leaves.get? ps)
    (h : calculateNewRoot kc abi (m.root kc abi) ps new = .ok r) :
    r = (m.insertAll kc abi new).root kc abi := by
  obtain ⟨h1, h2⟩ := calculateNewRoot_ok kc abi _ _ ps new h
  rw [root_eq] at h h1
  have ht := verified_true kc abi habi m.leaves.get? ps _ hcf (fun x hx => hx) hz h1
  rw [calculateNewRoot_true kc abi _ ps new ht h2] at h
  rw [root_eq, insertAll_contents]
  exact (Except.ok.inj h).symm

/-- **C24.** The root update succeeds exactly if every proof verifies against the old root and every
updated key has a proof (no assumption on the hash function). -/
theorem c24_success_iff (m : Merkle K V) (ps : List (MerkleProof K V)) (new : List (K × V)) :
    (∃ r, calculateNewRoot kc abi (m.root kc abi) ps new = .ok r) ↔
      (∀ p ∈ ps, verifyProof kc abi (m.root kc abi) p = .ok ()) ∧
      (∀ e ∈ new, ∃ p ∈ ps, p.key = e.1) := by
  constructor
  · rintro ⟨r, h⟩
    exact calculateNewRoot_ok kc abi _ r ps new h
  · rintro ⟨h1, h2⟩
    unfold calculateNewRoot
    split
    · exact ⟨_, rfl⟩
    · rename_i hne
      rw [(verifyAll_ok_iff kc abi _ ps).mpr h1]
      have hall : new.all (fun e => ps.any (fun p => p.key = e.1)) = true := by
        simp only [List.all_eq_true, List.any_eq_true, decide_eq_true_eq]
        exact h2
      simp only
      rw [if_neg (by simp [hall])]
      have hlen : ∀ p ∈ ps, p.proof.length = TreeKey.bits K :=
        fun p hp => ((verifyProof_ok_iff kc abi _ p).mp (h1 p hp)).1
      have hsome : ∃ h, (ps.foldl (replayProof kc abi (updateMap new)) (fun _ _ => none))
          (TreeKey.bits K) 0 = some h := by
        have hmono1 : ∀ (ss : List B256) (l i : Nat) (h : B256) (c : Cache) (l' i' : Nat),
            (c l' i').isSome = true → ((walkUp kc ss l i h c) l' i').isSome = true := by
          intro ss
          induction ss with
          | nil => intro l i h c l' i' hs; exact hs
          | cons s ss ih =>
            intro l i h c l' i' hs
            simp only [walkUp]
            apply ih
            apply Cache.insert_isSome
            rcases Cache.orInsert_cases c l (i ^^^ 1) ((c l (i ^^^ 1)).getD s) with e | e <;> rw [e]
            · exact hs
            · exact Cache.insert_isSome _ _ _ _ _ _ hs
        have htop : ∀ (ss : List B256) (l i : Nat) (h : B256) (c : Cache),
            (c l i).isSome = true →
            ((walkUp kc ss l i h c) (l + ss.length) (i / 2 ^ ss.length)).isSome = true := by
          intro ss
          induction ss with
          | nil => intro l i h c hs; simpa [walkUp] using hs
          | cons s ss ih =>
            intro l i h c hs
            simp only [walkUp, List.length_cons]
            rw [show l + (ss.length + 1) = l + 1 + ss.length by omega, Nat.pow_succ, Nat.mul_comm,
              ← Nat.div_div_eq_div_mul]
            rw [shr_one]
            apply ih
            rw [Cache.insert_same]; rfl
        have hmono : ∀ (ps : List (MerkleProof K V)) (c : Cache) (l' i' : Nat),
            (c l' i').isSome = true →
            ((ps.foldl (replayProof kc abi (updateMap new)) c) l' i').isSome = true := by
          intro ps
          induction ps with
          | nil => intro c l' i' hs; exact hs
          | cons p ps ih =>
            intro c l' i' hs
            apply ih
            exact hmono1 _ _ _ _ _ _ _ (Cache.insert_isSome _ _ _ _ _ _ hs)
        cases ps with
        | nil =>
          cases new with
          | nil => simp at hne
          | cons e new =>
            obtain ⟨p, hp, _⟩ := h2 e (by simp)
            simp at hp
        | cons p ps =>
          apply Option.isSome_iff_exists.mp
          rw [List.foldl_cons]
          apply hmono
          have := htop p.proof 0 (StoreKey.index p.key) (replayLeaf kc abi (updateMap new) p)
            (Cache.insert (fun _ _ => none) 0 (StoreKey.index p.key) (replayLeaf kc abi (updateMap new) p))
            (by rw [Cache.insert_same]; rfl)
          rw [hlen p (by simp), Nat.div_eq_of_lt (TreeKey.index_lt p.key), Nat.zero_add] at this
          exact this
      obtain ⟨h, hh⟩ := hsome
      rw [hh]
      exact ⟨h, rfl⟩

theorem treeRoot_binds (habi : ∀ a b : V, abi a = abi b → a = b) (f g : Contents V) (bits : Nat)
    (S : Bytes → Prop) (hcf : CollisionFree kc S)
    (hf : ∀ x, TreeInput kc abi f bits x → S x) (hg : ∀ x, TreeInput kc abi g bits x → S x)
    (hzf : ∀ i v, f i = some v → kc (abi v) ≠ 0) (hzg : ∀ i v, g i = some v → kc (abi v) ≠ 0)
    (h : treeRoot kc abi bits f = treeRoot kc abi bits g) :
    ∀ i < 2 ^ bits, f i = g i := by
  have key : ∀ l i, l ≤ bits → i < 2 ^ (bits - l) → nodeHash kc abi f l i = nodeHash kc abi g l i →
      ∀ j, j / 2 ^ l = i → f j = g j := by
    intro l
    induction l with
    | zero =>
      intro i hl hi he j hj
      simp only [Nat.pow_zero, Nat.div_one] at hj
      subst hj
      simp only [Nat.sub_zero] at hi
      apply leafWord_inj kc abi habi _ _ S hcf _ _ he
      · intro x hx
        cases hfj : f j with
        | none => rw [hfj] at hx; simp [leafInputs] at hx
        | some v =>
          rw [hfj] at hx
          simp only [leafInputs, List.mem_singleton] at hx
          exact ⟨hf x (Or.inl ⟨j, v, hi, hfj, hx⟩), by rw [hx]; exact hzf j v hfj⟩
      · intro x hx
        cases hgj : g j with
        | none => rw [hgj] at hx; simp [leafInputs] at hx
        | some v =>
          rw [hgj] at hx
          simp only [leafInputs, List.mem_singleton] at hx
          exact ⟨hg x (Or.inl ⟨j, v, hi, hgj, hx⟩), by rw [hx]; exact hzg j v hgj⟩
    | succ l ih =>
      intro i hl hi he j hj
      have hin := hcf _ _ (hf _ (Or.inr ⟨l, i, hl, hi, rfl⟩)) (hg _ (Or.inr ⟨l, i, hl, hi, rfl⟩)) he
      have hpair := bytes_append_inj hin
      have hlt : 2 ^ (bits - l) = 2 * 2 ^ (bits - (l + 1)) := by
        rw [show bits - l = bits - (l + 1) + 1 by omega, Nat.pow_succ]; omega
      rw [← div_pow_succ] at hj
      by_cases hp : j / 2 ^ l % 2 = 0
      · exact ih (2 * i) (by omega) (by omega) hpair.1 j (by omega)
      · exact ih (2 * i + 1) (by omega) (by omega) hpair.2 j (by omega)
  intro i hi
  apply key bits 0 (Nat.le_refl _) (Nat.pow_pos (by omega)) h
  exact Nat.div_eq_of_lt hi

/-- **C25.** Two reachable storages with the same root hold the same contents, provided the hash
function has no collision among the inputs hashed by the two trees and no stored leaf hashes to the
zero word. -/
theorem c25_storage (habi : ∀ a b : V, abi a = abi b → a = b) (ops ops' : List (MOp K V))
    (hcf : CollisionFree kc (fun x =>
      TreeInput kc abi (Contents.after ops) (TreeKey.bits K) x ∨
      TreeInput kc abi (Contents.after ops') (TreeKey.bits K) x))
    (hz : ∀ i v, Contents.after ops i = some v ∨ Contents.after ops' i = some v → kc (abi v) ≠ 0)
    (h : (Merkle.after kc abi ops).root kc abi = (Merkle.after kc abi ops').root kc abi) :
    ∀ k : K, (Merkle.after kc abi ops).leaves.get? (StoreKey.index k) =
      (Merkle.after kc abi ops').leaves.get? (StoreKey.index k) := by
  rw [c21_root, c21_root] at h
  intro k
  rw [c21_contents, c21_contents]
  exact treeRoot_binds kc abi habi _ _ _ _ hcf (fun x hx => Or.inl hx) (fun x hx => Or.inr hx)
    (fun i v hv => hz i v (Or.inl hv)) (fun i v hv => hz i v (Or.inr hv)) h _ (TreeKey.index_lt k)

end

/-! ## Witnesses

The theorems hold for every key width; the concrete cases use a tree of height 3 over `Bool` leaves,
hashed with the toy hash function, so that whole trees can be computed. -/

namespace Toy

/-- A three-bit key. -/
structure Nib where
  nib : BitVec 3
  deriving DecidableEq

instance : StoreKey Nib := ⟨fun k => k.nib.toNat⟩
instance : TreeKey Nib where
  bits := 3
  bits_le := by omega
  index_lt k := k.nib.isLt

/-- Two inserts, a proof (which fills the cache), a write through an entry, a read, a failed
`get_mut`. -/
def mops : List (MOp Nib Bool) :=
  [.insert ⟨3⟩ true, .proof ⟨1⟩, .entry ⟨6⟩ (fun b => !b), .get ⟨4⟩, .getMut ⟨5⟩ (fun _ => true), .root]
/-- Other operations that leave the same contents. -/
def mops' : List (MOp Nib Bool) :=
  [.insert ⟨6⟩ false, .insert ⟨3⟩ false, .reload, .getMut ⟨3⟩ (fun b => !b), .insert ⟨6⟩ true]

def kc := env.keccak
def storage : Merkle Nib Bool := Merkle.after kc abiBool mops

/-- The proof the storage generates for key 6, and one for the absent key 7. -/
def proof6 : MerkleProof Nib Bool := ⟨⟨6⟩, some true, truePath kc abiBool storage.leaves.get? 3 6⟩
def proof7 : MerkleProof Nib Bool := ⟨⟨7⟩, none, truePath kc abiBool storage.leaves.get? 3 7⟩
def proof3 : MerkleProof Nib Bool := ⟨⟨3⟩, some true, truePath kc abiBool storage.leaves.get? 3 3⟩

instance (L : List Bytes) (f : Bytes → B256) :
    Decidable (∀ x ∈ L, ∀ y ∈ L, f x = f y → x = y) := inferInstance

theorem collisionFree_of_list (f : Bytes → B256) (L : List Bytes) (S : Bytes → Prop)
    (hS : ∀ x, S x → x ∈ L) (h : ∀ x ∈ L, ∀ y ∈ L, f x = f y → x = y) : CollisionFree f S :=
  fun x y hx hy => h x (hS x hx) y (hS y hy)

end Toy

theorem abiBool_inj : ∀ a b : Bool, abiBool a = abiBool b → a = b := by decide +kernel

/-- C21: two different histories with the same contents. -/
example : (∀ i, Contents.after Toy.mops i = Contents.after Toy.mops' i) ∧
    Contents.after Toy.mops 6 = some true ∧
    Toy.storage.root Toy.kc abiBool ≠ zeroHash Toy.kc 3 := by
  refine ⟨?_, by decide +kernel, by decide +kernel⟩
  intro i
  simp only [Contents.after, Toy.mops, Toy.mops', List.foldl, MOp.spec, Contents.set, StoreKey.index]
  by_cases h : i = 6
  · subst h; decide
  · by_cases h3 : i = 3
    · subst h3; decide
    · simp [h, h3]

/-- C22: the generated proof of a present and of an absent key are the expected ones. -/
example : (Toy.storage.proof Toy.kc abiBool ⟨6⟩).1.toOption = some Toy.proof6 ∧
    (Toy.storage.proof Toy.kc abiBool ⟨7⟩).1.toOption = some Toy.proof7 := by
  decide +kernel

/-- C23: the hypotheses hold for a true proof, and a proof with a changed value is rejected. -/
example :
    CollisionFree Toy.kc (fun x => x ∈ proofInputs Toy.kc abiBool Toy.proof6 ∨
      x ∈ pathInputs Toy.kc abiBool Toy.storage.leaves.get? (TreeKey.bits Toy.Nib) 6) ∧
    (∀ x ∈ leafInputs abiBool Toy.proof6.value ++ leafInputs abiBool (Toy.storage.leaves.get? 6),
      Toy.kc x ≠ 0) ∧
    (verifyProof Toy.kc abiBool (Toy.storage.root Toy.kc abiBool) Toy.proof6).toBool = true ∧
    (verifyProof Toy.kc abiBool (Toy.storage.root Toy.kc abiBool)
      { Toy.proof6 with value := some false }).toBool = false := by
  refine ⟨Toy.collisionFree_of_list _
    (proofInputs Toy.kc abiBool Toy.proof6 ++
      pathInputs Toy.kc abiBool Toy.storage.leaves.get? (TreeKey.bits Toy.Nib) 6) _
    (fun x hx => List.mem_append.mpr hx) ?_, ?_, ?_, ?_⟩
  all_goals decide +kernel

/-- C24: updating two of three proved keys, one of them absent before. -/
example :
    CollisionFree Toy.kc (proofsInput Toy.kc abiBool Toy.storage.leaves.get?
      [Toy.proof7, Toy.proof3, Toy.proof6]) ∧
    NoZeroLeaf Toy.kc abiBool Toy.storage.leaves.get? [Toy.proof7, Toy.proof3, Toy.proof6] ∧
    (calculateNewRoot Toy.kc abiBool (Toy.storage.root Toy.kc abiBool)
      [Toy.proof7, Toy.proof3, Toy.proof6] [(⟨6⟩, false), (⟨7⟩, true)]).toOption =
    some ((Toy.storage.insertAll Toy.kc abiBool [(⟨6⟩, false), (⟨7⟩, true)]).root Toy.kc abiBool) := by
  refine ⟨Toy.collisionFree_of_list _
    ([Toy.proof7, Toy.proof3, Toy.proof6].flatMap (fun p => proofInputs Toy.kc abiBool p ++
      pathInputs Toy.kc abiBool Toy.storage.leaves.get? (TreeKey.bits Toy.Nib) (StoreKey.index p.key))) _
    ?_ ?_, ?_, ?_⟩
  · rintro x ⟨p, hp, hx⟩
    exact List.mem_flatMap.mpr ⟨p, hp, List.mem_append.mpr hx⟩
  all_goals (try unfold NoZeroLeaf); decide +kernel

/-- C24: an update without a proof is rejected. -/
example : (calculateNewRoot Toy.kc abiBool (Toy.storage.root Toy.kc abiBool)
    [Toy.proof7, Toy.proof6] [(⟨3⟩, false)]).toBool = false := by decide +kernel

/-- C25: the collision-freeness hypothesis holds for the two histories above. -/
example : CollisionFree Toy.kc (fun x =>
      TreeInput Toy.kc abiBool (Contents.after Toy.mops) (TreeKey.bits Toy.Nib) x ∨
      TreeInput Toy.kc abiBool (Contents.after Toy.mops') (TreeKey.bits Toy.Nib) x) := by
  have mem : ∀ (f : Contents Bool) x, TreeInput Toy.kc abiBool f 3 x →
      x ∈ (List.range 8).flatMap (fun i => leafInputs abiBool (f i)) ++
        (List.range 3).flatMap (fun l => (List.range (2 ^ (3 - (l + 1)))).map (fun i =>
          B256.bytes (nodeHash Toy.kc abiBool f l (2 * i)) ++
          B256.bytes (nodeHash Toy.kc abiBool f l (2 * i + 1)))) := by
    intro f x hx
    rw [List.mem_append]
    rcases hx with ⟨i, v, hi, hv, hx⟩ | ⟨l, i, hl, hi, hx⟩
    · left
      exact List.mem_flatMap.mpr ⟨i, by simpa using hi, by rw [hv]; simp [leafInputs, hx]⟩
    · right
      exact List.mem_flatMap.mpr ⟨l, by simpa using hl, List.mem_map.mpr ⟨i, by simpa using hi, hx.symm⟩⟩
  apply Toy.collisionFree_of_list _ _ _
    (fun x hx => List.mem_append.mpr (Or.imp (mem _ x) (mem _ x) hx))
  decide +kernel

end Verif
