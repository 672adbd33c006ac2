import Verif.Merkle
/-
# Specification of Merkle trees

A complete binary tree of height `bits` over all `2 ^ bits` indices: a stored value contributes the
hash of its ABI encoding, an index without a value contributes the zero word, and an inner node is the
hash of its two children. None of this mentions how the code computes or caches anything.
-/

namespace Verif

/-- What a storage holds: a value or nothing at every index. -/
abbrev Contents (V : Type) := Nat → Option V

/-- `f` with the value at `i` replaced. -/
def Contents.set {V : Type} (f : Contents V) (i : Nat) (v : Option V) : Contents V :=
  fun j => if j = i then v else f j

/-- Contents after writing a list of new values, in order. -/
def Contents.write {K V : Type} [StoreKey K] (f : Contents V) (new : List (K × V)) : Contents V :=
  new.foldl (fun f e => f.set (StoreKey.index e.1) (some e.2)) f

section
variable {V : Type} (kc : Bytes → B256) (abi : V → Bytes)

/-- The word at a leaf. -/
def leafWord : Option V → B256
  | some v => kc (abi v)
  | none => 0

/-- The hash of the node number `i` of level `l` (level 0 are the leaves). -/
def nodeHash (f : Contents V) : (l i : Nat) → B256
  | 0, i => leafWord kc abi (f i)
  | l + 1, i => kc (B256.bytes (nodeHash f l (2 * i)) ++ B256.bytes (nodeHash f l (2 * i + 1)))

/-- The root of the tree of height `bits`. -/
def treeRoot (bits : Nat) (f : Contents V) : B256 := nodeHash kc abi f bits 0

/-- The other child of the parent of node `i`. -/
def siblingOf (i : Nat) : Nat := if i % 2 = 0 then i + 1 else i - 1

/-- The sibling hashes on the way from leaf `i` to the root, leaf level first. -/
def truePath (f : Contents V) (bits i : Nat) : List B256 :=
  (List.range bits).map (fun l => nodeHash kc abi f l (siblingOf (i / 2 ^ l)))

/-! ## The inputs given to the hash function

`CollisionFree kc S` is the only cryptographic assumption used: the hash function has no collision
*among the inputs in `S`*. Every theorem that needs it names an explicit set of inputs that are really
hashed by the computations it is about. -/

/-- No two different members of `S` have the same hash. -/
def CollisionFree (S : Bytes → Prop) : Prop := ∀ x y, S x → S y → kc x = kc y → x = y

/-- The inputs hashed when a value is hashed. -/
def leafInputs : Option V → List Bytes
  | some v => [abi v]
  | none => []

/-- The inputs hashed on the path from leaf `i` up to the root of the tree. -/
def pathInputs (f : Contents V) (bits i : Nat) : List Bytes :=
  leafInputs abi (f i) ++
  (List.range bits).map (fun l =>
    B256.bytes (nodeHash kc abi f l (2 * (i / 2 ^ (l + 1)))) ++
    B256.bytes (nodeHash kc abi f l (2 * (i / 2 ^ (l + 1)) + 1)))

/-- The inputs hashed by whoever folds a claimed path `ss` over a claimed leaf word `h` at index `i`. -/
def foldInputs (h : B256) (i : Nat) : List B256 → List Bytes
  | [] => []
  | s :: ss =>
    let x := if i % 2 = 0 then B256.bytes h ++ B256.bytes s else B256.bytes s ++ B256.bytes h
    x :: foldInputs (kc x) (i / 2) ss

/-- The inputs hashed by the verification of a proof. -/
def proofInputs {K : Type} [StoreKey K] (p : MerkleProof K V) : List Bytes :=
  leafInputs abi p.value ++ foldInputs kc (leafWord kc abi p.value) (StoreKey.index p.key) p.proof

/-- All inputs hashed when the whole tree is hashed. -/
def TreeInput (f : Contents V) (bits : Nat) (x : Bytes) : Prop :=
  (∃ i v, i < 2 ^ bits ∧ f i = some v ∧ x = abi v) ∨
  (∃ l i, l < bits ∧ i < 2 ^ (bits - (l + 1)) ∧
    x = B256.bytes (nodeHash kc abi f l (2 * i)) ++ B256.bytes (nodeHash kc abi f l (2 * i + 1)))

end

/-! ## Histories of storage operations -/

/-- The public operations of Merkle storage (`crates/vapp/src/merkle.rs:99-277,489-550`): `insert`,
`entry(..).or_default()` followed by a write through the reference (`entry`), `get_mut` followed by
a write through the reference if there is one (`getMut`), the reads `get`, `get_untracked` and
`get_tracked`, `root`, `proof`, the bookkeeping of touched keys, and a serialise/deserialise round trip
(which drops the skipped fields). -/
inductive MOp (K V : Type) where
  | insert (k : K) (v : V)
  | entry (k : K) (write : V → V)
  | getMut (k : K) (write : V → V)
  | get (k : K)
  | getUntracked (k : K)
  | getTracked (k : K)
  | trackTouched (k : K)
  | clearKeyTracking
  | root
  | proof (k : K)
  | reload

/-- The effect of one operation on the storage. -/
def MOp.run {K V : Type} [TreeKey K] [DecidableEq K] [Inhabited V] (kc : Bytes → B256)
    (abi : V → Bytes) (m : Merkle K V) : MOp K V → Merkle K V
  | .insert k v => match merkleOps.insert k v m with
    | .ok m => m
    | .error _ => m
  | .entry k w => match merkleOps.entry k m with
    | .ok (v, m) => merkleOps.put k (w v) m
    | .error _ => m
  | .getMut k w => match merkleOps.getMut k m with
    | .ok (some v, m) => merkleOps.put k (w v) m
    | .ok (none, m) => m
    | .error _ => m
  | .get k => match merkleOps.get k m with
    | .ok (_, m) => m
    | .error _ => m
  | .getUntracked _ => m
  | .getTracked k => { m with touched := touch m.touched k }
  | .trackTouched k => { m with touched := touch m.touched k }
  | .clearKeyTracking => { m with touched := [] }
  | .root => m
  | .proof k => (m.proof kc abi k).2
  | .reload => ⟨m.leaves, fun _ _ => none, []⟩

/-- What an operation should do to the contents. -/
def MOp.spec {K V : Type} [StoreKey K] [Inhabited V] (f : Contents V) : MOp K V → Contents V
  | .insert k v => f.set (StoreKey.index k) (some v)
  | .entry k w => f.set (StoreKey.index k) (some (w ((f (StoreKey.index k)).getD default)))
  | .getMut k w => f.set (StoreKey.index k) ((f (StoreKey.index k)).map w)
  | _ => f

end Verif
