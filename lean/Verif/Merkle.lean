import Verif.Prog
/-
# Merkle storage

Model of `crates/vapp/src/merkle.rs`. Tree indices (`U256`) are natural numbers; every shift and
addition that could wrap in Rust is reduced modulo `2 ^ 256` here too.

Simplification: the field `zero_hashes` (always the result of `compute_zero_hashes`, the constructor
being the only writer) is the function `zeroHash`, and the node cache (`BTreeMap<(usize, U256), B256>`)
is a partial function.
-/

namespace Verif

/-- `trait StorageKey`, `crates/vapp/src/storage.rs:38-44`: `index()` and `bits()`. The two laws hold
for every implementation in the crate (`storage.rs:46-77`); they are proved for each instance below. -/
class TreeKey (K : Type) extends StoreKey K where
  bits : Nat
  bits_le : bits ≤ 256
  index_lt : ∀ k : K, StoreKey.index k < 2 ^ bits

theorem index_lt_address (k : Address) : StoreKey.index k < 2 ^ 160 := Address.index_lt k
theorem index_lt_requestId (k : B256) : StoreKey.index k < 2 ^ 160 := B256.index_lt k

/-- `impl StorageKey for Address`, `crates/vapp/src/storage.rs:56-64`. -/
instance : TreeKey Address where
  bits := 160
  bits_le := by omega
  index_lt := index_lt_address

/-- `impl StorageKey for RequestId`, `crates/vapp/src/storage.rs:69-77`. -/
instance instTreeKeyB256 : TreeKey B256 where
  bits := 160
  bits_le := by omega
  index_lt := index_lt_requestId

/-- `U256` used as a key (a wrapper, since `B256` is represented by the same Lean type). -/
structure WordKey where
  word : U256
  deriving DecidableEq
instance : StoreKey WordKey := ⟨fun k => k.word.toNat⟩
/-- `impl StorageKey for U256`, `crates/vapp/src/storage.rs:46-54`. -/
instance : TreeKey WordKey where
  bits := 256
  bits_le := by omega
  index_lt k := k.word.isLt

/-- `U256 << n`, wrapping (`ruint`). -/
def shl256 (i n : Nat) : Nat := (i <<< n) % 2 ^ 256

/-- `H::hash_pair`, `crates/vapp/src/merkle.rs:557-562`: Keccak of the two ABI-encoded words. -/
def hashPair (kc : Bytes → B256) (l r : B256) : B256 := kc (B256.bytes l ++ B256.bytes r)

/-- `compute_zero_hashes`, `crates/vapp/src/merkle.rs:327-337`. -/
def zeroHash (kc : Bytes → B256) : Nat → B256
  | 0 => 0
  | n + 1 => hashPair kc (zeroHash kc n) (zeroHash kc n)

/-- The node cache. -/
abbrev Cache := Nat → Nat → Option B256

/-- `cache.insert((layer, index), hash)`, `crates/vapp/src/merkle.rs:243`. -/
def Cache.insert (c : Cache) (layer index : Nat) (h : B256) : Cache :=
  fun l i => if l = layer ∧ i = index then some h else c l i

/-- `MerkleStorage`, `crates/vapp/src/merkle.rs:31-47`. -/
structure Merkle (K V : Type) where
  leaves : SMap V
  cache : Cache
  touched : List K

/-- `MerkleStorageError`, `crates/vapp/src/merkle.rs:50-67`. -/
inductive MerkleError where
  | indexOutOfBounds
  | invalidMerkleProof
  | missingMerkleProofForUpdatedKey
  | failedToComputeNewRoot
  | invalidMerkleProofLength
  deriving DecidableEq

/-- `MerkleProof`, `crates/vapp/src/merkle.rs:71-81`. -/
structure MerkleProof (K V : Type) where
  key : K
  value : Option V
  proof : List B256
  deriving DecidableEq

section
variable {K V : Type} (kc : Bytes → B256) (abi : V → Bytes)

/-- `H::hash(v)` of a present leaf, the zero word for an absent one
(`crates/vapp/src/merkle.rs:177-181,222,286-289,404-411,553-555`). -/
def optHash : Option V → B256
  | none => 0
  | some v => kc (abi v)

/-! ## Root -/

/-- Body of the inner loop of `root`, `crates/vapp/src/merkle.rs:126-149`. -/
def layerStep (z : B256) (cur : SMap B256) (next : SMap B256) (e : Nat × B256) : SMap B256 :=
  let parent := e.1 >>> 1
  if e.1 % 2 = 0 then
    let next := match next.get? parent with
      | some _ => next
      | none => next.insert parent (hashPair kc e.2 z)
    match cur.get? (e.1 ||| 1) with
    | some sib => next.insert parent (hashPair kc e.2 sib)
    | none => next
  else
    let next := match next.get? parent with
      | some _ => next
      | none => next.insert parent (hashPair kc z e.2)
    match cur.get? (e.1 - 1) with
    | some sib => next.insert parent (hashPair kc sib e.2)
    | none => next

/-- One iteration of the outer loop of `root`, `crates/vapp/src/merkle.rs:122-152`. -/
def nextLayer (layer : Nat) (cur : SMap B256) : SMap B256 :=
  cur.list.foldl (layerStep kc (zeroHash kc (layer - 1)) cur) SMap.empty

/-- `for layer in 1..=n`, `crates/vapp/src/merkle.rs:122-152`. -/
def buildLayers (cur : SMap B256) : Nat → SMap B256
  | 0 => cur
  | n + 1 => nextLayer kc (n + 1) (buildLayers cur n)

/-- The leaf layer, `crates/vapp/src/merkle.rs:113-119`. -/
def leafLayer (leaves : SMap V) : SMap B256 :=
  leaves.list.foldl (fun m e => m.insert e.1 (kc (abi e.2))) SMap.empty

/-- `MerkleStorage::root`, `crates/vapp/src/merkle.rs:102-157`. -/
def Merkle.root [TreeKey K] (m : Merkle K V) : B256 :=
  if m.leaves.isEmpty then zeroHash kc (TreeKey.bits K)
  else
    match (buildLayers kc (leafLayer kc abi m.leaves) (TreeKey.bits K)).get? 0 with
    | some h => h
    | none => zeroHash kc (TreeKey.bits K)

/-! ## Proof generation -/

/-- `is_subtree_empty`, `crates/vapp/src/merkle.rs:202-213`, including the wrap-around of the end of
the last subtree of a 256-bit tree. -/
def subtreeEmpty (leaves : SMap V) (layer index : Nat) : Bool :=
  let start := shl256 index layer
  let fin := (start + shl256 1 layer) % 2 ^ 256
  if fin = 0 then leaves.list.all (fun e => decide (¬ start ≤ e.1))
  else leaves.list.all (fun e => decide (¬ (start ≤ e.1 ∧ e.1 < fin)))

/-- `compute_node`, `crates/vapp/src/merkle.rs:219-247` (the cache is threaded through). -/
def computeNode (bits : Nat) (leaves : SMap V) : Nat → Nat → Cache → B256 × Cache
  | 0, index, c => (optHash kc abi (leaves.get? index), c)
  | layer + 1, index, c =>
    match c (layer + 1) index with
    | some h => (h, c)
    | none =>
      if subtreeEmpty leaves (layer + 1) index then (zeroHash kc (layer + 1), c)
      else
        let l := computeNode bits leaves layer (shl256 index 1) c
        let r := computeNode bits leaves layer (shl256 index 1 ||| 1) l.2
        let h := hashPair kc l.1 r.1
        (h, if bits - 20 ≤ layer + 1 then r.2.insert (layer + 1) index h else r.2)

/-- The sibling hash at one layer of `proof`, `crates/vapp/src/merkle.rs:175-193`. -/
def siblingHash (bits : Nat) (leaves : SMap V) (layer sib : Nat) (c : Cache) : B256 × Cache :=
  if layer = 0 then (optHash kc abi (leaves.get? sib), c)
  else
    match c layer sib with
    | some h => (h, c)
    | none =>
      if subtreeEmpty leaves layer sib then (zeroHash kc layer, c)
      else computeNode kc abi bits leaves layer sib c

/-- The loop of `proof`, `crates/vapp/src/merkle.rs:170-197`, for `n` more layers from `layer`. -/
def proofLoop (bits : Nat) (leaves : SMap V) : (n layer index : Nat) → Cache → List B256 × Cache
  | 0, _, _, c => ([], c)
  | n + 1, layer, index, c =>
    let s := siblingHash kc abi bits leaves layer (index ^^^ 1) c
    let rest := proofLoop bits leaves n (layer + 1) (index >>> 1) s.2
    (s.1 :: rest.1, rest.2)

/-- `MerkleStorage::proof`, `crates/vapp/src/merkle.rs:160-199`. -/
def Merkle.proof [TreeKey K] (m : Merkle K V) (key : K) :
    Except MerkleError (MerkleProof K V) × Merkle K V :=
  let index := StoreKey.index key
  let bits := TreeKey.bits K
  if bits < 256 ∧ shl256 1 bits ≤ index then (.error .indexOutOfBounds, m)
  else
    let r := proofLoop kc abi bits m.leaves bits 0 index m.cache
    (.ok ⟨key, m.leaves.get? index, r.1⟩, { m with cache := r.2 })

/-! ## Verification -/

/-- The loop of `verify_proof_with_hash`, `crates/vapp/src/merkle.rs:307-317`. -/
def proofRoot : B256 → Nat → List B256 → B256
  | h, _, [] => h
  | h, index, s :: ss =>
    proofRoot (if index % 2 = 0 then hashPair kc h s else hashPair kc s h) (index >>> 1) ss

/-- `verify_proof_with_hash`, `crates/vapp/src/merkle.rs:297-324`. -/
def verifyProofWithHash (bits : Nat) (root : B256) (index : Nat) (leaf : B256) (proof : List B256) :
    Except MerkleError Unit :=
  if proof.length ≠ bits then .error .invalidMerkleProofLength
  else if proofRoot kc leaf index proof ≠ root then .error .invalidMerkleProof
  else .ok ()

/-- `verify_proof`, `crates/vapp/src/merkle.rs:280-294`. -/
def verifyProof [TreeKey K] (root : B256) (p : MerkleProof K V) : Except MerkleError Unit :=
  verifyProofWithHash kc (TreeKey.bits K) root (StoreKey.index p.key) (optHash kc abi p.value) p.proof

/-! ## Root update -/

/-- `updated_value_map`, `crates/vapp/src/merkle.rs:374-377`. -/
def updateMap [StoreKey K] (new : List (K × V)) : SMap V :=
  new.foldl (fun m e => m.insert (StoreKey.index e.1) e.2) SMap.empty

/-- `nodes.entry((level, index)).or_insert(hash)`, `crates/vapp/src/merkle.rs:426`. -/
def Cache.orInsert (c : Cache) (layer index : Nat) (h : B256) : Cache :=
  match c layer index with
  | some _ => c
  | none => c.insert layer index h

/-- The walk up the tree for one proof, `crates/vapp/src/merkle.rs:418-441`. -/
def walkUp : List B256 → (level index : Nat) → B256 → Cache → Cache
  | [], _, _, _, nodes => nodes
  | s :: ss, level, index, h, nodes =>
    let sib := (nodes level (index ^^^ 1)).getD s
    let nodes := nodes.orInsert level (index ^^^ 1) sib
    let h := if index % 2 = 0 then hashPair kc h sib else hashPair kc sib h
    walkUp ss (level + 1) (index >>> 1) h (nodes.insert (level + 1) (index >>> 1) h)

/-- The new hash of the leaf of a proof, `crates/vapp/src/merkle.rs:400-411`. -/
def replayLeaf [StoreKey K] (upd : SMap V) (p : MerkleProof K V) : B256 :=
  match upd.get? (StoreKey.index p.key) with
  | some v => kc (abi v)
  | none => optHash kc abi p.value

/-- One iteration of the loop over the proofs, `crates/vapp/src/merkle.rs:399-442`. -/
def replayProof [StoreKey K] (upd : SMap V) (nodes : Cache) (p : MerkleProof K V) : Cache :=
  let index := StoreKey.index p.key
  let h := replayLeaf kc abi upd p
  walkUp kc p.proof 0 index h (nodes.insert 0 index h)

/-- `for proof in proofs { verify_proof(old_root, proof)?; }`, `crates/vapp/src/merkle.rs:379-381`. -/
def verifyAll [TreeKey K] (root : B256) : List (MerkleProof K V) → Except MerkleError Unit
  | [] => .ok ()
  | p :: ps => match verifyProof kc abi root p with
    | .error e => .error e
    | .ok _ => verifyAll root ps

/-- `calculate_new_root`, `crates/vapp/src/merkle.rs:353-447`. -/
def calculateNewRoot [TreeKey K] [DecidableEq K] (old : B256) (proofs : List (MerkleProof K V))
    (new : List (K × V)) : Except MerkleError B256 :=
  if new.isEmpty ∧ proofs.isEmpty then .ok old
  else
    match verifyAll kc abi old proofs with
    | .error e => .error e
    | .ok _ =>
      if ¬ new.all (fun e => proofs.any (fun p => p.key = e.1)) then
        .error .missingMerkleProofForUpdatedKey
      else
        match proofs.foldl (replayProof kc abi (updateMap new)) (fun _ _ => none) (TreeKey.bits K) 0 with
        | some h => .ok h
        | none => .error .failedToComputeNewRoot

/-! ## The `Storage` operations -/

/-- `touched_keys.insert(key)` (a `BTreeSet`; the order of the set is not modelled). -/
def touch [DecidableEq K] (t : List K) (k : K) : List K := if k ∈ t then t else k :: t

/-- `MerkleStorage::new`, `crates/vapp/src/merkle.rs:491-501`. -/
def Merkle.new : Merkle K V := ⟨SMap.empty, fun _ _ => none, []⟩

/-- `impl Storage for MerkleStorage`, `crates/vapp/src/merkle.rs:489-550`. Every operation records the
key; all but `get` clear the node cache. `entry` is `entry(key).or_default()` as at every call site. -/
def merkleOps [StoreKey K] [DecidableEq K] [Inhabited V] : StoreOps K V (Merkle K V) where
  get k m := .ok (m.leaves.get? (StoreKey.index k), { m with touched := touch m.touched k })
  entry k m :=
    let i := StoreKey.index k
    match m.leaves.get? i with
    | some v => .ok (v, ⟨m.leaves, fun _ _ => none, touch m.touched k⟩)
    | none => .ok (default, ⟨m.leaves.insert i default, fun _ _ => none, touch m.touched k⟩)
  getMut k m := .ok (m.leaves.get? (StoreKey.index k), ⟨m.leaves, fun _ _ => none, touch m.touched k⟩)
  put k v m := { m with leaves := m.leaves.insert (StoreKey.index k) v }
  insert k v m := .ok ⟨m.leaves.insert (StoreKey.index k) v, fun _ _ => none, touch m.touched k⟩

end

end Verif
