import Verif.Merkle
/-
# Sparse storage

Model of `crates/vapp/src/sparse.rs` and of `calculate_new_root_sparse`.
-/

namespace Verif

/-- `SparseStorage`, `crates/vapp/src/sparse.rs:25-30`. The set of witnessed indices is a list of which
only membership is used. -/
structure Sparse (V : Type) where
  inner : SMap V
  witnessed : List Nat

/-- The variants of `SparseStorageError` that `recover` can return,
`crates/vapp/src/sparse.rs:33-55`. -/
inductive SparseError where
  | verificationFailed
  | duplicateProof (index : Nat)
  deriving DecidableEq

/-- `SparseStorage::new`, `crates/vapp/src/sparse.rs:58-60`. -/
def Sparse.new {V : Type} : Sparse V := ⟨SMap.empty, []⟩

section
variable {K V : Type}

/-- `impl Storage for SparseStorage`, `crates/vapp/src/sparse.rs:57-97`: every access to an index that
was not witnessed fails. `entry` is `entry(key)?.or_default()` as at every call site. -/
def sparseOps [StoreKey K] [Inhabited V] : StoreOps K V (Sparse V) where
  get k s :=
    if StoreKey.index k ∈ s.witnessed then .ok (s.inner.get? (StoreKey.index k), s)
    else .error .keyNotAllowed
  entry k s :=
    if StoreKey.index k ∈ s.witnessed then
      match s.inner.get? (StoreKey.index k) with
      | some v => .ok (v, s)
      | none => .ok (default, { s with inner := s.inner.insert (StoreKey.index k) default })
    else .error .keyNotAllowed
  getMut k s :=
    if StoreKey.index k ∈ s.witnessed then .ok (s.inner.get? (StoreKey.index k), s)
    else .error .keyNotAllowed
  put k v s := { s with inner := s.inner.insert (StoreKey.index k) v }
  insert k v s :=
    if StoreKey.index k ∈ s.witnessed then
      .ok { s with inner := s.inner.insert (StoreKey.index k) v }
    else .error .keyNotAllowed

/-- `iter_raw`, `crates/vapp/src/sparse.rs:107-109`. -/
def Sparse.iterRaw (s : Sparse V) : List (Nat × V) :=
  s.inner.list.filter (fun e => decide (e.1 ∈ s.witnessed))

variable (kc : Bytes → B256) (abi : V → Bytes)

/-- The loop of `recover`, `crates/vapp/src/sparse.rs:134-152`. -/
def recoverLoop [TreeKey K] (root : B256) : List (MerkleProof K V) → Sparse V → Except SparseError (Sparse V)
  | [], s => .ok s
  | p :: ps, s =>
    let i := StoreKey.index p.key
    if i ∈ s.witnessed then .error (.duplicateProof i)
    else
      match verifyProof kc abi root p with
      | .error _ => .error .verificationFailed
      | .ok _ =>
        recoverLoop root ps
          ⟨match p.value with
            | some v => s.inner.insert i v
            | none => s.inner,
           i :: s.witnessed⟩

/-- `recover`, `crates/vapp/src/sparse.rs:126-155`: clears whatever is there first. -/
def Sparse.recover [TreeKey K] (_s : Sparse V) (root : B256) (ps : List (MerkleProof K V)) :
    Except SparseError (Sparse V) :=
  recoverLoop kc abi root ps ⟨SMap.empty, []⟩

/-- The loop of `calculate_new_root_sparse` collecting the new values,
`crates/vapp/src/merkle.rs:469-476`. -/
def collectUpdates [StoreKey K] (ps : List (MerkleProof K V)) :
    List (Nat × V) → Except MerkleError (List (K × V))
  | [] => .ok []
  | (i, v) :: us =>
    match ps.find? (fun p => decide (StoreKey.index p.key = i)) with
    | none => .error .missingMerkleProofForUpdatedKey
    | some p =>
      match collectUpdates ps us with
      | .error e => .error e
      | .ok new => .ok ((p.key, v) :: new)

/-- `calculate_new_root_sparse`, `crates/vapp/src/merkle.rs:455-480`. -/
def calculateNewRootSparse [TreeKey K] [DecidableEq K] (old : B256) (ps : List (MerkleProof K V))
    (updates : Sparse V) : Except MerkleError B256 :=
  if updates.inner.isEmpty ∧ ps.isEmpty then .ok old
  else
    match collectUpdates ps updates.iterRaw with
    | .error e => .error e
    | .ok new => calculateNewRoot kc abi old ps new

end
end Verif
