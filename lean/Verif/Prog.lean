import Verif.SMap
import Verif.Types
/-
# Programs over the vApp state and their execution against a storage backend

`VAppState<A, R>::execute_inner` (`crates/vapp/src/state.rs:179-983`) is generic in the two
storages. It is modelled once as a tree of storage commands (`Prog`), and `run` executes such a tree
against any implementation of the `Storage` trait (`StoreOps`). Running an erroneous command stops
and keeps the state reached so far, because the Rust function mutates `&mut self` in place.
-/

namespace Verif

/-- The scalar fields of `VAppState`, `crates/vapp/src/state.rs:45-61`. -/
structure Scalars where
  domain : B256
  txId : U64
  onchainTxId : U64
  onchainBlock : U64
  onchainLogIndex : U64
  deriving DecidableEq

/-- Keys of a storage, `trait StorageKey`, `crates/vapp/src/storage.rs:38-44`. -/
class StoreKey (K : Type) where
  index : K → Nat

instance : StoreKey Address := ⟨Address.index⟩
instance instStoreKeyB256 : StoreKey B256 := ⟨B256.index⟩

/-- `StorageError`, `crates/vapp/src/storage.rs:29-35`. -/
inductive StorageError where
  | keyNotAllowed
  deriving DecidableEq

/-- `trait Storage<K, V>`, `crates/vapp/src/storage.rs:12-27`. References are modelled by value plus
write-back: `entry k` is `entry(k)?.or_default()` and returns the current value (after the default
has been materialised in the map); `put k v` is the write through the `&mut V` obtained from `entry`
or `get_mut`. -/
structure StoreOps (K V σ : Type) where
  get : K → σ → Except StorageError (Option V × σ)
  entry : K → σ → Except StorageError (V × σ)
  getMut : K → σ → Except StorageError (Option V × σ)
  put : K → V → σ → σ
  insert : K → V → σ → Except StorageError σ

/-- `VAppState<A, R>`, `crates/vapp/src/state.rs:41-70`. -/
structure St (A T : Type) where
  sc : Scalars
  accounts : A
  transactions : T

/-- Programs over the vApp state: one constructor per kind of access made by `execute_inner`.
* `getSc`/`setSc`: read/write `self.domain`, `self.onchain_*`;
* `accGet a`: `self.accounts.get(&a)?`;
* `accEntry a f`: `f` applied to `self.accounts.entry(a)?.or_default()`, where `f` may fail;
* `accGetMut a f`: `if let Some(x) = self.accounts.get_mut(&a)? { f(x) }`, telling whether it existed;
* `txEntry id`: `*self.transactions.entry(id)?.or_default()`;
* `txInsert id v`: `self.transactions.insert(id, v)?`. -/
inductive Prog (α : Type) where
  | pure (a : α)
  | panic (e : Panic)
  | getSc (k : Scalars → Prog α)
  | setSc (s : Scalars) (k : Prog α)
  | accGet (a : Address) (k : Option Account → Prog α)
  | accEntry (a : Address) (f : Account → Except Panic Account) (k : Prog α)
  | accGetMut (a : Address) (f : Account → Account) (k : Bool → Prog α)
  | txEntry (id : B256) (k : Bool → Prog α)
  | txInsert (id : B256) (v : Bool) (k : Prog α)

namespace Prog

/-- Sequencing (`?` propagates panics). -/
def bind {α β : Type} : Prog α → (α → Prog β) → Prog β
  | .pure a, g => g a
  | .panic e, _ => .panic e
  | .getSc k, g => .getSc (fun s => (k s).bind g)
  | .setSc s k, g => .setSc s (k.bind g)
  | .accGet a k, g => .accGet a (fun v => (k v).bind g)
  | .accEntry a f k, g => .accEntry a f (k.bind g)
  | .accGetMut a f k, g => .accGetMut a f (fun b => (k b).bind g)
  | .txEntry id k, g => .txEntry id (fun b => (k b).bind g)
  | .txInsert id v k, g => .txInsert id v (k.bind g)

instance : Monad Prog where
  pure := .pure
  bind := Prog.bind

/-- `return Err(e)` unless `c`. -/
def require (c : Prop) [Decidable c] (e : Panic) : Prog Unit := if c then .pure () else .panic e

/-- `ok_or(e)?`. -/
def liftO {α : Type} (o : Option α) (e : Panic) : Prog α :=
  match o with | some a => .pure a | none => .panic e

/-- `?` on a `Result<_, VAppPanic>`. -/
def liftE {α : Type} (o : Except Panic α) : Prog α :=
  match o with | .ok a => .pure a | .error e => .panic e

/-- Single commands. -/
def scalars : Prog Scalars := .getSc .pure
def setScalars (s : Scalars) : Prog Unit := .setSc s (.pure ())
def getAcc (a : Address) : Prog (Option Account) := .accGet a .pure
def updAcc (a : Address) (f : Account → Except Panic Account) : Prog Unit := .accEntry a f (.pure ())
def modAcc (a : Address) (f : Account → Account) : Prog Bool := .accGetMut a f .pure
def processed (id : B256) : Prog Bool := .txEntry id .pure
def markTx (id : B256) (v : Bool) : Prog Unit := .txInsert id v (.pure ())

/-- Execution of a program on a state with the given storage implementations. -/
def run {A T α : Type} (SA : StoreOps Address Account A) (ST : StoreOps B256 Bool T) :
    Prog α → St A T → Except Panic α × St A T
  | .pure a, s => (.ok a, s)
  | .panic e, s => (.error e, s)
  | .getSc k, s => run SA ST (k s.sc) s
  | .setSc c k, s => run SA ST k { s with sc := c }
  | .accGet a k, s =>
    match SA.get a s.accounts with
    | .error _ => (.error .storageKeyNotAllowed, s)
    | .ok (v, σ) => run SA ST (k v) { s with accounts := σ }
  | .accEntry a f k, s =>
    match SA.entry a s.accounts with
    | .error _ => (.error .storageKeyNotAllowed, s)
    | .ok (v, σ) =>
      match f v with
      | .error e => (.error e, { s with accounts := σ })
      | .ok v' => run SA ST k { s with accounts := SA.put a v' σ }
  | .accGetMut a f k, s =>
    match SA.getMut a s.accounts with
    | .error _ => (.error .storageKeyNotAllowed, s)
    | .ok (some v, σ) => run SA ST (k true) { s with accounts := SA.put a (f v) σ }
    | .ok (none, σ) => run SA ST (k false) { s with accounts := σ }
  | .txEntry id k, s =>
    match ST.entry id s.transactions with
    | .error _ => (.error .storageKeyNotAllowed, s)
    | .ok (b, σ) => run SA ST (k b) { s with transactions := σ }
  | .txInsert id v k, s =>
    match ST.insert id v s.transactions with
    | .error _ => (.error .storageKeyNotAllowed, s)
    | .ok σ => run SA ST k { s with transactions := σ }

end Prog

/-! ## The plain map backend (specification storage) -/

/-- A plain `BTreeMap` keyed by the storage index: the contents part of `MerkleStorage`
(`crates/vapp/src/merkle.rs:489-550`) without key tracking and node cache. -/
def mapOps (K V : Type) [StoreKey K] [Inhabited V] : StoreOps K V (SMap V) where
  get k m := .ok (m.get? (StoreKey.index k), m)
  entry k m :=
    match m.get? (StoreKey.index k) with
    | some v => .ok (v, m)
    | none => .ok (default, m.insert (StoreKey.index k) default)
  getMut k m := .ok (m.get? (StoreKey.index k), m)
  put k v m := m.insert (StoreKey.index k) v
  insert k v m := .ok (m.insert (StoreKey.index k) v)

/-- The vApp state over plain maps. -/
abbrev Ledger := St (SMap Account) (SMap Bool)

/-- Execution on plain maps. -/
def Prog.runL {α : Type} (p : Prog α) (s : Ledger) : Except Panic α × Ledger :=
  p.run (mapOps Address Account) (mapOps B256 Bool) s

end Verif
