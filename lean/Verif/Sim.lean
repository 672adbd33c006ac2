import Verif.Stf
import Verif.Observe
/-
# Simulation between storage backends

A program run on Merkle storage, on a plain map and on sparse storage: same outcome and same contents,
as long as every key the program accesses was witnessed.
-/

set_option linter.unusedSimpArgs false

namespace Verif

/-- An access to one of the two storages. -/
inductive Access where
  | acct (a : Address)
  | tx (id : B256)
  deriving DecidableEq

/-- The accesses made by a program on a plain-map state, in order. -/
def Prog.trace {α : Type} : Prog α → Ledger → List Access
  | .pure _, _ => []
  | .panic _, _ => []
  | .getSc k, s => (k s.sc).trace s
  | .setSc c k, s => k.trace { s with sc := c }
  | .accGet a k, s => .acct a :: (k (s.accounts.get? (StoreKey.index a))).trace s
  | .accEntry a f k, s => .acct a ::
      match f ((s.accounts.get? (StoreKey.index a)).getD default) with
      | .error _ => []
      | .ok v => k.trace { s with accounts := s.accounts.insert (StoreKey.index a) v }
  | .accGetMut a f k, s => .acct a ::
      match s.accounts.get? (StoreKey.index a) with
      | some v => (k true).trace { s with accounts := s.accounts.insert (StoreKey.index a) (f v) }
      | none => (k false).trace s
  | .txEntry id k, s => .tx id ::
      match s.transactions.get? (StoreKey.index id) with
      | some b => (k b).trace s
      | none => (k default).trace { s with transactions := s.transactions.insert (StoreKey.index id) default }
  | .txInsert id v k, s => .tx id ::
      k.trace { s with transactions := s.transactions.insert (StoreKey.index id) v }

/-- The contents of a state over Merkle storages. -/
def FullState.plain (s : FullState) : Ledger := ⟨s.sc, s.accounts.leaves, s.transactions.leaves⟩

theorem mem_touch {K : Type} [DecidableEq K] (t : List K) (k x : K) : x ∈ touch t k ↔ x ∈ t ∨ x = k := by
  unfold touch
  split
  · constructor
    · exact Or.inl
    · rintro (h | h)
      · exact h
      · rw [h]; assumption
  · rw [List.mem_cons, or_comm]

/-- What Merkle storage does compared with a plain map. -/
structure MerkleSim {α : Type} (p : Prog α) (s : FullState) : Prop where
  outcome : (p.run merkleOps merkleOps s).1 = (p.runL s.plain).1
  contents : FullState.plain (p.run merkleOps merkleOps s).2 = (p.runL s.plain).2
  accts : ∀ a, a ∈ (p.run merkleOps merkleOps s).2.accounts.touched ↔
    a ∈ s.accounts.touched ∨ Access.acct a ∈ p.trace s.plain
  txs : ∀ i, i ∈ (p.run merkleOps merkleOps s).2.transactions.touched ↔
    i ∈ s.transactions.touched ∨ Access.tx i ∈ p.trace s.plain

theorem merkleSim {α : Type} (p : Prog α) (s : FullState) : MerkleSim p s := by
  induction p generalizing s with
  | pure a => exact ⟨rfl, rfl, by simp [Prog.trace, Prog.run], by simp [Prog.trace, Prog.run]⟩
  | panic e => exact ⟨rfl, rfl, by simp [Prog.trace, Prog.run], by simp [Prog.trace, Prog.run]⟩
  | getSc k ih =>
    have h := ih s.sc s
    exact ⟨h.outcome, h.contents, h.accts, h.txs⟩
  | setSc c k ih =>
    have h := ih { s with sc := c }
    exact ⟨h.outcome, h.contents, h.accts, h.txs⟩
  | accGet a k ih =>
    have h := ih (s.accounts.leaves.get? (StoreKey.index a))
      { s with accounts := { s.accounts with touched := touch s.accounts.touched a } }
    refine ⟨h.outcome, h.contents, ?_, ?_⟩
    · intro x
      refine (h.accts x).trans ?_
      simp only [mem_touch, Prog.trace, List.mem_cons, Access.acct.injEq, or_assoc]
      rfl
    · intro x
      refine (h.txs x).trans ?_
      simp only [Prog.trace, List.mem_cons, reduceCtorEq, false_or]
      rfl
  | accEntry a f k ih =>
    cases hg : s.accounts.leaves.get? (StoreKey.index a) with
    | some v =>
      have hg' : s.plain.accounts.get? (StoreKey.index a) = some v := hg
      cases hf : f v with
      | error e =>
        refine ⟨?_, ?_, ?_, ?_⟩
        · simp only [Prog.run, Prog.runL, merkleOps, mapOps, hg, hg', hf]
        · simp only [Prog.run, Prog.runL, merkleOps, mapOps, hg, hg', hf]; rfl
        · intro x
          simp [Prog.run, merkleOps, hg, hf, mem_touch, Prog.trace, hg']
        · intro x
          simp [Prog.run, merkleOps, hg, hf, Prog.trace, hg']
      | ok v' =>
        have h := ih ⟨s.sc, ⟨s.accounts.leaves.insert (StoreKey.index a) v', fun _ _ => none,
          touch s.accounts.touched a⟩, s.transactions⟩
        have e1 : (Prog.accEntry a f k).run merkleOps merkleOps s = k.run merkleOps merkleOps
            ⟨s.sc, ⟨s.accounts.leaves.insert (StoreKey.index a) v', fun _ _ => none,
              touch s.accounts.touched a⟩, s.transactions⟩ := by
          simp only [Prog.run, merkleOps, hg, hf]
        have e2 : (Prog.accEntry a f k).runL s.plain = k.runL
            ⟨s.sc, s.accounts.leaves.insert (StoreKey.index a) v', s.transactions.leaves⟩ := by
          simp only [Prog.run, Prog.runL, mapOps, hg', hf]; rfl
        have e3 : (Prog.accEntry a f k).trace s.plain = .acct a :: k.trace
            ⟨s.sc, s.accounts.leaves.insert (StoreKey.index a) v', s.transactions.leaves⟩ := by
          simp only [Prog.trace, hg', Option.getD_some, hf]; rfl
        refine ⟨?_, ?_, ?_, ?_⟩
        · rw [e1, e2]; exact h.outcome
        · rw [e1, e2]; exact h.contents
        · intro x; rw [e1, e3]
          refine (h.accts x).trans ?_
          simp only [mem_touch, List.mem_cons, Access.acct.injEq, or_assoc]; rfl
        · intro x; rw [e1, e3]
          refine (h.txs x).trans ?_
          simp only [List.mem_cons, reduceCtorEq, false_or]; rfl
    | none =>
      have hg' : s.plain.accounts.get? (StoreKey.index a) = none := hg
      cases hf : f default with
      | error e =>
        refine ⟨?_, ?_, ?_, ?_⟩
        · simp only [Prog.run, Prog.runL, merkleOps, mapOps, hg, hg', hf]
        · simp only [Prog.run, Prog.runL, merkleOps, mapOps, hg, hg', hf]; rfl
        · intro x
          simp [Prog.run, merkleOps, hg, hf, mem_touch, Prog.trace, hg']
        · intro x
          simp [Prog.run, merkleOps, hg, hf, Prog.trace, hg']
      | ok v' =>
        have h := ih ⟨s.sc, ⟨s.accounts.leaves.insert (StoreKey.index a) v', fun _ _ => none,
          touch s.accounts.touched a⟩, s.transactions⟩
        have e1 : (Prog.accEntry a f k).run merkleOps merkleOps s = k.run merkleOps merkleOps
            ⟨s.sc, ⟨s.accounts.leaves.insert (StoreKey.index a) v', fun _ _ => none,
              touch s.accounts.touched a⟩, s.transactions⟩ := by
          simp only [Prog.run, merkleOps, hg, hf, SMap.insert_insert]
        have e2 : (Prog.accEntry a f k).runL s.plain = k.runL
            ⟨s.sc, s.accounts.leaves.insert (StoreKey.index a) v', s.transactions.leaves⟩ := by
          simp only [Prog.run, Prog.runL, mapOps, hg', hf, SMap.insert_insert]; rfl
        have e3 : (Prog.accEntry a f k).trace s.plain = .acct a :: k.trace
            ⟨s.sc, s.accounts.leaves.insert (StoreKey.index a) v', s.transactions.leaves⟩ := by
          simp only [Prog.trace, hg', Option.getD_none, hf]; rfl
        refine ⟨?_, ?_, ?_, ?_⟩
        · rw [e1, e2]; exact h.outcome
        · rw [e1, e2]; exact h.contents
        · intro x; rw [e1, e3]
          refine (h.accts x).trans ?_
          simp only [mem_touch, List.mem_cons, Access.acct.injEq, or_assoc]; rfl
        · intro x; rw [e1, e3]
          refine (h.txs x).trans ?_
          simp only [List.mem_cons, reduceCtorEq, false_or]; rfl
  | accGetMut a f k ih =>
    cases hg : s.accounts.leaves.get? (StoreKey.index a) with
    | some v =>
      have hg' : s.plain.accounts.get? (StoreKey.index a) = some v := hg
      have h := ih true ⟨s.sc, ⟨s.accounts.leaves.insert (StoreKey.index a) (f v), fun _ _ => none,
        touch s.accounts.touched a⟩, s.transactions⟩
      have e1 : (Prog.accGetMut a f k).run merkleOps merkleOps s = (k true).run merkleOps merkleOps
          ⟨s.sc, ⟨s.accounts.leaves.insert (StoreKey.index a) (f v), fun _ _ => none,
            touch s.accounts.touched a⟩, s.transactions⟩ := by
        simp only [Prog.run, merkleOps, hg]
      have e2 : (Prog.accGetMut a f k).runL s.plain = (k true).runL
          ⟨s.sc, s.accounts.leaves.insert (StoreKey.index a) (f v), s.transactions.leaves⟩ := by
        simp only [Prog.run, Prog.runL, mapOps, hg']; rfl
      have e3 : (Prog.accGetMut a f k).trace s.plain = .acct a :: (k true).trace
          ⟨s.sc, s.accounts.leaves.insert (StoreKey.index a) (f v), s.transactions.leaves⟩ := by
        simp only [Prog.trace, hg']; rfl
      refine ⟨?_, ?_, ?_, ?_⟩
      · rw [e1, e2]; exact h.outcome
      · rw [e1, e2]; exact h.contents
      · intro x; rw [e1, e3]
        refine (h.accts x).trans ?_
        simp only [mem_touch, List.mem_cons, Access.acct.injEq, or_assoc]; rfl
      · intro x; rw [e1, e3]
        refine (h.txs x).trans ?_
        simp only [List.mem_cons, reduceCtorEq, false_or]; rfl
    | none =>
      have hg' : s.plain.accounts.get? (StoreKey.index a) = none := hg
      have h := ih false ⟨s.sc, ⟨s.accounts.leaves, fun _ _ => none,
        touch s.accounts.touched a⟩, s.transactions⟩
      have e1 : (Prog.accGetMut a f k).run merkleOps merkleOps s = (k false).run merkleOps merkleOps
          ⟨s.sc, ⟨s.accounts.leaves, fun _ _ => none,
            touch s.accounts.touched a⟩, s.transactions⟩ := by
        simp only [Prog.run, merkleOps, hg]
      have e2 : (Prog.accGetMut a f k).runL s.plain = (k false).runL s.plain := by
        simp only [Prog.run, Prog.runL, mapOps, hg']
      have e3 : (Prog.accGetMut a f k).trace s.plain = .acct a :: (k false).trace s.plain := by
        simp only [Prog.trace, hg']
      refine ⟨?_, ?_, ?_, ?_⟩
      · rw [e1, e2]; exact h.outcome
      · rw [e1, e2]; exact h.contents
      · intro x; rw [e1, e3]
        refine (h.accts x).trans ?_
        simp only [mem_touch, List.mem_cons, Access.acct.injEq, or_assoc]; rfl
      · intro x; rw [e1, e3]
        refine (h.txs x).trans ?_
        simp only [List.mem_cons, reduceCtorEq, false_or]; rfl
  | txEntry i k ih =>
    cases hg : s.transactions.leaves.get? (StoreKey.index i) with
    | some v =>
      have hg' : s.plain.transactions.get? (StoreKey.index i) = some v := hg
      have h := ih v ⟨s.sc, s.accounts, ⟨s.transactions.leaves, fun _ _ => none,
        touch s.transactions.touched i⟩⟩
      have e1 : (Prog.txEntry i k).run merkleOps merkleOps s = (k v).run merkleOps merkleOps
          ⟨s.sc, s.accounts, ⟨s.transactions.leaves, fun _ _ => none,
            touch s.transactions.touched i⟩⟩ := by
        simp only [Prog.run, merkleOps, hg]
      have e2 : (Prog.txEntry i k).runL s.plain = (k v).runL s.plain := by
        simp only [Prog.run, Prog.runL, mapOps, hg']
      have e3 : (Prog.txEntry i k).trace s.plain = .tx i :: (k v).trace s.plain := by
        simp only [Prog.trace, hg']
      refine ⟨?_, ?_, ?_, ?_⟩
      · rw [e1, e2]; exact h.outcome
      · rw [e1, e2]; exact h.contents
      · intro x; rw [e1, e3]
        refine (h.accts x).trans ?_
        simp only [List.mem_cons, reduceCtorEq, false_or]; rfl
      · intro x; rw [e1, e3]
        refine (h.txs x).trans ?_
        simp only [mem_touch, List.mem_cons, Access.tx.injEq, or_assoc]; rfl
    | none =>
      have hg' : s.plain.transactions.get? (StoreKey.index i) = none := hg
      have h := ih default ⟨s.sc, s.accounts, ⟨s.transactions.leaves.insert (StoreKey.index i) default,
        fun _ _ => none, touch s.transactions.touched i⟩⟩
      have e1 : (Prog.txEntry i k).run merkleOps merkleOps s = (k default).run merkleOps merkleOps
          ⟨s.sc, s.accounts, ⟨s.transactions.leaves.insert (StoreKey.index i) default,
            fun _ _ => none, touch s.transactions.touched i⟩⟩ := by
        simp only [Prog.run, merkleOps, hg]
      have e2 : (Prog.txEntry i k).runL s.plain = (k default).runL
          ⟨s.sc, s.accounts.leaves, s.transactions.leaves.insert (StoreKey.index i) default⟩ := by
        simp only [Prog.run, Prog.runL, mapOps, hg']; rfl
      have e3 : (Prog.txEntry i k).trace s.plain = .tx i :: (k default).trace
          ⟨s.sc, s.accounts.leaves, s.transactions.leaves.insert (StoreKey.index i) default⟩ := by
        simp only [Prog.trace, hg']; rfl
      refine ⟨?_, ?_, ?_, ?_⟩
      · rw [e1, e2]; exact h.outcome
      · rw [e1, e2]; exact h.contents
      · intro x; rw [e1, e3]
        refine (h.accts x).trans ?_
        simp only [List.mem_cons, reduceCtorEq, false_or]; rfl
      · intro x; rw [e1, e3]
        refine (h.txs x).trans ?_
        simp only [mem_touch, List.mem_cons, Access.tx.injEq, or_assoc]; rfl
  | txInsert i v k ih =>
    have h := ih ⟨s.sc, s.accounts, ⟨s.transactions.leaves.insert (StoreKey.index i) v,
      fun _ _ => none, touch s.transactions.touched i⟩⟩
    refine ⟨h.outcome, h.contents, ?_, ?_⟩
    · intro x
      refine (h.accts x).trans ?_
      simp only [Prog.trace, List.mem_cons, reduceCtorEq, false_or]; rfl
    · intro x
      refine (h.txs x).trans ?_
      simp only [Prog.trace, mem_touch, List.mem_cons, Access.tx.injEq, or_assoc]; rfl

/-! ## Sparse storage -/

/-- A sparse storage `sp` agrees with a map `m` on the witnessed indices; outside them it is empty and
the map is still what it was at the start (`m0`), and nothing has been deleted from the map. -/
structure Agree {V : Type} (w : List Nat) (m0 : SMap V) (sp : Sparse V) (m : SMap V) : Prop where
  wit : sp.witnessed = w
  on : ∀ i ∈ w, sp.inner.get? i = m.get? i
  off : ∀ i, i ∉ w → sp.inner.get? i = none
  frame : ∀ i, i ∉ w → m.get? i = m0.get? i
  mono : ∀ i, (m0.get? i).isSome = true → (m.get? i).isSome = true

theorem Agree.insert {V : Type} {w : List Nat} {m0 : SMap V} {sp : Sparse V} {m : SMap V}
    (h : Agree w m0 sp m) (i : Nat) (hi : i ∈ w) (v : V) :
    Agree w m0 { sp with inner := sp.inner.insert i v } (m.insert i v) := by
  refine ⟨h.wit, ?_, ?_, ?_, ?_⟩
  · intro j hj
    simp only [SMap.get?_insert]
    split
    · rfl
    · exact h.on j hj
  · intro j hj
    simp only [SMap.get?_insert]
    rw [if_neg (by rintro rfl; exact hj hi)]
    exact h.off j hj
  · intro j hj
    rw [SMap.get?_insert_ne _ _ (by rintro rfl; exact hj hi)]
    exact h.frame j hj
  · intro j hj
    simp only [SMap.get?_insert]
    split
    · rfl
    · exact h.mono j hj

/-- Agreement of whole states. -/
structure AgreeSt (wa wt : List Nat) (s0 : Ledger) (sp : SparseState) (s : Ledger) : Prop where
  sc : sp.sc = s.sc
  acc : Agree wa s0.accounts sp.accounts s.accounts
  txs : Agree wt s0.transactions sp.transactions s.transactions

/-- Whether an access is to a witnessed index. -/
def Witnessed (wa wt : List Nat) : Access → Prop
  | .acct a => StoreKey.index a ∈ wa
  | .tx i => StoreKey.index i ∈ wt

/-- What sparse storage does compared with a plain map: the same if all accesses are witnessed, and
otherwise the storage error. -/
def SparseSim {α : Type} (wa wt : List Nat) (s0 : Ledger) (p : Prog α) (sp : SparseState) (s : Ledger) :
    Prop :=
  ((∀ x ∈ p.trace s, Witnessed wa wt x) ∧ (p.run sparseOps sparseOps sp).1 = (p.runL s).1 ∧
    AgreeSt wa wt s0 (p.run sparseOps sparseOps sp).2 (p.runL s).2) ∨
  ((∃ x ∈ p.trace s, ¬ Witnessed wa wt x) ∧
    (p.run sparseOps sparseOps sp).1 = .error .storageKeyNotAllowed)

theorem SparseSim.step {α : Type} {wa wt : List Nat} {s0 : Ledger} {p q : Prog α} {sp sp' : SparseState}
    {s s' : Ledger} (x : Access) (hx : Witnessed wa wt x)
    (h : SparseSim wa wt s0 q sp' s') (e1 : p.run sparseOps sparseOps sp = q.run sparseOps sparseOps sp')
    (e2 : p.runL s = q.runL s') (e3 : p.trace s = x :: q.trace s') :
    SparseSim wa wt s0 p sp s := by
  unfold SparseSim at *
  rw [e1, e2, e3]
  rcases h with ⟨h1, h2, h3⟩ | ⟨⟨y, hy, hy'⟩, h2⟩
  · left
    refine ⟨?_, h2, h3⟩
    intro y hy
    rw [List.mem_cons] at hy
    rcases hy with rfl | hy
    · exact hx
    · exact h1 y hy
  · right
    exact ⟨⟨y, by simp [hy], hy'⟩, h2⟩

theorem SparseSim.bad {α : Type} {wa wt : List Nat} {s0 : Ledger} {p : Prog α} {sp : SparseState}
    {s : Ledger} (x : Access) (hx : ¬ Witnessed wa wt x) (hm : x ∈ p.trace s)
    (h : (p.run sparseOps sparseOps sp).1 = .error .storageKeyNotAllowed) :
    SparseSim wa wt s0 p sp s := Or.inr ⟨⟨x, hm, hx⟩, h⟩

theorem sparseSim {α : Type} (wa wt : List Nat) (s0 : Ledger) (p : Prog α) (sp : SparseState) (s : Ledger)
    (h : AgreeSt wa wt s0 sp s) : SparseSim wa wt s0 p sp s := by
  induction p generalizing sp s with
  | pure a => exact Or.inl ⟨by simp [Prog.trace], rfl, h⟩
  | panic e => exact Or.inl ⟨by simp [Prog.trace], rfl, h⟩
  | getSc k ih =>
    have := ih sp.sc sp s h
    have e2 : (Prog.getSc k).runL s = (k sp.sc).runL s := by rw [h.sc]; rfl
    have e3 : (Prog.getSc k).trace s = (k sp.sc).trace s := by rw [h.sc]; rfl
    unfold SparseSim at *
    rw [e2, e3]
    exact this
  | setSc c k ih =>
    exact ih { sp with sc := c } { s with sc := c } ⟨rfl, h.acc, h.txs⟩
  | accGet a k ih =>
    by_cases hw : StoreKey.index a ∈ wa
    · have hw' : StoreKey.index a ∈ sp.accounts.witnessed := by rw [h.acc.wit]; exact hw
      refine SparseSim.step (.acct a) hw (ih (s.accounts.get? (StoreKey.index a)) sp s h) ?_ rfl rfl
      simp only [Prog.run, sparseOps, if_pos hw', h.acc.on _ hw]
    · have hw' : StoreKey.index a ∉ sp.accounts.witnessed := by rw [h.acc.wit]; exact hw
      refine SparseSim.bad (.acct a) hw (by simp [Prog.trace]) ?_
      simp only [Prog.run, sparseOps, if_neg hw']
  | accEntry a f k ih =>
    by_cases hw : StoreKey.index a ∈ wa
    · have hw' : StoreKey.index a ∈ sp.accounts.witnessed := by rw [h.acc.wit]; exact hw
      have hon := h.acc.on _ hw
      cases hg : s.accounts.get? (StoreKey.index a) with
      | some v =>
        rw [hg] at hon
        cases hf : f v with
        | error e =>
          left
          refine ⟨?_, ?_, ?_⟩
          · simp only [Prog.trace, hg, Option.getD_some, hf, List.mem_singleton]
            rintro x rfl
            exact hw
          · simp only [Prog.run, Prog.runL, sparseOps, mapOps, if_pos hw', hg, hon, hf]
          · simp only [Prog.run, Prog.runL, sparseOps, mapOps, if_pos hw', hg, hon, hf]
            exact h
        | ok v' =>
          refine SparseSim.step (.acct a) hw (ih
            { sp with accounts := { sp.accounts with inner := sp.accounts.inner.insert (StoreKey.index a) v' } }
            { s with accounts := s.accounts.insert (StoreKey.index a) v' }
            ⟨h.sc, h.acc.insert _ hw v', h.txs⟩) ?_ ?_ ?_
          · simp only [Prog.run, sparseOps, if_pos hw', hon, hf]
          · simp only [Prog.run, Prog.runL, mapOps, hg, hf]
          · simp only [Prog.trace, hg, Option.getD_some, hf]
      | none =>
        rw [hg] at hon
        cases hf : f default with
        | error e =>
          left
          refine ⟨?_, ?_, ?_⟩
          · simp only [Prog.trace, hg, Option.getD_none, hf, List.mem_singleton]
            rintro x rfl
            exact hw
          · simp only [Prog.run, Prog.runL, sparseOps, mapOps, if_pos hw', hg, hon, hf]
          · simp only [Prog.run, Prog.runL, sparseOps, mapOps, if_pos hw', hg, hon, hf]
            exact ⟨h.sc, h.acc.insert _ hw default, h.txs⟩
        | ok v' =>
          refine SparseSim.step (.acct a) hw (ih
            { sp with accounts := { sp.accounts with inner := sp.accounts.inner.insert (StoreKey.index a) v' } }
            { s with accounts := s.accounts.insert (StoreKey.index a) v' }
            ⟨h.sc, h.acc.insert _ hw v', h.txs⟩) ?_ ?_ ?_
          · simp only [Prog.run, sparseOps, if_pos hw', hon, hf, SMap.insert_insert]
          · simp only [Prog.run, Prog.runL, mapOps, hg, hf, SMap.insert_insert]
          · simp only [Prog.trace, hg, Option.getD_none, hf]
    · have hw' : StoreKey.index a ∉ sp.accounts.witnessed := by rw [h.acc.wit]; exact hw
      refine SparseSim.bad (.acct a) hw (by simp [Prog.trace]) ?_
      simp only [Prog.run, sparseOps, if_neg hw']
  | accGetMut a f k ih =>
    by_cases hw : StoreKey.index a ∈ wa
    · have hw' : StoreKey.index a ∈ sp.accounts.witnessed := by rw [h.acc.wit]; exact hw
      have hon := h.acc.on _ hw
      cases hg : s.accounts.get? (StoreKey.index a) with
      | some v =>
        rw [hg] at hon
        refine SparseSim.step (.acct a) hw (ih true
          { sp with accounts := { sp.accounts with inner := sp.accounts.inner.insert (StoreKey.index a) (f v) } }
          { s with accounts := s.accounts.insert (StoreKey.index a) (f v) }
          ⟨h.sc, h.acc.insert _ hw (f v), h.txs⟩) ?_ ?_ ?_
        · simp only [Prog.run, sparseOps, if_pos hw', hon]
        · simp only [Prog.run, Prog.runL, mapOps, hg]
        · simp only [Prog.trace, hg]
      | none =>
        rw [hg] at hon
        refine SparseSim.step (.acct a) hw (ih false sp s h) ?_ ?_ ?_
        · simp only [Prog.run, sparseOps, if_pos hw', hon]
        · simp only [Prog.run, Prog.runL, mapOps, hg]
        · simp only [Prog.trace, hg]
    · have hw' : StoreKey.index a ∉ sp.accounts.witnessed := by rw [h.acc.wit]; exact hw
      refine SparseSim.bad (.acct a) hw (by simp [Prog.trace]) ?_
      simp only [Prog.run, sparseOps, if_neg hw']
  | txEntry i k ih =>
    by_cases hw : StoreKey.index i ∈ wt
    · have hw' : StoreKey.index i ∈ sp.transactions.witnessed := by rw [h.txs.wit]; exact hw
      have hon := h.txs.on _ hw
      cases hg : s.transactions.get? (StoreKey.index i) with
      | some v =>
        rw [hg] at hon
        refine SparseSim.step (.tx i) hw (ih v sp s h) ?_ ?_ ?_
        · simp only [Prog.run, sparseOps, if_pos hw', hon]
        · simp only [Prog.run, Prog.runL, mapOps, hg]
        · simp only [Prog.trace, hg]
      | none =>
        rw [hg] at hon
        refine SparseSim.step (.tx i) hw (ih default
          { sp with transactions :=
            { sp.transactions with inner := sp.transactions.inner.insert (StoreKey.index i) default } }
          { s with transactions := s.transactions.insert (StoreKey.index i) default }
          ⟨h.sc, h.acc, h.txs.insert _ hw default⟩) ?_ ?_ ?_
        · simp only [Prog.run, sparseOps, if_pos hw', hon]
        · simp only [Prog.run, Prog.runL, mapOps, hg]
        · simp only [Prog.trace, hg]
    · have hw' : StoreKey.index i ∉ sp.transactions.witnessed := by rw [h.txs.wit]; exact hw
      refine SparseSim.bad (.tx i) hw (by simp [Prog.trace]) ?_
      simp only [Prog.run, sparseOps, if_neg hw']
  | txInsert i v k ih =>
    by_cases hw : StoreKey.index i ∈ wt
    · have hw' : StoreKey.index i ∈ sp.transactions.witnessed := by rw [h.txs.wit]; exact hw
      refine SparseSim.step (.tx i) hw (ih
        { sp with transactions :=
          { sp.transactions with inner := sp.transactions.inner.insert (StoreKey.index i) v } }
        { s with transactions := s.transactions.insert (StoreKey.index i) v }
        ⟨h.sc, h.acc, h.txs.insert _ hw v⟩) ?_ rfl rfl
      simp only [Prog.run, sparseOps, if_pos hw']
    · have hw' : StoreKey.index i ∉ sp.transactions.witnessed := by rw [h.txs.wit]; exact hw
      refine SparseSim.bad (.tx i) hw (by simp [Prog.trace]) ?_
      simp only [Prog.run, sparseOps, if_neg hw']

end Verif
