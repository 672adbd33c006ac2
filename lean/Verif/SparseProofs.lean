import Verif.Sim
import Verif.MerkleUpdate
/-
# Lemmas about sparse storage, recovery and the sparse root update
-/

namespace Verif

section
variable {K V : Type} (kc : Bytes → B256) (abi : V → Bytes)

theorem foldl_insert_list (m : SMap V) :
    m.list.foldl (fun acc e => acc.insert e.1 e.2) SMap.empty = m := by
  have key : ∀ (l : List (Nat × V)) (acc : SMap V), l.Pairwise (fun a b => a.1 < b.1) →
      ∀ i, (l.foldl (fun m e => m.insert e.1 e.2) acc).get? i = (SMap.lget l i).or (acc.get? i) := by
    intro l
    induction l with
    | nil => intro acc _ i; simp [SMap.lget]
    | cons e l ih =>
      intro acc hs i
      rw [List.pairwise_cons] at hs
      simp only [List.foldl_cons]
      rw [ih _ hs.2]
      simp only [SMap.lget, SMap.get?_insert]
      by_cases hi : e.1 = i
      · have hno : SMap.lget l i = none := by
          cases hl : SMap.lget l i with
          | none => rfl
          | some v =>
            have := hs.1 _ (SMap.lget_mem l i v hl)
            simp only at this; omega
        rw [hno]; simp [hi]
      · have hi' : ¬ (i = e.1) := fun h => hi h.symm
        simp [hi']
  apply SMap.ext
  intro i
  rw [key m.list SMap.empty m.sorted i, SMap.get?_empty, Option.or_none]
  rfl

/-! ## Recovery -/

/-- The value claimed for index `i` by a list of proofs. -/
def claimed [StoreKey K] (ps : List (MerkleProof K V)) (i : Nat) : Option V :=
  match ps.find? (fun p => decide (StoreKey.index p.key = i)) with
  | some p => p.value
  | none => none

theorem recoverLoop_ok_iff [TreeKey K] (root : B256) (ps : List (MerkleProof K V)) (s : Sparse V) :
    (∃ s', recoverLoop kc abi root ps s = .ok s') ↔
      (∀ p ∈ ps, verifyProof kc abi root p = .ok ()) ∧
      (ps.map (fun p => StoreKey.index p.key)).Nodup ∧
      (∀ p ∈ ps, StoreKey.index p.key ∉ s.witnessed) := by
  induction ps generalizing s with
  | nil => simp [recoverLoop]
  | cons p ps ih =>
    simp only [recoverLoop]
    by_cases hw : StoreKey.index p.key ∈ s.witnessed
    · rw [if_pos hw]
      constructor
      · rintro ⟨s', h⟩; simp at h
      · rintro ⟨_, _, h⟩; exact absurd hw (h p (by simp))
    · rw [if_neg hw]
      cases hv : verifyProof kc abi root p with
      | error e =>
        constructor
        · rintro ⟨s', h⟩; simp at h
        · rintro ⟨h, _⟩
          have := h p (by simp)
          rw [hv] at this; simp at this
      | ok u =>
        simp only
        rw [ih]
        simp only [List.mem_cons, List.map_cons, List.nodup_cons, not_or]
        constructor
        · rintro ⟨h1, h2, h3⟩
          refine ⟨?_, ⟨?_, h2⟩, ?_⟩
          · rintro q (rfl | hq)
            · exact hv
            · exact h1 q hq
          · intro hm
            obtain ⟨q, hq, hqe⟩ := List.mem_map.mp hm
            exact (h3 q hq).1 hqe
          · rintro q (rfl | hq)
            · exact hw
            · exact (h3 q hq).2
        · rintro ⟨h1, ⟨h2, h2'⟩, h3⟩
          refine ⟨fun q hq => h1 q (Or.inr hq), h2', fun q hq => ⟨?_, h3 q (Or.inr hq)⟩⟩
          intro he
          exact h2 (List.mem_map.mpr ⟨q, hq, he⟩)

theorem recoverLoop_contents [TreeKey K] (root : B256) (ps : List (MerkleProof K V)) (s s' : Sparse V)
    (h : recoverLoop kc abi root ps s = .ok s') :
    (∀ i, i ∈ s'.witnessed ↔ i ∈ s.witnessed ∨ i ∈ ps.map (fun p => StoreKey.index p.key)) ∧
    (∀ i, i ∈ ps.map (fun p => StoreKey.index p.key) → s.inner.get? i = none →
      s'.inner.get? i = claimed ps i) ∧
    (∀ i, i ∉ ps.map (fun p => StoreKey.index p.key) → s'.inner.get? i = s.inner.get? i) := by
  induction ps generalizing s with
  | nil =>
    simp only [recoverLoop, Except.ok.injEq] at h
    subst h
    simp
  | cons p ps ih =>
    have hnd := ((recoverLoop_ok_iff kc abi root (p :: ps) s).mp ⟨s', h⟩).2.1
    rw [List.map_cons, List.nodup_cons] at hnd
    simp only [recoverLoop] at h
    split at h
    · simp at h
    · rename_i hw
      cases hv : verifyProof kc abi root p with
      | error e => rw [hv] at h; simp at h
      | ok u =>
        rw [hv] at h
        obtain ⟨i1, i2, i3⟩ := ih _ h
        refine ⟨?_, ?_, ?_⟩
        · intro i
          rw [i1]
          simp only [List.mem_cons, List.map_cons]
          constructor
          · rintro ((h | h) | h)
            · exact Or.inr (Or.inl h)
            · exact Or.inl h
            · exact Or.inr (Or.inr h)
          · rintro (h | h | h)
            · exact Or.inl (Or.inr h)
            · exact Or.inl (Or.inl h)
            · exact Or.inr h
        · intro i hi hn
          simp only [List.map_cons, List.mem_cons] at hi
          by_cases hp : StoreKey.index p.key = i
          · rw [i3 i (by rw [← hp]; exact hnd.1)]
            simp only [claimed, List.find?_cons, hp, decide_true]
            cases p.value with
            | some v => simp
            | none => exact hn
          · have hi' : i ∈ ps.map (fun p => StoreKey.index p.key) := by
              rcases hi with h | h
              · exact absurd h.symm hp
              · exact h
            have hn' : (match p.value with
                | some v => s.inner.insert (StoreKey.index p.key) v
                | none => s.inner).get? i = none := by
              cases p.value with
              | some v => rw [SMap.get?_insert_ne _ _ (fun e => hp e.symm)]; exact hn
              | none => exact hn
            rw [i2 i hi' hn']
            simp only [claimed, List.find?_cons, hp, decide_false]
        · intro i hi
          simp only [List.map_cons, List.mem_cons, not_or] at hi
          rw [i3 i hi.2]
          cases p.value with
          | some v => rw [SMap.get?_insert_ne _ _ hi.1]
          | none => rfl

theorem claimed_eq [StoreKey K] (ps : List (MerkleProof K V)) (f : Contents V)
    (h : ∀ p ∈ ps, p.value = f (StoreKey.index p.key)) (i : Nat)
    (hi : i ∈ ps.map (fun p => StoreKey.index p.key)) : claimed ps i = f i := by
  unfold claimed
  cases hf : ps.find? (fun p => decide (StoreKey.index p.key = i)) with
  | some p =>
    have h1 := List.mem_of_find?_eq_some hf
    have h2 := List.find?_some hf
    simp only [decide_eq_true_eq] at h2
    rw [← h2]; exact h p h1
  | none =>
    rw [List.find?_eq_none] at hf
    obtain ⟨p, hp, hpi⟩ := List.mem_map.mp hi
    have := hf p hp
    simp [hpi] at this

/-- Recovery from true proofs: the sparse storage agrees with the full contents. -/
theorem recover_agree [TreeKey K] (root : B256) (ps : List (MerkleProof K V)) (s s' : Sparse V)
    (m : SMap V) (h : s.recover kc abi root ps = .ok s')
    (ht : ∀ p ∈ ps, p.value = m.get? (StoreKey.index p.key)) :
    Agree s'.witnessed m s' m ∧
    (∀ i, i ∈ s'.witnessed ↔ i ∈ ps.map (fun p => StoreKey.index p.key)) := by
  obtain ⟨h1, h2, h3⟩ := recoverLoop_contents kc abi root ps _ s' h
  have hw : ∀ i, i ∈ s'.witnessed ↔ i ∈ ps.map (fun p => StoreKey.index p.key) := by
    intro i; rw [h1]; simp
  refine ⟨⟨rfl, ?_, ?_, fun _ _ => rfl, fun _ h => h⟩, hw⟩
  · intro i hi
    rw [h2 i ((hw i).mp hi) rfl, claimed_eq ps m.get? ht i ((hw i).mp hi)]
  · intro i hi
    rw [h3 i (fun hc => hi ((hw i).mpr hc))]; rfl

/-! ## The sparse root update -/

theorem collectUpdates_ok [StoreKey K] (ps : List (MerkleProof K V)) (us : List (Nat × V))
    (h : ∀ e ∈ us, e.1 ∈ ps.map (fun p => StoreKey.index p.key)) :
    ∃ new : List (K × V), collectUpdates ps us = .ok new ∧
      new.map (fun e => (StoreKey.index e.1, e.2)) = us ∧ ∀ e ∈ new, ∃ p ∈ ps, p.key = e.1 := by
  induction us with
  | nil => exact ⟨[], rfl, rfl, by simp⟩
  | cons u us ih =>
    obtain ⟨new, h1, h2, h3⟩ := ih (fun e he => h e (by simp [he]))
    obtain ⟨i, v⟩ := u
    simp only [collectUpdates]
    cases hf : ps.find? (fun p => decide (StoreKey.index p.key = i)) with
    | none =>
      rw [List.find?_eq_none] at hf
      obtain ⟨p, hp, hpi⟩ := List.mem_map.mp (h (i, v) (by simp))
      have := hf p hp
      simp at hpi
      simp [hpi] at this
    | some p =>
      have hp1 := List.mem_of_find?_eq_some hf
      have hp2 := List.find?_some hf
      simp only [decide_eq_true_eq] at hp2
      rw [h1]
      refine ⟨_, rfl, ?_, ?_⟩
      · simp [h2, hp2]
      · intro e he
        rw [List.mem_cons] at he
        rcases he with rfl | he
        · exact ⟨p, hp1, rfl⟩
        · exact h3 e he

theorem updateMap_map [StoreKey K] (new : List (K × V)) :
    updateMap new =
      (new.map (fun e => (StoreKey.index e.1, e.2))).foldl (fun m e => m.insert e.1 e.2) SMap.empty := by
  unfold updateMap
  rw [List.foldl_map]

/-- The sparse root update from true proofs gives the root of the final contents. -/
theorem calculateNewRootSparse_true [TreeKey K] [DecidableEq K] (m0 m : SMap V)
    (ps : List (MerkleProof K V)) (sp : Sparse V) (hps : ∀ p ∈ ps, TrueProof kc abi m0.get? p)
    (w : List Nat) (hw : ∀ i, i ∈ w ↔ i ∈ ps.map (fun p => StoreKey.index p.key))
    (hag : Agree w m0 sp m) :
    calculateNewRootSparse kc abi (treeRoot kc abi (TreeKey.bits K) m0.get?) ps sp =
      .ok (treeRoot kc abi (TreeKey.bits K) m.get?) := by
  have hraw : sp.iterRaw = sp.inner.list := by
    unfold Sparse.iterRaw
    rw [List.filter_eq_self]
    intro e he
    rw [decide_eq_true_eq, hag.wit]
    apply Decidable.byContradiction
    intro hc
    have := hag.off e.1 hc
    rw [(SMap.get?_eq_some_iff _ e.1 e.2).mpr he] at this
    simp at this
  have hfinal : ∀ i, (sp.inner.get? i).or (m0.get? i) = m.get? i := by
    intro i
    by_cases hi : i ∈ w
    · rw [hag.on i hi]
      cases hm : m.get? i with
      | some v => rfl
      | none =>
        cases h0 : m0.get? i with
        | none => rfl
        | some v =>
          have := hag.mono i (by rw [h0]; rfl)
          rw [hm] at this; simp at this
    · rw [hag.off i hi, hag.frame i hi]; rfl
  unfold calculateNewRootSparse
  split
  · rename_i h
    have hemp := (SMap.isEmpty_iff _).mp h.1
    congr 2
    funext i
    rw [← hfinal i, hemp i]; rfl
  · rw [hraw]
    obtain ⟨new, h1, h2, h3⟩ := collectUpdates_ok ps sp.inner.list (by
      intro e he
      rw [← hw]
      apply Decidable.byContradiction
      intro hc
      have := hag.off e.1 hc
      rw [(SMap.get?_eq_some_iff _ e.1 e.2).mpr he] at this
      simp at this)
    rw [h1]
    simp only
    rw [calculateNewRoot_true kc abi m0.get? ps new hps h3]
    congr 2
    funext i
    rw [write_eq, updateMap_map, h2, foldl_insert_list]
    exact hfinal i

end

/-! ## Executing transactions on the three backends -/

theorem execute_merkle (env : Env) (tx : Tx) (s : FullState) :
    (execute merkleOps merkleOps env tx s).1 = (Ledger.execute env tx s.plain).1 ∧
    FullState.plain (execute merkleOps merkleOps env tx s).2 = (Ledger.execute env tx s.plain).2 ∧
    (∀ a, a ∈ (execute merkleOps merkleOps env tx s).2.accounts.touched ↔
      a ∈ s.accounts.touched ∨ Access.acct a ∈ (execInner env tx).trace s.plain) ∧
    (∀ i, i ∈ (execute merkleOps merkleOps env tx s).2.transactions.touched ↔
      i ∈ s.transactions.touched ∨ Access.tx i ∈ (execInner env tx).trace s.plain) := by
  have h := merkleSim (execInner env tx) s
  have h1 := h.outcome
  have h2 := h.contents
  have h3 := h.accts
  have h4 := h.txs
  unfold Ledger.execute execute
  unfold Prog.runL at h1 h2
  generalize (execInner env tx).run merkleOps merkleOps s = r at h1 h2 h3 h4
  generalize (execInner env tx).run (mapOps Address Account) (mapOps B256 Bool) s.plain = r' at h1 h2
  obtain ⟨o, s1⟩ := r
  obtain ⟨o', s1'⟩ := r'
  simp only at h1 h2 h3 h4
  subst h1; subst h2
  cases o with
  | error e => exact ⟨rfl, rfl, h3, h4⟩
  | ok v => cases v <;> exact ⟨rfl, rfl, h3, h4⟩

theorem execute_sparse (env : Env) (tx : Tx) (wa wt : List Nat) (s0 : Ledger) (sp : SparseState)
    (s : Ledger) (h : AgreeSt wa wt s0 sp s) :
    ((∀ x ∈ (execInner env tx).trace s, Witnessed wa wt x) ∧
      (execute sparseOps sparseOps env tx sp).1 = (Ledger.execute env tx s).1 ∧
      AgreeSt wa wt s0 (execute sparseOps sparseOps env tx sp).2 (Ledger.execute env tx s).2) ∨
    ((∃ x ∈ (execInner env tx).trace s, ¬ Witnessed wa wt x) ∧
      (execute sparseOps sparseOps env tx sp).1 = .panic .storageKeyNotAllowed) := by
  have h := sparseSim wa wt s0 (execInner env tx) sp s h
  unfold SparseSim at h
  unfold Ledger.execute execute
  unfold Prog.runL at h
  generalize (execInner env tx).run sparseOps sparseOps sp = r at h
  generalize (execInner env tx).run (mapOps Address Account) (mapOps B256 Bool) s = r' at h
  obtain ⟨o, s1⟩ := r
  obtain ⟨o', s1'⟩ := r'
  simp only at h
  rcases h with ⟨h1, h2, h3⟩ | ⟨h1, h2⟩
  · subst h2
    left
    refine ⟨h1, ?_⟩
    cases o with
    | error e => exact ⟨rfl, h3⟩
    | ok v =>
      have hsc : ({ s1.sc with txId := s1.sc.txId + 1 } : Scalars) =
          { s1'.sc with txId := s1'.sc.txId + 1 } := by rw [h3.sc]
      cases v <;> exact ⟨rfl, hsc, h3.acc, h3.txs⟩
  · subst h2
    right
    exact ⟨h1, rfl⟩

theorem runTxs_merkle (env : Env) (txs : List (Int × Tx)) (s : FullState) :
    runTxs (mapOps Address Account) (mapOps B256 Bool) env txs s.plain =
      (runTxs merkleOps merkleOps env txs s).map (fun r => (r.1, FullState.plain r.2)) := by
  induction txs generalizing s with
  | nil => rfl
  | cons t txs ih =>
    obtain ⟨pos, tx⟩ := t
    obtain ⟨h1, h2, -, -⟩ := execute_merkle env tx s
    unfold Ledger.execute at h1 h2
    simp only [runTxs]
    generalize execute merkleOps merkleOps env tx s = r at h1 h2
    generalize execute (mapOps Address Account) (mapOps B256 Bool) env tx s.plain = r' at h1 h2
    obtain ⟨o, s1⟩ := r
    obtain ⟨o', s1'⟩ := r'
    simp only at h1 h2
    subst h1; subst h2
    cases o with
    | panic e => rfl
    | revert v => exact ih s1
    | ok v =>
      cases v with
      | none => exact ih s1
      | some rc =>
        simp only
        rw [ih s1]
        cases runTxs merkleOps merkleOps env txs s1 <;> rfl

/-- Soundness of sparse runs. -/
theorem runTxs_sparse_sound (env : Env) (txs : List (Int × Tx)) (wa wt : List Nat) (s0 : Ledger)
    (sp : SparseState) (s : Ledger) (h : AgreeSt wa wt s0 sp s) (rs : List Receipt) (sp' : SparseState)
    (hr : runTxs sparseOps sparseOps env txs sp = some (rs, sp')) :
    ∃ s', runTxs (mapOps Address Account) (mapOps B256 Bool) env txs s = some (rs, s') ∧
      AgreeSt wa wt s0 sp' s' := by
  induction txs generalizing sp s rs with
  | nil =>
    simp only [runTxs, Option.some.injEq, Prod.mk.injEq] at hr
    obtain ⟨h1, h2⟩ := hr
    subst h1; subst h2
    exact ⟨s, rfl, h⟩
  | cons t txs ih =>
    obtain ⟨pos, tx⟩ := t
    have he := execute_sparse env tx wa wt s0 sp s h
    unfold Ledger.execute at he
    simp only [runTxs] at hr ⊢
    generalize execute sparseOps sparseOps env tx sp = r at he hr
    generalize execute (mapOps Address Account) (mapOps B256 Bool) env tx s = r' at he
    obtain ⟨o, s1⟩ := r
    obtain ⟨o', s1'⟩ := r'
    simp only at he
    rcases he with ⟨-, h2, h3⟩ | ⟨-, h2⟩
    · subst h2
      cases o with
      | panic e => simp at hr
      | revert v => exact ih s1 s1' h3 rs hr
      | ok v =>
        cases v with
        | none => exact ih s1 s1' h3 rs hr
        | some rc =>
          simp only at hr ⊢
          cases hq : runTxs sparseOps sparseOps env txs s1 with
          | none => rw [hq] at hr; simp at hr
          | some q =>
            rw [hq] at hr
            simp only [Option.some.injEq, Prod.mk.injEq] at hr
            obtain ⟨e1, e2⟩ := hr
            obtain ⟨s', g1, g2⟩ := ih s1 s1' h3 q.1 (by rw [hq, ← e2])
            rw [g1]
            exact ⟨s', by rw [← e1], g2⟩
    · subst h2; simp at hr

/-- Touched keys only grow. -/
theorem runTxs_touched_mono (env : Env) (txs : List (Int × Tx)) (s s' : FullState) (rs : List Receipt)
    (h : runTxs merkleOps merkleOps env txs s = some (rs, s')) :
    (∀ a ∈ s.accounts.touched, a ∈ s'.accounts.touched) ∧
    (∀ i ∈ s.transactions.touched, i ∈ s'.transactions.touched) := by
  induction txs generalizing s rs with
  | nil =>
    simp only [runTxs, Option.some.injEq, Prod.mk.injEq] at h
    rw [← h.2]
    exact ⟨fun _ h => h, fun _ h => h⟩
  | cons t txs ih =>
    obtain ⟨pos, tx⟩ := t
    obtain ⟨-, -, h3, h4⟩ := execute_merkle env tx s
    simp only [runTxs] at h
    generalize execute merkleOps merkleOps env tx s = r at h h3 h4
    obtain ⟨o, s1⟩ := r
    have hm : (∀ a ∈ s.accounts.touched, a ∈ s1.accounts.touched) ∧
        (∀ i ∈ s.transactions.touched, i ∈ s1.transactions.touched) :=
      ⟨fun a ha => (h3 a).mpr (Or.inl ha), fun a ha => (h4 a).mpr (Or.inl ha)⟩
    have fin : ∀ rs, runTxs merkleOps merkleOps env txs s1 = some (rs, s') →
        (∀ a ∈ s.accounts.touched, a ∈ s'.accounts.touched) ∧
        (∀ i ∈ s.transactions.touched, i ∈ s'.transactions.touched) := by
      intro rs hr
      obtain ⟨a1, a2⟩ := ih s1 rs hr
      exact ⟨fun a ha => a1 a (hm.1 a ha), fun a ha => a2 a (hm.2 a ha)⟩
    cases o with
    | panic e => simp at h
    | revert v => exact fin _ h
    | ok v =>
      cases v with
      | none => exact fin _ h
      | some rc =>
        simp only at h
        cases hq : runTxs merkleOps merkleOps env txs s1 with
        | none => rw [hq] at h; simp at h
        | some q =>
          rw [hq] at h
          simp only [Option.some.injEq, Prod.mk.injEq] at h
          exact fin q.1 (by rw [hq, ← h.2])

/-- Completeness of sparse runs: if every key the full run touched is witnessed, the sparse run gives
the same receipts and agreeing contents. -/
theorem runTxs_sparse_complete (env : Env) (txs : List (Int × Tx)) (wa wt : List Nat) (s0 : Ledger)
    (sp : SparseState) (s s' : FullState) (rs : List Receipt) (h : AgreeSt wa wt s0 sp s.plain)
    (hr : runTxs merkleOps merkleOps env txs s = some (rs, s'))
    (hwa : ∀ a ∈ s'.accounts.touched, StoreKey.index a ∈ wa)
    (hwt : ∀ i ∈ s'.transactions.touched, StoreKey.index i ∈ wt) :
    ∃ sp', runTxs sparseOps sparseOps env txs sp = some (rs, sp') ∧ AgreeSt wa wt s0 sp' s'.plain := by
  induction txs generalizing sp s rs with
  | nil =>
    simp only [runTxs, Option.some.injEq, Prod.mk.injEq] at hr
    obtain ⟨h1, h2⟩ := hr
    subst h1; subst h2
    exact ⟨sp, rfl, h⟩
  | cons t txs ih =>
    obtain ⟨pos, tx⟩ := t
    have he := execute_sparse env tx wa wt s0 sp s.plain h
    have hm := execute_merkle env tx s
    simp only [runTxs] at hr ⊢
    generalize execute sparseOps sparseOps env tx sp = r at he
    generalize Ledger.execute env tx s.plain = r' at he hm
    generalize execute merkleOps merkleOps env tx s = r'' at hm hr
    obtain ⟨o, sp1⟩ := r
    obtain ⟨o', s1'⟩ := r'
    obtain ⟨o'', s1⟩ := r''
    simp only at he hm
    obtain ⟨h1, h2, h3, h4⟩ := hm
    subst h1; subst h2
    have hmono : ∀ rs, runTxs merkleOps merkleOps env txs s1 = some (rs, s') →
        ∀ x ∈ (execInner env tx).trace s.plain, Witnessed wa wt x := by
      intro rs hq x hx
      obtain ⟨a1, a2⟩ := runTxs_touched_mono env txs s1 s' rs hq
      cases x with
      | acct a => exact hwa a (a1 a ((h3 a).mpr (Or.inr hx)))
      | tx i => exact hwt i (a2 i ((h4 i).mpr (Or.inr hx)))
    cases o'' with
    | panic e => simp at hr
    | revert v =>
      rcases he with ⟨-, g2, g3⟩ | ⟨⟨x, hx, hx'⟩, -⟩
      · subst g2; exact ih sp1 s1 rs g3 hr
      · exact absurd (hmono _ hr x hx) hx'
    | ok v =>
      cases v with
      | none =>
        rcases he with ⟨-, g2, g3⟩ | ⟨⟨x, hx, hx'⟩, -⟩
        · subst g2; exact ih sp1 s1 rs g3 hr
        · exact absurd (hmono _ hr x hx) hx'
      | some rc =>
        simp only at hr
        cases hq : runTxs merkleOps merkleOps env txs s1 with
        | none => rw [hq] at hr; simp at hr
        | some q =>
          rw [hq] at hr
          simp only [Option.some.injEq, Prod.mk.injEq] at hr
          obtain ⟨e1, e2⟩ := hr
          rcases he with ⟨-, g2, g3⟩ | ⟨⟨x, hx, hx'⟩, -⟩
          · subst g2
            obtain ⟨sp', b1, b2⟩ := ih sp1 s1 q.1 g3 (by rw [hq, ← e2])
            simp only
            rw [b1]
            exact ⟨sp', by rw [← e1], b2⟩
          · exact absurd (hmono q.1 (by rw [hq, ← e2]) x hx) hx'

end Verif
