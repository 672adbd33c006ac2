import Verif.PropsAgg
/-
# C84: how a history is cut into batches does not matter

The prover chooses how to cut the transactions into runs of the state transition program and aggregates the runs.
Every cut can be proved, and all cuts lead to the same result.
-/

namespace Verif

/-! ## Specification -/

/-- A batch: what one run of the state transition program executes, and the timestamp it commits. -/
structure Batch where
  txs : List (Int × Tx)
  timestamp : U64

/-- Timestamps never decrease from batch to batch. -/
def InTime (bs : List Batch) : Prop := bs.Pairwise fun a b => a.timestamp.toNat ≤ b.timestamp.toNat

/-- The storages of the state are in a state that storage operations lead to. -/
def FullState.Reached (kc : Bytes → B256) (s : FullState) : Prop :=
  ∃ opsA opsT, s.accounts = Merkle.after kc Account.abi opsA ∧ s.transactions = Merkle.after kc abiBool opsT

/-! ## Execution is made of storage operations -/

theorem FullState.Reached.acc {kc : Bytes → B256} {s : FullState} (h : s.Reached kc) (op : MOp Address Account)
    (m : Merkle Address Account) (hm : MOp.run kc Account.abi s.accounts op = m) :
    FullState.Reached kc { s with accounts := m } := by
  obtain ⟨a, t, ha, ht⟩ := h
  refine ⟨a ++ [op], t, ?_, ht⟩
  unfold Merkle.after at *
  rw [List.foldl_append, ← ha]
  exact hm.symm

theorem FullState.Reached.tx {kc : Bytes → B256} {s : FullState} (h : s.Reached kc) (op : MOp B256 Bool)
    (m : Merkle B256 Bool) (hm : MOp.run kc abiBool s.transactions op = m) :
    FullState.Reached kc { s with transactions := m } := by
  obtain ⟨a, t, ha, ht⟩ := h
  refine ⟨a, t ++ [op], ha, ?_⟩
  unfold Merkle.after at *
  rw [List.foldl_append, ← ht]
  exact hm.symm

theorem entry_run {K V : Type} [TreeKey K] [DecidableEq K] [Inhabited V] (kc : Bytes → B256) (abi : V → Bytes)
    (m m' : Merkle K V) (k : K) (v : V) (h : merkleOps.entry k m = .ok (v, m')) :
    MOp.run kc abi m (.entry k id) = m' := by
  simp only [MOp.run]
  rw [h]
  simp only [merkleOps] at h ⊢
  split at h
  · rename_i v' hv
    injection h with h
    have h1 := (Prod.mk.inj h).1
    have h2 := (Prod.mk.inj h).2
    rw [← h2, ← h1]
    dsimp only [id]
    congr 1
    refine SMap.ext fun j => ?_
    rw [SMap.get?_insert]
    split
    · rename_i e; rw [e, hv]
    · rfl
  · injection h with h
    have h1 := (Prod.mk.inj h).1
    have h2 := (Prod.mk.inj h).2
    rw [← h2, ← h1]
    dsimp only [id]
    congr 1
    refine SMap.ext fun j => ?_
    rw [SMap.get?_insert, SMap.get?_insert]
    split <;> rfl

theorem run_reached {α : Type} (kc : Bytes → B256) (p : Prog α) (s s' : FullState) (a : α) (h : s.Reached kc)
    (hr : p.run merkleOps merkleOps s = (.ok a, s')) : s'.Reached kc := by
  induction p generalizing s with
  | pure b => rw [Prog.run] at hr; rw [← (Prod.mk.inj hr).2]; exact h
  | panic e => rw [Prog.run] at hr; cases (Prod.mk.inj hr).1
  | getSc k ih => exact ih _ s h hr
  | setSc c k ih =>
    obtain ⟨x, t, hx, ht⟩ := h
    exact ih { s with sc := c } ⟨x, t, hx, ht⟩ hr
  | accGet x k ih =>
    rw [Prog.run] at hr
    exact ih _ _ (h.acc (.get x) _ rfl) hr
  | accEntry x f k ih =>
    rw [Prog.run] at hr
    rcases he : merkleOps.entry x s.accounts with e | ⟨v, m⟩
    · rw [he] at hr; cases (Prod.mk.inj hr).1
    · rw [he] at hr
      dsimp only at hr
      cases hf : f v with
      | error e => rw [hf] at hr; cases (Prod.mk.inj hr).1
      | ok v' =>
        rw [hf] at hr
        refine ih _ (h.acc (.entry x fun _ => v') _ ?_) hr
        simp only [MOp.run]
        rw [he]
  | accGetMut x f k ih =>
    rw [Prog.run] at hr
    rcases he : merkleOps.getMut x s.accounts with e | ⟨v, m⟩
    · rw [he] at hr; cases (Prod.mk.inj hr).1
    · rw [he] at hr
      cases v with
      | none =>
        refine ih _ _ (h.acc (.getMut x f) _ ?_) hr
        simp only [MOp.run]
        rw [he]
      | some v =>
        refine ih _ _ (h.acc (.getMut x f) _ ?_) hr
        simp only [MOp.run]
        rw [he]
  | txEntry i k ih =>
    rw [Prog.run] at hr
    rcases he : merkleOps.entry i s.transactions with e | ⟨v, m⟩
    · rw [he] at hr; cases (Prod.mk.inj hr).1
    · rw [he] at hr
      exact ih _ _ (h.tx (.entry i id) _ (entry_run kc abiBool _ _ _ _ he)) hr
  | txInsert i v k ih =>
    rw [Prog.run] at hr
    rcases he : merkleOps.insert i v s.transactions with e | m
    · rw [he] at hr; cases (Prod.mk.inj hr).1
    · rw [he] at hr
      refine ih _ (h.tx (.insert i v) _ ?_) hr
      simp only [MOp.run]
      rw [he]

theorem execute_reached (kc : Bytes → B256) (env : Env) (tx : Tx) (s s' : FullState) (r : Result) (h : s.Reached kc)
    (hr : execute merkleOps merkleOps env tx s = (r, s')) (hp : ∀ e, r ≠ .panic e) : s'.Reached kc := by
  unfold execute at hr
  split at hr
  · rename_i heq
    rw [← (Prod.mk.inj hr).2]
    have := run_reached kc _ _ _ _ h heq
    obtain ⟨a, t, ha, ht⟩ := this
    exact ⟨a, t, ha, ht⟩
  · rename_i heq
    rw [← (Prod.mk.inj hr).2]
    have := run_reached kc _ _ _ _ h heq
    obtain ⟨a, t, ha, ht⟩ := this
    exact ⟨a, t, ha, ht⟩
  · exact absurd (Prod.mk.inj hr).1.symm (hp _)

theorem runTxs_reached (kc : Bytes → B256) (env : Env) (txs : List (Int × Tx)) (s s' : FullState) (rs : List Receipt)
    (h : s.Reached kc) (hr : runTxs merkleOps merkleOps env txs s = some (rs, s')) : s'.Reached kc := by
  induction txs generalizing s rs with
  | nil => rw [runTxs] at hr; rw [← (Prod.mk.inj (Option.some.inj hr)).2]; exact h
  | cons t txs ih =>
    obtain ⟨n, tx⟩ := t
    rw [runTxs] at hr
    rcases he : execute merkleOps merkleOps env tx s with ⟨r, s1⟩
    rw [he] at hr
    cases r with
    | panic e => cases hr
    | revert v => exact ih s1 rs (execute_reached kc env tx s s1 _ h he (by intro e h; cases h)) hr
    | ok o =>
      have h1 := execute_reached kc env tx s s1 _ h he (by intro e h; cases h)
      cases o with
      | none => exact ih s1 rs h1 hr
      | some r =>
        dsimp only at hr
        cases hq : runTxs merkleOps merkleOps env txs s1 with
        | none => rw [hq] at hr; cases hr
        | some q =>
          rw [hq] at hr
          have e := (Prod.mk.inj (Option.some.inj hr)).2
          exact ih s1 q.1 h1 (by rw [hq, ← e])

theorem runTxs_split {A T : Type} (SA : StoreOps Address Account A) (ST : StoreOps B256 Bool T) (env : Env)
    (txs txs' : List (Int × Tx)) (s s'' : St A T) (rs : List Receipt)
    (h : runTxs SA ST env (txs ++ txs') s = some (rs, s'')) :
    ∃ rs1 s' rs2, runTxs SA ST env txs s = some (rs1, s') ∧ runTxs SA ST env txs' s' = some (rs2, s'') ∧
      rs = rs1 ++ rs2 := by
  induction txs generalizing s rs with
  | nil => exact ⟨[], s, rs, rfl, h, rfl⟩
  | cons t txs ih =>
    obtain ⟨n, tx⟩ := t
    rw [List.cons_append, runTxs] at h
    rcases he : execute SA ST env tx s with ⟨r, s1⟩
    rw [he] at h
    rw [runTxs, he]
    cases r with
    | panic e => cases h
    | revert v => exact ih s1 rs h
    | ok o =>
      cases o with
      | none => exact ih s1 rs h
      | some r =>
        dsimp only at h ⊢
        cases hq : runTxs SA ST env (txs ++ txs') s1 with
        | none => rw [hq] at h; cases h
        | some q =>
          rw [hq] at h
          have e := Prod.mk.inj (Option.some.inj h)
          obtain ⟨rs1, s', rs2, h1, h2, h3⟩ := ih s1 q.1 (by rw [hq, ← e.2])
          refine ⟨r :: rs1, s', rs2, by rw [h1], h2, ?_⟩
          rw [← e.1, h3]
          rfl

/-- Keys that cover the touched ones without repeating an index. -/
theorem cover_keys {K : Type} [StoreKey K] (l : List K) : ∃ ks : List K, (ks.map StoreKey.index).Nodup ∧
    ∀ k ∈ l, StoreKey.index k ∈ ks.map StoreKey.index := by
  induction l with
  | nil => exact ⟨[], List.nodup_nil, by simp⟩
  | cons k l ih =>
    obtain ⟨ks, h1, h2⟩ := ih
    by_cases hk : StoreKey.index k ∈ ks.map StoreKey.index
    · refine ⟨ks, h1, fun x hx => ?_⟩
      rcases List.mem_cons.mp hx with rfl | hx
      · exact hk
      · exact h2 x hx
    · refine ⟨k :: ks, by rw [List.map_cons, List.nodup_cons]; exact ⟨hk, h1⟩, fun x hx => ?_⟩
      rw [List.map_cons]
      rcases List.mem_cons.mp hx with rfl | hx
      · exact List.mem_cons_self
      · exact List.mem_cons_of_mem _ (h2 x hx)

/-- One batch can be proved. -/
theorem prove_batch (env : Env) (b : Batch) (s s' : FullState) (rs : List Receipt) (h : s.Reached env.keccak)
    (hr : runTxs merkleOps merkleOps env b.txs s = some (rs, s')) :
    ∃ input : StfInput, input.txs = b.txs ∧ input.timestamp = b.timestamp ∧
      stf env input = some ⟨s.root env.keccak, s'.root env.keccak, b.timestamp, rs.map Receipt.sol⟩ := by
  obtain ⟨opsA, opsT, hA, hT⟩ := h
  obtain ⟨ksA, nA, cA⟩ := cover_keys s'.accounts.touched
  obtain ⟨ksT, nT, cT⟩ := cover_keys s'.transactions.touched
  have hs : s = ⟨s.sc, Merkle.after env.keccak Account.abi opsA, Merkle.after env.keccak abiBool opsT⟩ := by
    rw [← hA, ← hT]
  exact ⟨_, rfl, rfl, c28_stf_complete env b.txs b.timestamp s.sc opsA opsT Sparse.new Sparse.new ksA ksT s s' rs hs hr
    cA cT nA nT⟩

theorem aggregateSteps_cons (a b : StepValues) (rest : List StepValues) (out : StepValues)
    (h : aggregateSteps (b :: rest) = some out) (h1 : a.newRoot = b.oldRoot)
    (h2 : a.timestamp.toNat ≤ b.timestamp.toNat) :
    aggregateSteps (a :: b :: rest) = some ⟨a.oldRoot, out.newRoot, out.timestamp, a.receipts ++ out.receipts⟩ := by
  rw [aggregateSteps] at h ⊢
  split at h
  · rename_i hc
    rw [if_pos (by rw [checkChain, decide_eq_true h1, decide_eq_true h2, hc]; rfl)]
    rw [← Option.some.inj h, List.getLast?_cons]
    rfl
  · cases h

/-! ## C84 -/

/-- C84, every cut can be proved: if a list of transactions executes on a full state, then however it is cut into a
non-empty list of batches with timestamps that never decrease, every batch has an input that the state transition
program accepts, the aggregation program accepts the committed values (their proofs verify and no encoding is
2^256 bytes long), and what it commits is what one batch of all transactions would commit: the root of the state, the
root of the final state, the last timestamp and all receipts in order. -/
theorem c84_any_cut (env : Env) (bs : List Batch) (s s' : FullState) (rs : List Receipt) (last : U64)
    (h : s.Reached env.keccak) (ht : InTime bs) (hl : bs.getLast?.map Batch.timestamp = some last)
    (hr : runTxs merkleOps merkleOps env (bs.map Batch.txs).flatten s = some (rs, s')) :
    ∃ (inputs : List StfInput) (steps : List StepValues),
      inputs.map StfInput.txs = bs.map Batch.txs ∧ inputs.map StfInput.timestamp = bs.map Batch.timestamp ∧
      inputs.map (stf env) = steps.map some ∧
      ∀ aenv : AggEnv, (∀ v ∈ steps, aenv.verifyProof aenv.stfVkey (aenv.sha256 v.encode) = true ∧
          v.encode.length < 2 ^ 256) →
        aggregate aenv (steps.map StepValues.encode) =
          some (StepValues.encode ⟨s.root env.keccak, s'.root env.keccak, last, rs.map Receipt.sol⟩) := by
  -- on decoded steps
  have key : ∀ (bs : List Batch) (s : FullState) (rs : List Receipt), s.Reached env.keccak → InTime bs →
      bs.getLast?.map Batch.timestamp = some last →
      runTxs merkleOps merkleOps env (bs.map Batch.txs).flatten s = some (rs, s') →
      ∃ (inputs : List StfInput) (steps : List StepValues),
        inputs.map StfInput.txs = bs.map Batch.txs ∧ inputs.map StfInput.timestamp = bs.map Batch.timestamp ∧
        inputs.map (stf env) = steps.map some ∧
        steps.head?.map StepValues.timestamp = bs.head?.map Batch.timestamp ∧
        aggregateSteps steps = some ⟨s.root env.keccak, s'.root env.keccak, last, rs.map Receipt.sol⟩ := by
    intro bs
    induction bs with
    | nil => intro s rs _ _ hl _; cases hl
    | cons b bs ih =>
      intro s rs h ht hl hr
      rw [List.map_cons, List.flatten_cons] at hr
      obtain ⟨rs1, s1, rs2, r1, r2, r3⟩ := runTxs_split _ _ _ _ _ _ _ _ hr
      obtain ⟨i, i1, i2, i3⟩ := prove_batch env b s s1 rs1 h r1
      cases bs with
      | nil =>
        have e : s1 = s' ∧ rs2 = [] := by
          rw [List.map_nil, List.flatten_nil, runTxs] at r2
          have := Prod.mk.inj (Option.some.inj r2)
          exact ⟨this.2, this.1.symm⟩
        have el : b.timestamp = last := Option.some.inj hl
        refine ⟨[i], [_], by rw [List.map_singleton, List.map_singleton, i1],
          by rw [List.map_singleton, List.map_singleton, i2],
          by rw [List.map_singleton, List.map_singleton, i3], rfl, ?_⟩
        rw [r3, e.2, List.append_nil, ← e.1, ← el]
        simp [aggregateSteps, checkChain]
      | cons c bs =>
        have ht' := List.pairwise_cons.mp ht
        rw [List.getLast?_cons_cons] at hl
        obtain ⟨is, steps, j1, j2, j3, j4, j5⟩ := ih s1 rs2 (runTxs_reached _ env _ _ _ _ h r1) ht'.2 hl r2
        cases steps with
        | nil => cases j5
        | cons d steps =>
          have hd : d.timestamp = c.timestamp := Option.some.inj j4
          have ho : FullState.root env.keccak s1 = d.oldRoot := by
            have := ((aggregateSteps_iff _ _).mp j5).2.first
            exact (Option.some.inj this).symm
          refine ⟨i :: is, ⟨s.root env.keccak, FullState.root env.keccak s1, b.timestamp, rs1.map Receipt.sol⟩ :: d :: steps,
            by rw [List.map_cons, i1, j1]; rfl, by rw [List.map_cons, i2, j2]; rfl,
            by rw [List.map_cons, i3, j3]; rfl, rfl, ?_⟩
          rw [aggregateSteps_cons _ d steps _ j5 ho (by rw [hd]; exact ht'.1 c List.mem_cons_self), r3, List.map_append]
  obtain ⟨is, steps, j1, j2, j3, _, j5⟩ := key bs s rs h ht hl hr
  refine ⟨is, steps, j1, j2, j3, fun aenv hv => ?_⟩
  have hne : steps ≠ [] := by rintro rfl; cases j5
  obtain ⟨k1, k2⟩ := (aggregateSteps_iff _ _).mp j5
  refine (c29_accepts_iff aenv _ _).mpr ⟨?_, ?_, steps, _, ?_, k1, k2, rfl⟩
  · intro e; exact hne (List.map_eq_nil_iff.mp e)
  · intro pv hpv
    obtain ⟨v, hv1, rfl⟩ := List.mem_map.mp hpv
    exact (hv v hv1).1
  · rw [List.map_map]
    exact List.map_congr_left fun v hv1 => decode_encode v (hv v hv1).2

theorem runTxs_positions {A T : Type} (SA : StoreOps Address Account A) (ST : StoreOps B256 Bool T) (env : Env)
    (txs txs' : List (Int × Tx)) (s : St A T) (h : txs.map Prod.snd = txs'.map Prod.snd) :
    runTxs SA ST env txs s = runTxs SA ST env txs' s := by
  induction txs generalizing txs' s with
  | nil => cases txs' with
    | nil => rfl
    | cons t txs' => cases h
  | cons t txs ih =>
    cases txs' with
    | nil => cases h
    | cons t' txs' =>
      obtain ⟨n, tx⟩ := t
      obtain ⟨n', tx'⟩ := t'
      rw [List.map_cons, List.map_cons] at h
      have h1 : tx = tx' := (List.cons.inj h).1
      have h2 := (List.cons.inj h).2
      rw [h1, runTxs, runTxs]
      rcases execute SA ST env tx' s with ⟨r, s1⟩
      cases r with
      | panic e => rfl
      | revert v => exact ih txs' s1 h2
      | ok o =>
        cases o with
        | none => exact ih txs' s1 h2
        | some r => dsimp only; rw [ih txs' s1 h2]

/-- C84, all cuts agree: two accepted aggregations of the same transactions in the same order, cut differently and
proved from whatever inputs, from a full state with the root that both name, commit the same new root and the same
receipts. -/
theorem c84_same_result (env : Env) (inputs inputs' : List StfInput) (steps steps' : List StepValues)
    (out out' : StepValues) (s : FullState)
    (hstf : inputs.map (stf env) = steps.map some) (hstf' : inputs'.map (stf env) = steps'.map some)
    (hagg : aggregateSteps steps = some out) (hagg' : aggregateSteps steps' = some out')
    (hroot : s.root env.keccak = out.oldRoot) (hroot' : s.root env.keccak = out'.oldRoot)
    (hside : StfSideConditions env s inputs) (hside' : StfSideConditions env s inputs')
    (hsame : ((inputs.map StfInput.txs).flatten).map Prod.snd = ((inputs'.map StfInput.txs).flatten).map Prod.snd) :
    out.newRoot = out'.newRoot ∧ out.receipts = out'.receipts := by
  obtain ⟨c1, c2⟩ := (aggregateSteps_iff _ _).mp hagg
  obtain ⟨c1', c2'⟩ := (aggregateSteps_iff _ _).mp hagg'
  obtain ⟨rs, s1, r1, r2, r3, _⟩ := c29_one_run env inputs steps out s hstf c1 c2 hroot hside
  obtain ⟨rs', s1', q1, q2, q3, _⟩ := c29_one_run env inputs' steps' out' s hstf' c1' c2' hroot' hside'
  rw [runTxs_positions _ _ _ _ _ _ hsame, q1] at r1
  have e := Prod.mk.inj (Option.some.inj r1)
  rw [r2, r3, q2, q3, e.1, e.2]
  exact ⟨rfl, rfl⟩

/-! ## Witnesses -/

/-- Witness: a history of four transactions cut into three batches, one of them empty. -/
example : Toy.fs.Reached Toy.envMax.keccak ∧
    InTime [⟨Toy.fsTxs.take 1, 1700⟩, ⟨[], 1700⟩, ⟨Toy.fsTxs.drop 1, 1800⟩] ∧
    runTxs merkleOps merkleOps Toy.envMax
      (([⟨Toy.fsTxs.take 1, 1700⟩, ⟨[], 1700⟩, ⟨Toy.fsTxs.drop 1, 1800⟩] : List Batch).map Batch.txs).flatten
      Toy.fs = some (Toy.fsEnd.1, Toy.fsEnd.2) ∧ Toy.fsEnd.1.length = 3 := by
  refine ⟨⟨Toy.fsOps, [], rfl, rfl⟩, ?_, ?_, by decide +kernel⟩
  · unfold InTime
    decide
  · have e : (([⟨Toy.fsTxs.take 1, 1700⟩, ⟨[], 1700⟩, ⟨Toy.fsTxs.drop 1, 1800⟩] : List Batch).map Batch.txs).flatten =
        Toy.fsTxs := by
      simp only [List.map_cons, List.map_nil, List.flatten_cons, List.flatten_nil, List.nil_append, List.append_nil,
        List.take_append_drop]
    rw [e, Toy.fsRun]

/-- Witness: the same run proved in one batch and in one batch, with the positions named differently, meets the
hypotheses of `c84_same_result`. -/
example : ∃ steps out, [Toy.fsInput].map (stf Toy.envMax) = steps.map some ∧ aggregateSteps steps = some out ∧
    Toy.fs.root Toy.envMax.keccak = out.oldRoot ∧ StfSideConditions Toy.envMax Toy.fs [Toy.fsInput] := by
  refine ⟨[_], _, by rw [List.map_singleton, Toy.fsAccepted, List.map_singleton], rfl, by rw [Toy.envMax_keccak], ?_⟩
  unfold StfSideConditions
  rw [Toy.envMax_keccak]
  exact ⟨Toy.fs_collisionFree _ (fun _ h => Or.inl h),
    Toy.noZero_proofs _ _ _ _ Toy.fs_trueA Toy.fs_noZero.1,
    Toy.noZero_proofs _ _ _ _ Toy.fs_trueT Toy.fs_noZero.2, fun _ _ _ => trivial⟩

end Verif
