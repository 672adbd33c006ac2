import Verif.Aggregation
import Verif.AbiProofs
import Verif.PropsStf
/-
# Properties C29, C30 and C55: aggregation and the encoding of public values
-/

namespace Verif

/-! ## Specification -/

/-- The steps form a chain: every step starts at the root where the one before ended, and not earlier. -/
def IsChain (steps : List StepValues) : Prop :=
  ∀ i a b, steps[i]? = some a → steps[i + 1]? = some b → a.newRoot = b.oldRoot ∧ a.timestamp ≤ b.timestamp

/-- `out` summarises the steps. -/
structure Summary (steps : List StepValues) (out : StepValues) : Prop where
  first : steps.head?.map StepValues.oldRoot = some out.oldRoot
  last : steps.getLast?.map StepValues.newRoot = some out.newRoot
  time : steps.getLast?.map StepValues.timestamp = some out.timestamp
  receipts : out.receipts = (steps.map StepValues.receipts).flatten

theorem checkChain_iff (steps : List StepValues) : checkChain steps = true ↔ IsChain steps := by
  induction steps with
  | nil => simp [checkChain, IsChain]
  | cons a rest ih =>
    cases rest with
    | nil => simp [checkChain, IsChain]
    | cons b rest =>
      rw [checkChain, Bool.and_eq_true, ih, Bool.and_eq_true, decide_eq_true_eq, decide_eq_true_eq]
      constructor
      · rintro ⟨⟨h1, h2⟩, h3⟩ i x y hx hy
        cases i with
        | zero =>
          simp only [List.getElem?_cons_zero, List.getElem?_cons_succ, Option.some.injEq] at hx hy
          subst hx hy
          exact ⟨h1, h2⟩
        | succ i =>
          rw [List.getElem?_cons_succ] at hx hy
          exact h3 i x y hx hy
      · intro h
        refine ⟨h 0 a b rfl rfl, fun i x y hx hy => h (i + 1) x y ?_ ?_⟩
        · rw [List.getElem?_cons_succ]; exact hx
        · rw [List.getElem?_cons_succ]; exact hy

theorem Summary.unique {steps : List StepValues} {a b : StepValues} (ha : Summary steps a)
    (hb : Summary steps b) : a = b := by
  obtain ⟨a1, a2, a3, a4⟩ := ha
  obtain ⟨b1, b2, b3, b4⟩ := hb
  rw [a1] at b1; rw [a2] at b2; rw [a3] at b3
  simp only [Option.some.injEq] at b1 b2 b3
  cases a; cases b
  simp only at *
  rw [b1, b2, b3, a4, b4]

theorem aggregateSteps_iff (steps : List StepValues) (out : StepValues) :
    aggregateSteps steps = some out ↔ IsChain steps ∧ Summary steps out := by
  cases steps with
  | nil =>
    simp only [aggregateSteps, reduceCtorEq, false_iff]
    rintro ⟨_, h⟩
    have := h.first
    simp at this
  | cons a rest =>
    rw [aggregateSteps]
    have hs : Summary (a :: rest)
        { oldRoot := a.oldRoot
          newRoot := (rest.getLast?.getD a).newRoot
          timestamp := (rest.getLast?.getD a).timestamp
          receipts := (a :: rest).flatMap StepValues.receipts } := by
      refine ⟨rfl, ?_, ?_, ?_⟩
      · rw [List.getLast?_cons]; rfl
      · rw [List.getLast?_cons]; rfl
      · simp [List.flatMap]
    split
    · rename_i hc
      rw [checkChain_iff] at hc
      simp only [Option.some.injEq]
      constructor
      · intro h; subst h; exact ⟨hc, hs⟩
      · rintro ⟨_, h⟩; exact hs.unique h
    · rename_i hc
      rw [checkChain_iff] at hc
      simp only [reduceCtorEq, false_iff]
      rintro ⟨h, _⟩
      exact hc h

theorem decodeAll_iff (pvs : List Bytes) (steps : List StepValues) :
    decodeAll pvs = some steps ↔ pvs.map StepValues.decode = steps.map some := by
  induction pvs generalizing steps with
  | nil =>
    cases steps <;> simp [decodeAll]
  | cons b bs ih =>
    rw [decodeAll]
    cases hb : StepValues.decode b with
    | none => cases steps <;> simp [hb]
    | some s =>
      cases hd : decodeAll bs with
      | none =>
        simp only [reduceCtorEq, List.map_cons, hb, false_iff]
        intro h
        cases steps with
        | nil => simp at h
        | cons t ts =>
          simp only [List.map_cons, List.cons.injEq, Option.some.injEq] at h
          have := (ih ts).mpr h.2
          rw [hd] at this
          simp at this
      | some ss =>
        simp only [List.map_cons, hb]
        cases steps with
        | nil => simp
        | cons t ts =>
          have := ih ts
          rw [hd] at this
          simp only [Option.some.injEq, List.cons.injEq, List.map_cons] at this ⊢
          rw [this]

/-- **C29.** The aggregation program accepts exactly a non-empty list of public values, each with a proof
verified under the compiled-in STF key, which decode to a chain of steps; it commits the encoding of
their summary. -/
theorem c29_accepts_iff (env : AggEnv) (pvs : List Bytes) (out : Bytes) :
    aggregate env pvs = some out ↔
      pvs ≠ [] ∧ (∀ pv ∈ pvs, env.verifyProof env.stfVkey (env.sha256 pv) = true) ∧
      ∃ steps v, pvs.map StepValues.decode = steps.map some ∧ IsChain steps ∧ Summary steps v ∧
        out = v.encode := by
  unfold aggregate
  split
  · rename_i h
    simp only [List.isEmpty_iff] at h
    simp [h]
  · rename_i h
    simp only [List.isEmpty_iff] at h
    split
    · rename_i hv
      rw [List.all_eq_true] at hv
      cases hd : decodeAll pvs with
      | none =>
        simp only [reduceCtorEq, false_iff]
        rintro ⟨_, _, steps, v, h1, _⟩
        rw [← decodeAll_iff, hd] at h1
        simp at h1
      | some steps =>
        simp only
        have hd' := (decodeAll_iff _ _).mp hd
        cases ha : aggregateSteps steps with
        | none =>
          simp only [reduceCtorEq, false_iff]
          rintro ⟨_, _, steps', v, h1, h2, h3, _⟩
          rw [← decodeAll_iff, hd] at h1
          simp only [Option.some.injEq] at h1
          subst h1
          rw [(aggregateSteps_iff _ _).mpr ⟨h2, h3⟩] at ha
          simp at ha
        | some v =>
          obtain ⟨h2, h3⟩ := (aggregateSteps_iff _ _).mp ha
          simp only [Option.some.injEq]
          constructor
          · intro ho; exact ⟨h, hv, steps, v, hd', h2, h3, ho.symm⟩
          · rintro ⟨_, _, steps', v', h1, _, h3', ho⟩
            rw [← decodeAll_iff, hd] at h1
            simp only [Option.some.injEq] at h1
            subst h1
            rw [ho, h3.unique h3']
    · rename_i hv
      rw [List.all_eq_true] at hv
      simp only [reduceCtorEq, false_iff]
      rintro ⟨_, h, _⟩
      exact hv h

/-- The cryptographic side conditions of `c27_stf_sound`, for each of the inputs, at the full state
reached by executing the batches before it. -/
def StfSideConditions (env : Env) : FullState → List StfInput → Prop
  | _, [] => True
  | s, input :: rest =>
    CollisionFree env.keccak (StfHashed env.keccak input s) ∧
    NoZeroLeaf env.keccak Account.abi s.accounts.leaves.get? input.accountProofs ∧
    NoZeroLeaf env.keccak abiBool s.transactions.leaves.get? input.requestProofs ∧
    ∀ rs s', runTxs merkleOps merkleOps env input.txs s = some (rs, s') → StfSideConditions env s' rest

theorem runTxs_append {A T : Type} (SA : StoreOps Address Account A) (ST : StoreOps B256 Bool T)
    (env : Env) (txs txs' : List (Int × Tx)) (s s' s'' : St A T) (rs rs' : List Receipt)
    (h : runTxs SA ST env txs s = some (rs, s')) (h' : runTxs SA ST env txs' s' = some (rs', s'')) :
    runTxs SA ST env (txs ++ txs') s = some (rs ++ rs', s'') := by
  induction txs generalizing s rs with
  | nil =>
    simp only [runTxs, Option.some.injEq, Prod.mk.injEq] at h
    obtain ⟨rfl, rfl⟩ := h
    exact h'
  | cons t txs ih =>
    obtain ⟨n, tx⟩ := t
    rw [List.cons_append]
    rw [runTxs] at h ⊢
    rcases he : execute SA ST env tx s with ⟨r, s1⟩
    rw [he] at h
    cases r with
    | panic e => simp at h
    | revert e => exact ih s1 rs h
    | ok o =>
      cases o with
      | none => exact ih s1 rs h
      | some r =>
        simp only at h ⊢
        cases hr : runTxs SA ST env txs s1 with
        | none => rw [hr] at h; simp at h
        | some q =>
          rw [hr] at h
          simp only [Option.some.injEq, Prod.mk.injEq] at h
          obtain ⟨rfl, h2⟩ := h
          rw [ih s1 q.1 (by rw [hr, ← h2])]
          rfl

/-- **C29.** If the steps of an accepted aggregation are outputs of the STF program, then for every full
state with the committed old root, executing all their transactions one after the other on it does not
abort, gives the committed receipts and ends in a state with the committed new root. -/
theorem c29_one_run (env : Env) (inputs : List StfInput) (steps : List StepValues) (out : StepValues)
    (s : FullState) (hstf : inputs.map (stf env) = steps.map some) (hchain : IsChain steps)
    (hsum : Summary steps out) (hroot : s.root env.keccak = out.oldRoot)
    (hside : StfSideConditions env s inputs) :
    ∃ (rs : List Receipt) (s' : FullState),
      runTxs merkleOps merkleOps env (inputs.map StfInput.txs).flatten s = some (rs, s') ∧
      out.receipts = rs.map Receipt.sol ∧ out.newRoot = s'.root env.keccak ∧
      inputs.getLast?.map StfInput.timestamp = some out.timestamp := by
  induction inputs generalizing steps out s with
  | nil =>
    simp only [List.map_nil, List.nil_eq, List.map_eq_nil_iff] at hstf
    subst hstf
    have := hsum.first
    simp at this
  | cons input rest ih =>
    cases steps with
    | nil => simp at hstf
    | cons a steps =>
      simp only [List.map_cons, List.cons.injEq] at hstf
      obtain ⟨h1, h2⟩ := hstf
      obtain ⟨c1, c2, c3, c4⟩ := hside
      have hold : a.oldRoot = out.oldRoot := by simpa using hsum.first
      obtain ⟨rs, s', r1, r2, r3, r4⟩ := c27_stf_sound env input a s h1 (by rw [hroot, hold]) c1 c2 c3
      cases steps with
      | nil =>
        have hrest : rest = [] := by simpa using h2
        subst hrest
        have e1 : a.newRoot = out.newRoot := by simpa using hsum.last
        have e2 : a.timestamp = out.timestamp := by simpa using hsum.time
        have e3 : out.receipts = a.receipts := by simpa using hsum.receipts
        refine ⟨rs, s', ?_, by rw [e3, r2], by rw [← e1, r3], by simp [← e2, r4]⟩
        simpa using r1
      | cons b steps =>
        have hl := hsum.last
        have ht := hsum.time
        rw [List.getLast?_cons_cons] at hl ht
        have hs2 : Summary (b :: steps)
            ⟨b.oldRoot, out.newRoot, out.timestamp, ((b :: steps).map StepValues.receipts).flatten⟩ :=
          ⟨rfl, hl, ht, rfl⟩
        have hc2 : IsChain (b :: steps) := by
          intro i x y hx hy
          exact hchain (i + 1) x y (by rw [List.getElem?_cons_succ]; exact hx)
            (by rw [List.getElem?_cons_succ]; exact hy)
        have hab := (hchain 0 a b rfl rfl).1
        obtain ⟨rs', s'', q1, q2, q3, q4⟩ := ih (b :: steps) _ s' h2 hc2 hs2
          (by rw [← r3, hab]) (c4 rs s' r1)
        refine ⟨rs ++ rs', s'', ?_, ?_, q3, ?_⟩
        · rw [List.map_cons, List.flatten_cons]
          exact runTxs_append _ _ _ _ _ _ _ _ _ _ r1 q1
        · rw [hsum.receipts, List.map_cons, List.flatten_cons, List.map_append, r2, ← q2]
        · cases rest with
          | nil => simp at q4
          | cons j rest => rw [List.getLast?_cons_cons]; exact q4

/-- **C29**, on bytes: if the aggregation program accepts public values that were committed by STF runs
on `inputs` (that is what its check of the STF proofs stands for) and commits `out`, then `out` decodes to
`v`, and for every full state with root `v.oldRoot` the concatenated transactions of all runs execute on
it with the receipts `v.receipts` and end in a state with root `v.newRoot`. -/
theorem c29_end_to_end (aenv : AggEnv) (env : Env) (pvs : List Bytes) (out : Bytes)
    (inputs : List StfInput) (s : FullState) (h : aggregate aenv pvs = some out)
    (hpvs : inputs.map (fun i => (stf env i).map StepValues.encode) = pvs.map some)
    (hsize : ∀ pv ∈ pvs, pv.length < 2 ^ 256) (hsize' : out.length < 2 ^ 256) :
    ∃ v, StepValues.decode out = some v ∧
      (s.root env.keccak = v.oldRoot → StfSideConditions env s inputs →
        ∃ (rs : List Receipt) (s' : FullState),
          runTxs merkleOps merkleOps env (inputs.map StfInput.txs).flatten s = some (rs, s') ∧
          v.receipts = rs.map Receipt.sol ∧ v.newRoot = s'.root env.keccak) := by
  obtain ⟨n1, n2, steps, v, h1, h2, h3, h4⟩ := (c29_accepts_iff aenv pvs out).mp h
  subst h4
  refine ⟨v, decode_encode v hsize', fun hroot hside => ?_⟩
  have hstf : inputs.map (stf env) = steps.map some := by
    clear h h2 h3 hside n1 n2
    induction inputs generalizing pvs steps with
    | nil =>
      have : pvs = [] := by simpa using hpvs
      subst this
      simpa using h1
    | cons i inputs ih =>
      cases pvs with
      | nil => simp at hpvs
      | cons pv pvs =>
        cases steps with
        | nil => simp at h1
        | cons a steps =>
          simp only [List.map_cons, List.cons.injEq] at hpvs h1 ⊢
          refine ⟨?_, ih pvs hpvs.2 (fun x hx => hsize x (List.mem_cons_of_mem _ hx)) steps h1.2⟩
          cases hi : stf env i with
          | none => rw [hi] at hpvs; simp at hpvs
          | some w =>
            rw [hi] at hpvs
            simp only [Option.map_some, Option.some.injEq] at hpvs
            have hw := decode_encode w (by rw [hpvs.1]; exact hsize pv List.mem_cons_self)
            rw [hpvs.1, h1.1] at hw
            exact hw.symm
  obtain ⟨rs, s', r1, r2, r3, _⟩ := c29_one_run env inputs steps v s hstf h2 h3 hroot hside
  exact ⟨rs, s', r1, r2, r3⟩

/-! ## C30 -/

/-- One step directly follows another. -/
def Follows (a b : StepValues) : Prop := a.newRoot = b.oldRoot ∧ a.timestamp ≤ b.timestamp

theorem isChain_cons_cons (a b : StepValues) (l : List StepValues) :
    IsChain (a :: b :: l) ↔ Follows a b ∧ IsChain (b :: l) := by
  rw [← checkChain_iff, ← checkChain_iff, checkChain, Bool.and_eq_true, Bool.and_eq_true,
    decide_eq_true_eq, decide_eq_true_eq]
  exact Iff.rfl

theorem isChain_nil : IsChain [] := by rw [← checkChain_iff]; rfl
theorem isChain_singleton (a : StepValues) : IsChain [a] := by rw [← checkChain_iff]; rfl

theorem isChain_append (xs ys : List StepValues) :
    IsChain (xs ++ ys) ↔ IsChain xs ∧ IsChain ys ∧
      (∀ a b, xs.getLast? = some a → ys.head? = some b → Follows a b) := by
  induction xs with
  | nil => simp [isChain_nil]
  | cons x xs ih =>
    cases xs with
    | nil =>
      cases ys with
      | nil => simp [isChain_nil]
      | cons y ys =>
        simp only [List.cons_append, List.nil_append, isChain_cons_cons, isChain_singleton, true_and]
        simp [and_comm]
    | cons x2 xs =>
      rw [List.cons_append, List.cons_append, isChain_cons_cons, isChain_cons_cons]
      rw [List.cons_append] at ih
      rw [ih, List.getLast?_cons_cons, and_assoc]

theorem IsChain.le_last {a : StepValues} {l : List StepValues} (h : IsChain (a :: l)) :
    ∀ b, (a :: l).getLast? = some b → a.timestamp.toNat ≤ b.timestamp.toNat := by
  induction l generalizing a with
  | nil => intro b hb; simp only [List.getLast?_singleton, Option.some.injEq] at hb; rw [hb]; exact Nat.le_refl _
  | cons x l ih =>
    intro b hb
    rw [isChain_cons_cons] at h
    rw [List.getLast?_cons_cons] at hb
    exact Nat.le_trans h.1.2 (ih h.2 b hb)

theorem Summary.exists {l : List StepValues} (h : l ≠ []) : ∃ v, Summary l v := by
  cases l with
  | nil => exact absurd rfl h
  | cons a l =>
    have hl : ∃ b, (a :: l).getLast? = some b := ⟨_, List.getLast?_eq_some_getLast h⟩
    obtain ⟨b, hb⟩ := hl
    exact ⟨⟨a.oldRoot, b.newRoot, b.timestamp, _⟩, rfl, by rw [hb]; rfl, by rw [hb]; rfl, rfl⟩

theorem Summary.append {xs ys outs : List StepValues} {v w out : StepValues} (hys : ys ≠ [])
    (hv : Summary xs v) (hw : Summary ys w) (ho : Summary outs w) (h : Summary (xs ++ ys) out) :
    Summary (v :: outs) out := by
  have houts : outs ≠ [] := by
    intro hc
    have := ho.first
    rw [hc] at this
    simp at this
  have hxs : xs ≠ [] := by
    intro hc
    have := hv.first
    rw [hc] at this
    simp at this
  have e1 : (v :: outs).getLast? = outs.getLast? := by
    cases outs with
    | nil => exact absurd rfl houts
    | cons x l => exact List.getLast?_cons_cons
  have e2 : (xs ++ ys).getLast? = ys.getLast? := by
    rw [List.getLast?_append]
    cases h : ys.getLast? with
    | none => exact absurd (List.getLast?_eq_none_iff.mp h) hys
    | some y => rfl
  have e3 : (xs ++ ys).head? = xs.head? := by
    cases xs with
    | nil => exact absurd rfl hxs
    | cons x l => rfl
  obtain ⟨h1, h2, h3, h4⟩ := h
  rw [e2] at h2 h3
  rw [e3] at h1
  refine ⟨?_, ?_, ?_, ?_⟩
  · have := hv.first
    rw [h1] at this
    exact this.symm
  · rw [e1, ho.last, ← hw.last, h2]
  · rw [e1, ho.time, ← hw.time, h3]
  · rw [h4, List.map_append, List.flatten_append, ← hv.receipts, ← hw.receipts, ho.receipts]
    rfl

/-- **C30.** If the aggregation of a list of steps is accepted, then so is the aggregation of the parts of
any split of it into consecutive non-empty parts followed by the aggregation of their outputs, and the
result is the same. -/
theorem c30_split (parts : List (List StepValues)) (hne : ∀ p ∈ parts, p ≠ []) (out : StepValues)
    (h : aggregateSteps parts.flatten = some out) :
    ∃ outs, parts.map aggregateSteps = outs.map some ∧ aggregateSteps outs = some out := by
  induction parts generalizing out with
  | nil => simp [aggregateSteps] at h
  | cons p ps ih =>
    rw [List.flatten_cons] at h
    obtain ⟨hc, hs⟩ := (aggregateSteps_iff _ _).mp h
    have hp := hne p List.mem_cons_self
    cases ps with
    | nil =>
      rw [List.flatten_nil, List.append_nil] at h
      refine ⟨[out], by simp [h], ?_⟩
      rw [aggregateSteps_iff]
      exact ⟨isChain_singleton _, rfl, rfl, rfl, by simp⟩
    | cons q qs =>
      have hq := hne q (by simp)
      rw [isChain_append] at hc
      obtain ⟨c1, c2, c3⟩ := hc
      have hrest : (q :: qs).flatten ≠ [] := by
        rw [List.flatten_cons]; simp [hq]
      obtain ⟨v, hv⟩ := Summary.exists hp
      obtain ⟨w, hw⟩ := Summary.exists hrest
      obtain ⟨outs, o1, o2⟩ := ih (fun p' h' => hne p' (List.mem_cons_of_mem _ h')) w
        ((aggregateSteps_iff _ _).mpr ⟨c2, hw⟩)
      obtain ⟨o3, o4⟩ := (aggregateSteps_iff _ _).mp o2
      refine ⟨v :: outs, ?_, ?_⟩
      · rw [List.map_cons, o1, (aggregateSteps_iff _ _).mpr ⟨c1, hv⟩]; rfl
      · rw [aggregateSteps_iff]
        refine ⟨?_, Summary.append hrest hv hw o4 hs⟩
        cases outs with
        | nil => exact isChain_singleton _
        | cons u outs =>
          rw [isChain_cons_cons]
          refine ⟨?_, o3⟩
          rw [List.map_cons, List.map_cons, List.cons.injEq] at o1
          obtain ⟨u1, u2⟩ := (aggregateSteps_iff _ _).mp o1.1
          obtain ⟨a, ha⟩ : ∃ a, p.getLast? = some a := ⟨_, List.getLast?_eq_some_getLast hp⟩
          obtain ⟨z, hz⟩ : ∃ z, q.getLast? = some z := ⟨_, List.getLast?_eq_some_getLast hq⟩
          cases q with
          | nil => exact absurd rfl hq
          | cons b q =>
            have hf := c3 a b ha rfl
            have m := u1.le_last z hz
            have k1 := hv.last
            have k2 := hv.time
            have k3 := u2.first
            have k4 := u2.time
            rw [ha] at k1 k2
            rw [hz] at k4
            simp only [Option.map_some, List.head?_cons, Option.some.injEq] at k1 k2 k3 k4
            refine ⟨by rw [← k1, hf.1, k3], ?_⟩
            rw [← k2, ← k4]
            exact Nat.le_trans hf.2 m

/-- **C30.** Whenever both ways are accepted, they give the same output. -/
theorem c30_same (parts : List (List StepValues)) (hne : ∀ p ∈ parts, p ≠ []) (out out' : StepValues)
    (outs : List StepValues) (h : aggregateSteps parts.flatten = some out)
    (ho : parts.map aggregateSteps = outs.map some) (h' : aggregateSteps outs = some out') :
    out = out' := by
  obtain ⟨outs2, h1, h2⟩ := c30_split parts hne out h
  rw [h1] at ho
  have : outs2 = outs := by
    have := congrArg (List.filterMap id) ho
    simpa using this
  subst this
  rw [h2] at h'
  exact Option.some.inj h'

/-- The converse of `c30_split` needs a condition: aggregating in parts does not compare the last timestamp of
a part with the first one of the next part, only with its last one. -/
theorem c30_merge_false :
    ∃ (parts : List (List StepValues)) (outs : List StepValues) (out : StepValues),
      (∀ p ∈ parts, p ≠ []) ∧ parts.map aggregateSteps = outs.map some ∧
      aggregateSteps outs = some out ∧ aggregateSteps parts.flatten = none :=
  ⟨[[⟨1, 2, 50, []⟩], [⟨2, 3, 40, []⟩, ⟨3, 4, 60, []⟩]], [⟨1, 2, 50, []⟩, ⟨2, 4, 60, []⟩],
    ⟨1, 4, 60, []⟩, by decide, by decide, by decide, by decide⟩

/-! ## C55: public values survive encoding and decoding -/

/-- **C55.** What one side encodes is what the other side decodes. -/
theorem c55_roundtrip (s : StepValues) (hs : s.encode.length < 2 ^ 256) :
    StepValues.decode s.encode = some s := decode_encode s hs

/-- **C55.** Different public values have different encodings. -/
theorem c55_injective (s s' : StepValues) (hs : s.encode.length < 2 ^ 256)
    (h : s.encode = s'.encode) : s = s' := by
  have h1 := decode_encode s hs
  rw [h, decode_encode s' (h ▸ hs)] at h1
  exact (Option.some.inj h1).symm

/-! ## Witnesses -/

namespace Toy
def receiptA : SolReceipt := ⟨.withdraw, .completed, BitVec.allOnes 64, Withdraw.abi ⟨alice, 5⟩⟩
def receiptB : SolReceipt := ⟨.deposit, .reverted, 3, [1, 2, 3]⟩
def stepA : StepValues := ⟨1, 2, 50, [receiptA, receiptB]⟩
def stepB : StepValues := ⟨2, 9, 50, []⟩
def stepC : StepValues := ⟨9, 4, 60, [receiptB]⟩
def aggEnv : AggEnv := ⟨kc, fun k d => decide (k.length = 8 ∧ d ≠ 0), List.replicate 8 7⟩
end Toy

/-- C29: three steps are accepted; swapping two of them, or one bad timestamp, is not. -/
example :
    aggregate Toy.aggEnv [Toy.stepA.encode, Toy.stepB.encode, Toy.stepC.encode] =
      some (StepValues.encode ⟨1, 4, 60, [Toy.receiptA, Toy.receiptB, Toy.receiptB]⟩) ∧
    aggregate Toy.aggEnv [Toy.stepA.encode, Toy.stepC.encode, Toy.stepB.encode] = none ∧
    aggregate Toy.aggEnv [Toy.stepA.encode, StepValues.encode { Toy.stepB with timestamp := 49 }] = none ∧
    aggregate Toy.aggEnv [] = none := by decide +kernel

/-- C29: one accepted STF step meets the hypotheses of `c29_one_run`. -/
example : ∃ steps out, [Toy.fsInput].map (stf Toy.envMax) = steps.map some ∧ IsChain steps ∧
    Summary steps out ∧ Toy.fs.root Toy.envMax.keccak = out.oldRoot ∧
    StfSideConditions Toy.envMax Toy.fs [Toy.fsInput] := by
  refine ⟨[_], _, by rw [List.map_singleton, Toy.fsAccepted, List.map_singleton], isChain_singleton _,
    ⟨rfl, rfl, rfl, by simp⟩, by rw [Toy.envMax_keccak], ?_⟩
  unfold StfSideConditions
  rw [Toy.envMax_keccak]
  exact ⟨Toy.fs_collisionFree _ (fun _ h => Or.inl h),
    Toy.noZero_proofs _ _ _ _ Toy.fs_trueA Toy.fs_noZero.1,
    Toy.noZero_proofs _ _ _ _ Toy.fs_trueT Toy.fs_noZero.2, fun _ _ _ => trivial⟩

/-- C30: a split accepted both ways. -/
example : aggregateSteps [[Toy.stepA], [Toy.stepB, Toy.stepC]].flatten =
    some ⟨1, 4, 60, [Toy.receiptA, Toy.receiptB, Toy.receiptB]⟩ := by decide +kernel

/-- C55: an encoding with two receipts, one of them with a padded action, and its size. -/
example : Toy.stepA.encode.length = 672 ∧ StepValues.decode Toy.stepA.encode = some Toy.stepA := by
  decide +kernel

end Verif
