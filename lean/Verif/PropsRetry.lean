import Verif.Retry
/-
# C54: the RPC retry policy
-/

namespace Verif.Retry

/-! ## Specification -/

/-- Calling `op` once per attempt in the list, from `s`, ends in `s'`. -/
inductive Calls {σ α : Type} (op : σ → Attempt α × σ) : σ → List (Attempt α) → σ → Prop
  | nil (s) : Calls op s [] s
  | cons {s a s1 as s2} : op s = (a, s1) → Calls op s1 as s2 → Calls op s (a :: as) s2

/-- The classes the property calls transient: four status codes, or a text (in lower case) that contains one of
eight phrases. -/
def TransientClass (lower : Str → Str) (e : RpcError) : Prop :=
  (∃ c, e = .status c ∧ c ∈ [Code.unavailable, .deadlineExceeded, .internal, .aborted]) ∨
  (∃ msg, e = .other msg ∧ ∃ p ∈ ["tls handshake", "dns error", "connection reset", "broken pipe",
    "transport error", "failed to lookup", "timeout", "deadline exceeded"], p.toList <:+: lower msg)

/-- The interval before the `n`-th repetition: one second, growing by half each time, at most two minutes. -/
def interval : Nat → Nat
  | 0 => 1000
  | n + 1 => min 120000 (interval n * 3 / 2)

/-- Time from the start of the first call to the end of the `n`-th one (counted from 0), for pauses `ps`. -/
def elapsedAfter {α : Type} (as : List (Attempt α)) (ps : List Nat) (n : Nat) : Nat :=
  ((as.take (n + 1)).map Attempt.took).sum + (ps.take n).sum

/-! ## Lemmas -/

theorem startsWith_iff (s p : Str) : startsWith s p = true ↔ p <+: s := by
  induction p generalizing s with
  | nil => cases s <;> simp [startsWith]
  | cons d p ih =>
    cases s with
    | nil => simp [startsWith]
    | cons c s =>
      simp only [startsWith, Bool.and_eq_true, beq_iff_eq, ih, List.cons_prefix_cons]
      exact ⟨fun h => ⟨h.1.symm, h.2⟩, fun h => ⟨h.1.symm, h.2⟩⟩

theorem contains_iff (s p : Str) : contains s p = true ↔ p <:+: s := by
  induction s with
  | nil => simp [contains, startsWith_iff]
  | cons c s ih =>
    simp only [contains, Bool.or_eq_true, startsWith_iff, ih, List.infix_cons_iff]

theorem interval_ge (n : Nat) : 1000 ≤ interval n := by
  induction n with
  | zero => exact Nat.le_refl _
  | succ n ih => simp only [interval]; omega

theorem interval_succ (n : Nat) : interval (n + 1) = nextInterval (interval n) := by
  have hm : maxInterval = 120000 := rfl
  simp only [interval, nextInterval]
  generalize interval n = k
  by_cases h : k * 3 ≥ maxInterval * 2
  · rw [if_pos h]; omega
  · rw [if_neg h]; omega

theorem isTransient_iff (lower : Str → Str) (e : RpcError) :
    isTransient lower e = true ↔ TransientClass lower e := by
  cases e with
  | status c =>
    constructor
    · intro h
      refine .inl ⟨c, rfl, ?_⟩
      cases c <;> first | decide | (exact absurd h (by simp [isTransient]))
    · rintro (⟨c', hc, hm⟩ | ⟨m, hm, _⟩)
      · cases hc
        cases c <;> first | rfl | (exact absurd hm (by decide))
      · cases hm
  | other msg =>
    simp only [isTransient, transientTexts, List.any_eq_true, contains_iff]
    constructor
    · rintro ⟨p, hp, h⟩
      refine .inr ⟨msg, rfl, ?_⟩
      simp only [List.mem_cons, List.not_mem_nil, or_false] at hp
      rcases hp with rfl | rfl | rfl | rfl | rfl | rfl | rfl | rfl <;>
        exact ⟨_, by simp, h⟩
    · rintro (⟨c', hc, _⟩ | ⟨m, hm, p, hp, h⟩)
      · cases hc
      · cases hm
        simp only [List.mem_cons, List.not_mem_nil, or_false] at hp
        rcases hp with rfl | rfl | rfl | rfl | rfl | rfl | rfl | rfl <;>
          exact ⟨_, by simp, h⟩

theorem elapsedAfter_succ {α : Type} (a : Attempt α) (as : List (Attempt α)) (p : Nat) (ps : List Nat) (i : Nat) :
    elapsedAfter (a :: as) (p :: ps) (i + 1) = a.took + p + elapsedAfter as ps i := by
  simp only [elapsedAfter, List.take_succ_cons, List.map_cons, List.sum_cons]
  omega

theorem elapsedAfter_zero {α : Type} (a : Attempt α) (as : List (Attempt α)) (ps : List Nat) :
    elapsedAfter (a :: as) ps 0 = a.took := by
  simp [elapsedAfter]

theorem pause_bounds (cur j : Nat) : cur / 2 ≤ pause cur j ∧ pause cur j ≤ cur / 2 + cur := by
  have : j % (cur + 1) < cur + 1 := Nat.mod_lt j (Nat.succ_pos cur)
  unfold pause; omega

theorem retryLoop_last {σ α : Type} (lower : Str → Str) (op : σ → Attempt α × σ) (budget e0 cur : Nat)
    (hc : 1000 ≤ cur) (s s1 : σ) (a : Attempt α) (hop : op s = (a, s1))
    (h : ∀ e, a.result = .err e → isTransient lower e = true →
      nextBackoff budget (e0 + a.took) cur a.jitter = none) :
    retryLoop lower op budget e0 cur hc s = (a.result, s1) := by
  rw [retryLoop, hop]
  dsimp only
  split
  · next hr => rw [hr]
  · next hr => rw [hr]
  · next e hr =>
    split
    · next ht =>
      split
      · next p hp => rw [h e hr ht] at hp; cases hp
      · rw [hr]
    · rw [hr]

theorem retryLoop_again {σ α : Type} (lower : Str → Str) (op : σ → Attempt α × σ) (budget e0 cur : Nat)
    (hc : 1000 ≤ cur) (s s1 : σ) (a : Attempt α) (hop : op s = (a, s1)) (e : RpcError)
    (hr : a.result = .err e) (ht : isTransient lower e = true) (p : Nat)
    (hp : nextBackoff budget (e0 + a.took) cur a.jitter = some p) :
    retryLoop lower op budget e0 cur hc s =
      retryLoop lower op budget (e0 + a.took + p) (nextInterval cur) (nextInterval_ge hc) s1 := by
  rw [retryLoop, hop]
  dsimp only
  split
  · next hr' => rw [hr] at hr'; cases hr'
  · next hr' => rw [hr] at hr'; cases hr'
  · next e' hr' =>
    rw [hr] at hr'
    cases hr'
    rw [if_pos ht]
    split
    · next p' hp' => rw [hp] at hp'; cases hp'; rfl
    · next hp' => rw [hp] at hp'; cases hp'

theorem retryLoop_spec {σ α : Type} (lower : Str → Str) (op : σ → Attempt α × σ) (budget : Nat) :
    ∀ (m e0 k cur : Nat) (hc : 1000 ≤ cur) (s : σ), cur = interval k → budget + 1 - e0 < m →
    ∃ init last ps s', Calls op s (init ++ [last]) s' ∧
      retryLoop lower op budget e0 cur hc s = (last.result, s') ∧
      (∀ a ∈ init, ∃ e, a.result = .err e ∧ TransientClass lower e) ∧
      ps.length = init.length ∧
      (∀ (i p : Nat), ps[i]? = some p → interval (k + i) / 2 ≤ p ∧ p ≤ interval (k + i) / 2 + interval (k + i) ∧
        e0 + elapsedAfter (init ++ [last]) ps i + p ≤ budget) ∧
      (∀ e, last.result = .err e → TransientClass lower e →
        ∃ p, interval (k + init.length) / 2 ≤ p ∧
          p ≤ interval (k + init.length) / 2 + interval (k + init.length) ∧
          budget < e0 + elapsedAfter (init ++ [last]) ps init.length + p) := by
  intro m
  induction m with
  | zero => intro e0 k cur hc s _ hm; omega
  | succ m ih =>
    intro e0 k cur hc s hk hm
    obtain ⟨a, s1⟩ : Attempt α × σ := op s
    generalize hop : op s = r
    obtain ⟨a, s1⟩ := r
    have hone : ∀ h : (∀ e, a.result = .err e → isTransient lower e = true →
        nextBackoff budget (e0 + a.took) cur a.jitter = none), _ :=
      fun h => retryLoop_last lower op budget e0 cur hc s s1 a hop h
    by_cases hstop : ∀ e, a.result = .err e → isTransient lower e = true →
        nextBackoff budget (e0 + a.took) cur a.jitter = none
    · refine ⟨[], a, [], s1, .cons hop (.nil _), hone hstop, by simp, rfl, by simp, ?_⟩
      intro e he ht
      have hn := hstop e he ((isTransient_iff _ _).2 ht)
      have hb := pause_bounds cur a.jitter
      refine ⟨pause cur a.jitter, ?_, ?_, ?_⟩
      · rw [List.length_nil, Nat.add_zero, ← hk]; exact hb.1
      · rw [List.length_nil, Nat.add_zero, ← hk]; exact hb.2
      · rw [List.nil_append, List.length_nil, elapsedAfter_zero]
        unfold nextBackoff at hn
        split at hn
        · omega
        · split at hn
          · cases hn
          · omega
    · have ⟨e, he⟩ := Classical.not_forall.1 hstop
      have ⟨hr, he⟩ := Classical.not_imp.1 he
      have ⟨ht, hne⟩ := Classical.not_imp.1 he
      obtain ⟨p, hp⟩ := Option.ne_none_iff_exists'.1 hne
      have hps := nextBackoff_some hp
      have hb := pause_bounds cur a.jitter
      rw [← hps.1] at hb
      obtain ⟨init, last, ps, s', hcalls, hres, hinit, hlen, hpause, hlast⟩ :=
        ih (e0 + a.took + p) (k + 1) (nextInterval cur) (nextInterval_ge hc) s1
          (by rw [hk, interval_succ]) (by omega)
      refine ⟨a :: init, last, p :: ps, s', .cons hop hcalls, ?_, ?_, by simp [hlen], ?_, ?_⟩
      · rw [retryLoop_again lower op budget e0 cur hc s s1 a hop e hr ht p hp, hres]
      · intro b hb
        rcases List.mem_cons.1 hb with rfl | hb
        · exact ⟨e, hr, (isTransient_iff _ _).1 ht⟩
        · exact hinit b hb
      · intro i q hq
        cases i with
        | zero =>
          simp only [List.getElem?_cons_zero, Option.some.injEq] at hq
          subst hq
          rw [List.cons_append, elapsedAfter_zero, Nat.add_zero, ← hk]
          exact ⟨hb.1, hb.2, hps.2⟩
        | succ i =>
          rw [List.getElem?_cons_succ] at hq
          have := hpause i q hq
          rw [List.cons_append, elapsedAfter_succ, show k + (i + 1) = k + 1 + i by omega]
          exact ⟨this.1, this.2.1, by omega⟩
      · intro e' he' ht'
        obtain ⟨q, h1, h2, h3⟩ := hlast e' he' ht'
        refine ⟨q, ?_, ?_, ?_⟩
        · rw [List.length_cons, show k + (init.length + 1) = k + 1 + init.length by omega]; exact h1
        · rw [List.length_cons, show k + (init.length + 1) = k + 1 + init.length by omega]; exact h2
        · rw [List.cons_append, List.length_cons, elapsedAfter_succ]; omega

/-! ## C54 -/

/-- Whatever the answers, a retried RPC makes a finite sequence of calls and returns the outcome of the last one.
Every earlier call failed with a transient error, so the first success and the first permanent error end the
sequence. Between calls it pauses for half to one and a half times the interval, and only if the pause ends within
the budget. If the last call failed with a transient error the next pause would have ended after the budget. -/
theorem c54_policy {σ α : Type} (lower : Str → Str) (op : σ → Attempt α × σ) (budget : Nat) (s : σ) :
    ∃ init last ps s', Calls op s (init ++ [last]) s' ∧
      retryOperation lower op budget s = (last.result, s') ∧
      (∀ a ∈ init, ∃ e, a.result = .err e ∧ TransientClass lower e) ∧
      ps.length = init.length ∧
      (∀ (i p : Nat), ps[i]? = some p → interval i / 2 ≤ p ∧ p ≤ interval i / 2 + interval i ∧
        elapsedAfter (init ++ [last]) ps i + p ≤ budget) ∧
      (∀ e, last.result = .err e → TransientClass lower e →
        ∃ p, interval init.length / 2 ≤ p ∧ p ≤ interval init.length / 2 + interval init.length ∧
          budget < elapsedAfter (init ++ [last]) ps init.length + p) := by
  have h := retryLoop_spec lower op budget (budget + 2) 0 0 initialInterval (by decide) s rfl (by omega)
  simp only [Nat.zero_add] at h
  exact h

/-- A success or a permanent error of the first call is returned at once, after that single call. -/
theorem c54_first_call {σ α : Type} (lower : Str → Str) (op : σ → Attempt α × σ) (budget : Nat) (s s1 : σ)
    (a : Attempt α) (hop : op s = (a, s1)) (h : ∀ e, a.result = .err e → ¬TransientClass lower e) :
    retryOperation lower op budget s = (a.result, s1) := by
  refine retryLoop_last lower op budget 0 initialInterval (by decide) s s1 a hop ?_
  intro e he ht
  exact absurd ((isTransient_iff _ _).1 ht) (h e he)

/-- Pauses of at least half an interval that end within two minutes are at most 240. -/
theorem pauses_bound {α : Type} (as : List (Attempt α)) (ps : List Nat)
    (hp : ∀ (i p : Nat), ps[i]? = some p → interval i / 2 ≤ p ∧ p ≤ interval i / 2 + interval i ∧
        elapsedAfter as ps i + p ≤ defaultBudget) : ps.length ≤ 240 := by
  have key : ∀ n, n ≤ ps.length → 500 * n ≤ (ps.take n).sum := by
    intro n
    induction n with
    | zero => simp
    | succ n ih =>
      intro hn
      have hlt : n < ps.length := by omega
      have hget : ps[n]? = some ps[n] := List.getElem?_eq_getElem hlt
      have h1 := (hp n _ hget).1
      have h2 := interval_ge n
      rw [List.take_add_one, hget, List.sum_append]
      have := ih (by omega)
      simp only [Option.toList, List.sum_cons, List.sum_nil]
      omega
  by_cases h0 : ps.length = 0
  · omega
  · have hlt : ps.length - 1 < ps.length := by omega
    have hget : ps[ps.length - 1]? = some ps[ps.length - 1] := List.getElem?_eq_getElem hlt
    have h3 := hp _ _ hget
    have h1 := key (ps.length - 1) (by omega)
    have h2 := interval_ge (ps.length - 1)
    unfold elapsedAfter defaultBudget at h3
    omega

/-- With the default budget of two minutes there are at most 241 calls. -/
theorem c54_bounded {σ α : Type} (lower : Str → Str) (op : σ → Attempt α × σ) (s : σ) :
    ∃ as s', Calls op s as s' ∧ as.length ≤ 241 ∧
      ∃ last, as.getLast? = some last ∧ retryOperation lower op defaultBudget s = (last.result, s') := by
  obtain ⟨init, last, ps, s', hc, hr, _, hl, hp, _⟩ := c54_policy lower op defaultBudget s
  refine ⟨_, _, hc, ?_, last, by simp, hr⟩
  have := pauses_bound _ ps hp
  rw [List.length_append, List.length_singleton]
  omega

/-! ## Witnesses -/

/-- A scripted server: answers in turn, each call taking one second; afterwards it is unavailable. -/
def scripted (l : List (Outcome Nat)) : Attempt Nat × List (Outcome Nat) :=
  match l with
  | [] => (⟨.err (.status .unavailable), 1000, 0⟩, [])
  | o :: l => (⟨o, 1000, 0⟩, l)

/-- A retried call against the scripted server. -/
def runScript (l : List (Outcome Nat)) : Outcome Nat × List (Outcome Nat) :=
  retryOperation id scripted defaultBudget l

/-- Two transient failures, then a success: the success is returned and the fourth answer is never asked for. -/
example : runScript [.err (.status .aborted), .err (.other "dns error: no such host".toList), .ok 7, .ok 8] =
    (.ok 7, [.ok 8]) := by
  unfold runScript retryOperation
  refine (retryLoop_again id scripted _ _ _ _ _ _ ⟨.err (.status .aborted), 1000, 0⟩ rfl _ rfl (by decide) 500
    (by decide)).trans ?_
  refine (retryLoop_again id scripted _ _ _ _ _ _ ⟨.err (.other "dns error: no such host".toList), 1000, 0⟩ rfl _ rfl
    (by decide) 750 (by decide)).trans ?_
  exact retryLoop_last id scripted _ _ _ _ _ _ ⟨.ok 7, 1000, 0⟩ rfl (fun e h => by cases h)

/-- A permanent error is returned at once. -/
example : runScript [.err (.status .notFound), .ok 8] = (.err (.status .notFound), [.ok 8]) :=
  c54_first_call id scripted defaultBudget _ _ ⟨.err (.status .notFound), 1000, 0⟩ rfl (by
    intro e he ht
    cases he
    rcases ht with ⟨c, hc, hm⟩ | ⟨m, hm, _⟩
    · cases hc; exact absurd hm (by decide)
    · cases hm)

end Verif.Retry
