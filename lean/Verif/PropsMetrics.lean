import Verif.MetricServer
/-
# Properties C100 and C102: the life of the metrics server
-/

namespace Verif.Metrics

/-- What holds at every point of every schedule. -/
structure Inv (s : State) : Prop where
  early : s.main = .start ∨ s.main = .installed ∨ s.main = .panicked → s.srv = .none ∧ s.lst = .none
  mid : s.main = .spawned ∨ s.main = .described → s.srv ≠ .none ∧ s.lst = .none
  late : s.main = .awaiting ∨ s.main = .returned true ∨ s.main = .returned false → s.srv ≠ .none ∧ s.lst ≠ .none
  ok : s.main = .returned true → s.srv = .finished
  error : s.main = .returned false → s.srv = .panicked
  installed : s.main ≠ .start → s.main ≠ .panicked → s.main ≠ .dropped → s.recorder = true
  ready : s.ready = true → s.recorder = true
  internal : s.internal = true ↔ s.lst = .done
  external : s.lst = .done → s.external = true
  stopping : s.srv = .stopping → s.internal = true
  finished : s.srv = .finished → s.failed = false → s.internal = true ∧ s.answered = s.accepted
  count : s.answered ≤ s.accepted
  unbound : s.srv = .none ∨ s.srv = .spawned ∨ s.srv = .panicked → s.accepted = 0

theorem inv_init : Inv init := by
  constructor <;> simp [init]

theorem inv_step {wants : Bool} {s s' : State} {e : Event} (h : Inv s) (hs : step wants s e = some s') : Inv s' := by
  obtain ⟨main, srv, lst, internal, external, ready, recorder, failed, accepted, answered⟩ := s
  obtain ⟨h1, h2, h3, h4, h5, h6, h7, h8, h9, h10, h11, h12, h13⟩ := h
  cases e
  all_goals
    simp only [step] at hs
    repeat' split at hs
    all_goals first
      | contradiction
      | skip
    all_goals
      obtain rfl := Option.some.inj hs
      dsimp only at *
      constructor <;> dsimp only <;> simp_all <;> first | omega | grind

theorem run_snoc (wants : Bool) (s : State) (es : List Event) (e : Event) :
    run wants s (es ++ [e]) = (step wants (run wants s es) e).getD (run wants s es) := by
  simp [run]

/-- Induction over schedules, with the history. -/
theorem run_induct {wants : Bool} {P : List Event → State → Prop} (h0 : P [] init)
    (hskip : ∀ es e s, P es s → P (es ++ [e]) s)
    (hstep : ∀ es e s s', P es s → step wants s e = some s' → P (es ++ [e]) s') (es : List Event) :
    P es (run wants init es) := by
  suffices ∀ r : List Event, P r.reverse (run wants init r.reverse) by
    have := this es.reverse
    rwa [List.reverse_reverse] at this
  intro r
  induction r with
  | nil => exact h0
  | cons e r ih =>
    rw [List.reverse_cons, run_snoc]
    cases hs : step wants (run wants init r.reverse) e with
    | none => exact hskip _ _ _ ih
    | some s' => exact hstep _ _ _ _ ih hs

theorem inv_run (wants : Bool) (es : List Event) : Inv (run wants init es) :=
  run_induct (P := fun _ s => Inv s) inv_init (fun _ _ _ h => h) (fun _ _ _ _ h hs => inv_step h hs) es

/-- What has happened. -/
structure Seen (es : List Event) (s : State) : Prop where
  external : s.external = true → .signal ∈ es
  failed : s.failed = true → .fail ∈ es
  bind : s.srv = .panicked → .bind false ∈ es
  served : s.srv = .serving ∨ s.srv = .stopping ∨ s.srv = .finished → .bind true ∈ es
  installed : s.recorder = true → .install true ∈ es

theorem seen_run (wants : Bool) (es : List Event) : Seen es (run wants init es) := by
  refine run_induct (P := Seen) (wants := wants) ?_ ?_ ?_ es
  · constructor <;> simp [init]
  · intro es e s h
    exact ⟨fun x => List.mem_append_left _ (h.external x), fun x => List.mem_append_left _ (h.failed x),
      fun x => List.mem_append_left _ (h.bind x), fun x => List.mem_append_left _ (h.served x),
      fun x => List.mem_append_left _ (h.installed x)⟩
  · intro es e s s' h hs
    obtain ⟨main, srv, lst, internal, external, ready, recorder, failed, accepted, answered⟩ := s
    obtain ⟨h1, h2, h3, h4, h5⟩ := h
    cases e
    all_goals
      simp only [step] at hs
      repeat' split at hs
      all_goals first
        | contradiction
        | skip
      all_goals
        obtain rfl := Option.some.inj hs
        constructor <;> simp_all <;> grind

/-! ## Safety -/

/-- **C100 (a clean end).** In every schedule: when `serve` returns without an error, the endpoint has ended, and every
request it accepted was answered, unless the HTTP server itself reported an error. -/
theorem c100_clean_end (wants : Bool) (es : List Event) (h : (run wants init es).main = .returned true) :
    (run wants init es).srv = .finished ∧
    (.fail ∉ es → (run wants init es).answered = (run wants init es).accepted) := by
  have hi := inv_run wants es
  refine ⟨hi.ok h, fun hf => ?_⟩
  have : (run wants init es).failed = false := by
    cases e : (run wants init es).failed with
    | false => rfl
    | true => exact (hf ((seen_run wants es).failed e)).elim
  exact (hi.finished (hi.ok h) this).2

/-- **C100 (errors).** It returns an error only if the address could not be bound, and then it never served anything. -/
theorem c100_error (wants : Bool) (es : List Event) (h : (run wants init es).main = .returned false) :
    .bind false ∈ es ∧ (run wants init es).accepted = 0 := by
  have hi := inv_run wants es
  exact ⟨(seen_run wants es).bind (hi.error h), hi.unbound (.inr (.inr (hi.error h)))⟩

/-- **C100 (no end without reason).** The endpoint stops accepting requests only after the external channel was used or
closed, or the HTTP server reported an error. In particular dropping the future of `serve` does not stop it. -/
theorem c100_no_early_stop (wants : Bool) (es : List Event)
    (h : (run wants init es).srv = .stopping ∨ (run wants init es).srv = .finished) : .signal ∈ es ∨ .fail ∈ es := by
  have hi := inv_run wants es
  have hs := seen_run wants es
  have fin : (run wants init es).internal = true → .signal ∈ es := fun x => hs.external (hi.external (hi.internal.mp x))
  rcases h with h | h
  · exact .inl (fin (hi.stopping h))
  · cases e : (run wants init es).failed with
    | false => exact .inl (fin (hi.finished h e).1)
    | true => exact .inr (hs.failed e)

/-! ## Liveness -/

/-- How many steps remain, if no request is accepted any more. -/
def left (s : State) : Nat :=
  (match s.main with | .start => 5 | .installed => 4 | .spawned => 3 | .described => 2 | .awaiting => 1 | _ => 0) +
  (match s.srv with | .none => 4 | .spawned => 3 | .serving => 2 | .stopping => 1 | _ => 0) +
  (match s.lst with | .none => 2 | .waiting => 1 | .done => 0) +
  (if s.external = true then 0 else 1) + (s.accepted - s.answered)

/-- The number of steps of a schedule that are possible when their turn comes, without those that accept a request. -/
def taken (wants : Bool) : State → List Event → Nat
  | _, [] => 0
  | s, e :: es => (if (step wants s e).isSome ∧ e ≠ .accept then 1 else 0) + taken wants ((step wants s e).getD s) es

theorem left_step {wants : Bool} {s s' : State} {e : Event} (h : Inv s) (hs : step wants s e = some s') :
    left s' + (if e = .accept then 0 else 1) ≤ left s + (if e = .accept then 1 else 0) := by
  obtain ⟨main, srv, lst, internal, external, ready, recorder, failed, accepted, answered⟩ := s
  obtain ⟨h1, h2, -, -, -, -, -, -, -, -, -, h12, -⟩ := h
  cases e
  all_goals
    simp only [step] at hs
    repeat' split at hs
    all_goals first
      | contradiction
      | skip
    all_goals
      obtain rfl := Option.some.inj hs
      simp_all [left]
      try first | omega | grind

theorem taken_le {wants : Bool} (es : List Event) : ∀ s, Inv s → taken wants s es ≤ left s + es.count .accept := by
  induction es with
  | nil => intro s _; exact Nat.zero_le _
  | cons e es ih =>
    intro s hi
    rw [List.count_cons]
    show (if _ then 1 else 0) + taken wants _ es ≤ _
    cases hs : step wants s e with
    | none =>
      have h := ih s hi
      simp only [Option.isSome_none, Option.getD_none, Bool.false_eq_true, false_and, if_false]
      omega
    | some s' =>
      have h := ih s' (inv_step hi hs)
      have := left_step hi hs
      simp only [Option.isSome_some, Option.getD_some, true_and]
      by_cases he : e = .accept
      · subst he; simp at this ⊢; omega
      · simp [he] at this ⊢; omega

/-- **C100 (it ends, 1).** No schedule, however long, takes more than twelve steps besides those that accept a request and
one for each accepted request. -/
theorem c100_bounded (wants : Bool) (es : List Event) : taken wants init es ≤ 12 + es.count .accept :=
  taken_le es init inv_init

/-- The steps of the program itself. -/
def own : List Event := [.main, .bind true, .answer, .stop, .finish, .listen]

/-- **C100 (it ends, 2).** In every schedule: once `serve` has begun, and the external channel was used or closed, some
step of the program is possible until `serve` has returned (or its future was dropped). -/
theorem c100_progress (wants : Bool) (es : List Event) (hx : (run wants init es).external = true)
    (h0 : (run wants init es).main ≠ .start) (h1 : (run wants init es).main ≠ .panicked)
    (h2 : (run wants init es).main ≠ .dropped) (h3 : ∀ b, (run wants init es).main ≠ .returned b) :
    ∃ e ∈ own, (step wants (run wants init es) e).isSome := by
  have hi := inv_run wants es
  generalize run wants init es = s at *
  obtain ⟨main, srv, lst, internal, external, ready, recorder, failed, accepted, answered⟩ := s
  obtain ⟨g1, g2, g3, g4, g5, g6, g7, g8, g9, g10, g11, g12, g13⟩ := hi
  dsimp only at *
  cases main <;> first | contradiction | skip
  · exact ⟨.main, by simp [own], rfl⟩
  · exact ⟨.main, by simp [own], rfl⟩
  · exact ⟨.main, by simp [own], rfl⟩
  · cases srv
    · exact ((g3 (.inl rfl)).1 rfl).elim
    · exact ⟨.bind true, by simp [own], rfl⟩
    · cases lst
      · exact ((g3 (.inl rfl)).2 rfl).elim
      · exact ⟨.listen, by simp [own], by simp [step, hx]⟩
      · exact ⟨.stop, by simp [own], by simp [step, g8]⟩
    · by_cases ha : answered = accepted
      · exact ⟨.finish, by simp [own], by simp [step, ha]⟩
      · exact ⟨.answer, by simp [own], by simp [step]; omega⟩
    · exact ⟨.main, by simp [own], rfl⟩
    · exact ⟨.main, by simp [own], rfl⟩
  · rename_i b; exact (h3 b rfl).elim

theorem own_step {wants : Bool} {s s' : State} {e : Event} (he : e ∈ own) (hs : step wants s e = some s')
    (hx : s.external = true) (h0 : s.main ≠ .start) (h1 : s.main ≠ .panicked) (h2 : s.main ≠ .dropped) :
    s'.external = true ∧ s'.main ≠ .start ∧ s'.main ≠ .panicked ∧ s'.main ≠ .dropped := by
  obtain ⟨main, srv, lst, internal, external, ready, recorder, failed, accepted, answered⟩ := s
  cases e
  all_goals first
    | (exfalso; revert he; decide)
    | skip
  all_goals
    simp only [step] at hs
    repeat' split at hs
    all_goals first
      | contradiction
      | skip
    all_goals
      obtain rfl := Option.some.inj hs
      simp_all

/-- **C100 (it ends, 3).** Whatever has happened: once `serve` has begun and the external channel was used or closed, at
most `left` further steps of the program make `serve` return. -/
theorem c100_can_finish (wants : Bool) (es : List Event) (hx : (run wants init es).external = true)
    (h0 : (run wants init es).main ≠ .start) (h1 : (run wants init es).main ≠ .panicked)
    (h2 : (run wants init es).main ≠ .dropped) :
    ∃ more, (∀ e ∈ more, e ∈ own) ∧ more.length ≤ left (run wants init es) ∧
      ∃ b, (run wants init (es ++ more)).main = .returned b := by
  generalize hn : left (run wants init es) = n
  induction n using Nat.strongRecOn generalizing es with
  | ind n ih =>
    by_cases h3 : ∃ b, (run wants init es).main = .returned b
    · exact ⟨[], by simp, by simp, by simpa using h3⟩
    · obtain ⟨e, he, hs⟩ := c100_progress wants es hx h0 h1 h2 (fun b hb => h3 ⟨b, hb⟩)
      obtain ⟨s', hs⟩ := Option.isSome_iff_exists.mp hs
      have hr : run wants init (es ++ [e]) = s' := by rw [run_snoc, hs]; rfl
      obtain ⟨a, b, c, d⟩ := own_step he hs hx h0 h1 h2
      have hl := left_step (inv_run wants es) hs
      have hne : e ≠ .accept := by rintro rfl; revert he; decide
      simp only [hne, if_false] at hl
      obtain ⟨more, m1, m2, m3⟩ := ih (left s') (by omega) (es ++ [e]) (by rw [hr]; exact a) (by rw [hr]; exact b)
        (by rw [hr]; exact c) (by rw [hr]; exact d) (by rw [hr])
      refine ⟨e :: more, ?_, ?_, ?_⟩
      · intro x hx
        rcases List.mem_cons.mp hx with rfl | hx
        · exact he
        · exact m1 x hx
      · simp only [List.length_cons]; omega
      · simpa using m3

theorem closed_step {wants : Bool} {s s' : State} {e : Event} (h : s.srv = .stopping ∨ s.srv = .finished)
    (hs : step wants s e = some s') (hm : s.main ≠ .start ∧ s.main ≠ .installed) :
    s'.accepted = s.accepted ∧ (s'.srv = .stopping ∨ s'.srv = .finished) ∧ s'.main ≠ .start ∧ s'.main ≠ .installed := by
  obtain ⟨main, srv, lst, internal, external, ready, recorder, failed, accepted, answered⟩ := s
  cases e
  all_goals
    simp only [step] at hs
    repeat' split at hs
    all_goals first
      | contradiction
      | skip
    all_goals
      obtain rfl := Option.some.inj hs
      simp_all

/-- **C100 (after the signal nothing new).** Once the endpoint has stopped listening, no further schedule makes it accept
a request. -/
theorem c100_closed (wants : Bool) (es more : List Event)
    (h : (run wants init es).srv = .stopping ∨ (run wants init es).srv = .finished) :
    (run wants init (es ++ more)).accepted = (run wants init es).accepted := by
  have hm : (run wants init es).main ≠ .start ∧ (run wants init es).main ≠ .installed := by
    constructor
    all_goals
      intro hm
      have := (inv_run wants es).early (by simp [hm])
      rw [this.1] at h
      simp at h
  have e : run wants init (es ++ more) = run wants (run wants init es) more := by simp [run]
  rw [e]
  clear e
  generalize run wants init es = s at *
  induction more generalizing s with
  | nil => rfl
  | cons x more ih =>
    show (run wants ((step wants s x).getD s) more).accepted = _
    cases hs : step wants s x with
    | none => exact ih s h hm
    | some s' =>
      obtain ⟨a, b, c⟩ := closed_step h hs hm
      rw [← a]
      exact ih s' b c

/-! ## The ready signal -/

/-- **C102 (ready, what holds).** The ready signal is sent only after the recorder was installed. -/
theorem c102_ready_partial (wants : Bool) (es : List Event) (h : (run wants init es).ready = true) :
    .install true ∈ es :=
  (seen_run wants es).installed ((inv_run wants es).ready h)

/-- **C102 (ready, what does not hold).** The ready signal does not mean that the server can be reached: it is sent
before the address is bound, and binding it may then fail. -/
theorem c102_ready_false : ¬ ∀ es : List Event, (run true init es).ready = true → .bind true ∈ es := by
  intro h
  exact absurd (h [.install true, .main, .main] (by decide)) (by decide)

/-! ### Witnesses -/

/-- C100: a schedule with two requests, one of them answered after the signal, and a clean end. -/
example : (run true init [.install true, .main, .main, .bind true, .accept, .main, .accept, .answer, .signal, .listen, .stop,
    .accept, .finish, .answer, .finish, .main]) =
    ⟨.returned true, .finished, .done, true, true, true, true, false, 2, 2⟩ := by decide

/-- C100: the hypotheses of `c100_progress` and `c100_can_finish`, with the signal before the listener exists. -/
example : (run true init [.install true, .signal, .main, .main, .bind true, .accept]).external = true ∧
    (run true init [.install true, .signal, .main, .main, .bind true, .accept]).main = .described ∧
    left (run true init [.install true, .signal, .main, .main, .bind true, .accept]) = 7 := by decide

/-- C100: the address is taken. -/
example : (run true init [.install true, .main, .main, .main, .bind false, .main]).main = .returned false ∧
    (run true init [.install true, .main, .main, .main, .bind false, .main]).ready = true := by decide

/-- C100: the future is dropped; the endpoint goes on until the channel is closed. -/
example : (run false init [.install true, .main, .main, .main, .bind true, .abort, .accept]).srv = .serving ∧
    (run false init [.install true, .main, .main, .main, .bind true, .abort, .accept, .signal, .listen, .stop, .answer,
      .finish]).srv = .finished := by decide

end Verif.Metrics
