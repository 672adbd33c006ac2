import Verif.Artifacts
/-
# Lemmas about the parallel download
-/

namespace Verif.Artifacts
open Verif

/-! ## Groups -/

theorem chunksGo_flatten {α : Type} {k : Nat} (hk : 0 < k) :
    ∀ (fuel : Nat) (l : List α), l.length ≤ fuel → (chunksGo k fuel l).flatten = l := by
  intro fuel
  induction fuel with
  | zero => intro l hl; cases l with
    | nil => rfl
    | cons => simp at hl
  | succ fuel ih =>
    intro l hl
    cases l with
    | nil => rfl
    | cons x xs =>
      rw [chunksGo, List.flatten_cons, ih, List.take_append_drop]
      rw [List.length_drop]; simp only [List.length_cons] at hl ⊢; omega

theorem chunksGo_ne_nil {α : Type} {k : Nat} (hk : 0 < k) :
    ∀ (fuel : Nat) (l : List α), ∀ g ∈ chunksGo k fuel l, g ≠ [] := by
  intro fuel
  induction fuel with
  | zero => intro l g hg; simp [chunksGo] at hg
  | succ fuel ih =>
    intro l g hg
    cases l with
    | nil => simp [chunksGo] at hg
    | cons x xs =>
      rw [chunksGo] at hg
      rcases List.mem_cons.mp hg with rfl | hg
      · obtain ⟨k', rfl⟩ : ∃ k', k = k' + 1 := ⟨k - 1, by omega⟩
        simp
      · exact ih _ g hg

theorem chunksGo_length {α : Type} {k : Nat} (hk : 0 < k) :
    ∀ (fuel : Nat) (l : List α), l.length ≤ fuel → (chunksGo k fuel l).length = (l.length + k - 1) / k := by
  intro fuel
  induction fuel with
  | zero => intro l hl; cases l with
    | nil =>
      rw [chunksGo, List.length_nil, List.length_nil, Nat.zero_add]
      exact (Nat.div_eq_of_lt (by omega)).symm
    | cons => simp at hl
  | succ fuel ih =>
    intro l hl
    cases l with
    | nil =>
      rw [chunksGo, List.length_nil, List.length_nil, Nat.zero_add]
      exact (Nat.div_eq_of_lt (by omega)).symm
    | cons x xs =>
      rw [chunksGo, List.length_cons, ih _ (by rw [List.length_drop]; simp only [List.length_cons] at hl ⊢; omega),
        List.length_drop]
      generalize hn : (x :: xs).length = n
      have : 0 < n := by rw [← hn]; simp
      by_cases hle : n ≤ k
      · rw [show n - k + k - 1 = k - 1 by omega, Nat.div_eq_of_lt (by omega : k - 1 < k)]
        rw [show n + k - 1 = (n - 1) + k by omega, Nat.add_div_right _ hk, Nat.div_eq_of_lt (by omega)]
      · rw [show n - k + k - 1 = n - 1 by omega, show n + k - 1 = (n - 1) + k by omega, Nat.add_div_right _ hk]

theorem groups_some {chunk size c : Nat} {gs : List (List Job)} (h : groups chunk size c = some gs) :
    0 < c ∧ 0 < (jobs chunk size).length ∧
    gs = chunks (max ((jobs chunk size).length / min c (jobs chunk size).length) 1) (jobs chunk size) := by
  unfold groups at h
  dsimp only at h
  split at h
  · exact nomatch h
  · exact ⟨by omega, by omega, (Option.some.inj h).symm⟩

theorem groups_flatten {chunk size c : Nat} {gs : List (List Job)} (h : groups chunk size c = some gs) :
    gs.flatten = jobs chunk size ∧ ∀ g ∈ gs, g ≠ [] := by
  obtain ⟨_, _, rfl⟩ := groups_some h
  exact ⟨chunksGo_flatten (by omega) _ _ (Nat.le_refl _), chunksGo_ne_nil (by omega) _ _⟩

theorem jobs_length {chunk size : Nat} : (jobs chunk size).length = (size + chunk - 1) / chunk := by
  unfold jobs; rw [List.length_map, List.length_range]

theorem lt_ceil {chunk : Nat} (hc : 0 < chunk) {size i : Nat} : i < (size + chunk - 1) / chunk ↔ i * chunk < size := by
  rw [← Nat.succ_le_iff, Nat.le_div_iff_mul_le hc, Nat.succ_mul]
  omega

theorem mem_jobs {chunk size : Nat} (hc : 0 < chunk) {j : Job} :
    j ∈ jobs chunk size ↔ j.start = j.index * chunk ∧ j.start < size := by
  unfold jobs
  rw [List.mem_map]
  constructor
  · rintro ⟨i, hi, rfl⟩
    exact ⟨rfl, (lt_ceil hc).mp (List.mem_range.mp hi)⟩
  · rintro ⟨h1, h2⟩
    refine ⟨j.index, List.mem_range.mpr ((lt_ceil hc).mpr (by omega)), ?_⟩
    cases j; simp only at h1; rw [h1]

/-! ## Pieces of the file -/

/-- The bytes of chunk `k`. -/
def piece (file : Bytes) (chunk k : Nat) : Bytes := (file.drop (k * chunk)).take chunk

theorem piece_length {file : Bytes} {chunk k : Nat} : (piece file chunk k).length = min chunk (file.length - k * chunk) := by
  unfold piece; rw [List.length_take, List.length_drop]

/-- The bytes of the requested range are the piece. -/
theorem range_piece {file : Bytes} {chunk : Nat} (hc : 0 < chunk) {j : Job} (h1 : j.start = j.index * chunk)
    (h2 : j.start < file.length) :
    (file.drop j.start).take (rangeEnd chunk file.length j + 1 - j.start) = piece file chunk j.index := by
  unfold rangeEnd piece
  rw [← h1]
  rcases Nat.le_total (j.start + chunk) file.length with h | h
  · rw [Nat.min_eq_left h, show j.start + chunk - 1 + 1 - j.start = chunk by omega]
  · rw [Nat.min_eq_right h, List.take_of_length_le, List.take_of_length_le] <;> rw [List.length_drop] <;> omega

theorem copyIn_piece {file result : Bytes} {chunk k : Nat} (hk : k * chunk < file.length)
    (hl : result.length = file.length) :
    ∃ r, copyIn chunk file.length result k (piece file chunk k) = some r ∧ r.length = file.length ∧
      ∀ b, r[b]? = (if k * chunk ≤ b ∧ b < k * chunk + chunk then file[b]? else result[b]?) := by
  have hp := piece_length (file := file) (chunk := chunk) (k := k)
  unfold copyIn
  dsimp only
  rw [if_pos (by omega)]
  refine ⟨_, rfl, ?_, ?_⟩
  · simp only [List.length_append, List.length_take, List.length_drop]; omega
  · intro b
    have hs : (result.take (k * chunk)).length = k * chunk := by rw [List.length_take]; omega
    by_cases h1 : b < k * chunk
    · rw [if_neg (by omega), List.append_assoc, List.getElem?_append_left (by omega), List.getElem?_take, if_pos h1]
    · by_cases h2 : b < k * chunk + (piece file chunk k).length
      · rw [if_pos (by omega), List.append_assoc, List.getElem?_append_right (by omega), hs,
          List.getElem?_append_left (by omega)]
        unfold piece
        rw [List.getElem?_take, if_pos (by omega), List.getElem?_drop]
        congr 1; omega
      · rw [List.append_assoc, List.getElem?_append_right (by omega), hs, List.getElem?_append_right (by omega),
          List.getElem?_drop]
        by_cases h3 : b < k * chunk + chunk
        · rw [if_pos (by omega), List.getElem?_eq_none (by omega), List.getElem?_eq_none (by omega)]
        · rw [if_neg (by omega)]; congr 1; omega

/-! ## The invariant -/

/-- All bytes of chunk `k` are in place. -/
def Placed (file : Bytes) (chunk : Nat) (result : Bytes) (k : Nat) : Prop :=
  ∀ b, k * chunk ≤ b → b < k * chunk + chunk → result[b]? = file[b]?

/-- Every chunk is still to be fetched, in the channel, or in place. -/
structure DlInv (file : Bytes) (chunk : Nat) (s : Dl) : Prop where
  len : s.result.length = file.length
  nopanic : s.panicked = false
  todo : ∀ t ∈ s.tasks, ∀ j ∈ t.todo, j.start = j.index * chunk ∧ j.start < file.length
  fin : ∀ t ∈ s.tasks, (t.status = .finished ↔ t.todo = [])
  chan : ∀ m ∈ s.chan, m.1 * chunk < file.length ∧ m.2 = piece file chunk m.1
  cover : ∀ k, k * chunk < file.length →
    (∃ t ∈ s.tasks, ∃ j ∈ t.todo, j.index = k) ∨ (∃ m ∈ s.chan, m.1 = k) ∨ Placed file chunk s.result k

theorem DlInv.init {file : Bytes} {chunk c : Nat} (hc : 0 < chunk) {gs : List (List Job)}
    (h : groups chunk file.length c = some gs) : DlInv file chunk (Dl.init file.length gs) := by
  obtain ⟨h1, h2⟩ := groups_flatten h
  refine ⟨List.length_replicate .., rfl, ?_, ?_, ?_, ?_⟩
  · intro t ht j hj
    obtain ⟨g, hg, rfl⟩ := List.mem_map.mp ht
    refine (mem_jobs hc).mp ?_
    rw [← h1]; exact List.mem_flatten.mpr ⟨g, hg, hj⟩
  · intro t ht
    obtain ⟨g, hg, rfl⟩ := List.mem_map.mp ht
    exact ⟨fun h => (nomatch h), fun h => (h2 g hg h).elim⟩
  · intro m hm; exact (List.not_mem_nil hm).elim
  · intro k hk
    have hj : (⟨k, k * chunk⟩ : Job) ∈ jobs chunk file.length := (mem_jobs hc).mpr ⟨rfl, hk⟩
    rw [← h1] at hj
    obtain ⟨g, hg, hj⟩ := List.mem_flatten.mp hj
    exact Or.inl ⟨⟨g, 0, .running⟩, List.mem_map.mpr ⟨g, hg, rfl⟩, _, hj, rfl⟩

/-- What a task step does. -/
theorem task_step {a : Answer} {t t' : Task} {m : Option (Nat × Bytes)} (h : t.step a = some (t', m)) :
    ∃ j rest, t.status = .running ∧ t.todo = j :: rest ∧
      ((∃ b, a = .ok b ∧ m = some (j.index, b) ∧ t' = ⟨rest, 0, if rest = [] then .finished else .running⟩) ∨
       (a = .bodyError ∧ m = none ∧ t' = ⟨j :: rest, t.retries, .failed⟩) ∨
       (a = .retry ∧ m = none ∧ 5 ≤ t.retries + 1 ∧ t' = ⟨j :: rest, t.retries + 1, .failed⟩) ∨
       (a = .retry ∧ m = none ∧ t.retries + 1 < 5 ∧ t' = ⟨j :: rest, t.retries + 1, .running⟩)) := by
  obtain ⟨todo, r, st⟩ := t
  unfold Task.step at h
  split at h
  · rename_i j rest h1 h2
    simp only at h1 h2
    subst h1 h2
    refine ⟨j, rest, rfl, rfl, ?_⟩
    rw [Option.some_inj] at h
    cases a with
    | ok b =>
      simp only [Prod.mk.injEq] at h
      exact Or.inl ⟨b, rfl, h.2.symm, h.1.symm⟩
    | bodyError =>
      simp only [Prod.mk.injEq] at h
      exact Or.inr (Or.inl ⟨rfl, h.2.symm, h.1.symm⟩)
    | retry =>
      dsimp only at h
      split at h
      · rename_i h5
        unfold maxRetries at h5
        simp only [Prod.mk.injEq] at h
        exact Or.inr (Or.inr (Or.inl ⟨rfl, h.2.symm, h5, h.1.symm⟩))
      · rename_i h5
        unfold maxRetries at h5
        simp only [Prod.mk.injEq] at h
        exact Or.inr (Or.inr (Or.inr ⟨rfl, h.2.symm, by dsimp only at h5 ⊢; omega, h.1.symm⟩))
  · exact nomatch h

theorem answer_step {chunk size i : Nat} {a : Answer} {s s' : Dl} (h : s.step chunk size (.answer i a) = some s') :
    s.panicked = false ∧ ∃ t t' m, s.tasks[i]? = some t ∧ t.step a = some (t', m) ∧
      s' = { s with tasks := s.tasks.set i t', chan := s.chan ++ m.toList } := by
  unfold Dl.step at h
  dsimp only at h
  split at h
  · exact nomatch h
  · rename_i hp
    refine ⟨by simpa using hp, ?_⟩
    split at h
    · exact nomatch h
    · rename_i t ht
      split at h
      · exact nomatch h
      · rename_i t' m hm
        exact ⟨t, t', m, ht, hm, (Option.some.inj h).symm⟩

theorem recv_step {chunk size : Nat} {s s' : Dl} (h : s.step chunk size .recv = some s') :
    s.panicked = false ∧ ∃ k body rest, s.chan = (k, body) :: rest ∧
      ((∃ r, copyIn chunk size s.result k body = some r ∧ s' = { s with chan := rest, result := r }) ∨
       (copyIn chunk size s.result k body = none ∧ s' = { s with panicked := true })) := by
  unfold Dl.step at h
  dsimp only at h
  split at h
  · exact nomatch h
  · rename_i hp
    refine ⟨by simpa using hp, ?_⟩
    split at h
    · exact nomatch h
    · rename_i k body rest hch
      refine ⟨k, body, rest, hch, ?_⟩
      split at h
      · rename_i hn
        exact Or.inr ⟨hn, (Option.some.inj h).symm⟩
      · rename_i r hr
        exact Or.inl ⟨r, hr, (Option.some.inj h).symm⟩

/-- The answer `a` to the current request of task `i` is not a wrong body. -/
def Truthful (file : Bytes) (chunk : Nat) (s : Dl) (e : Ev) : Prop :=
  ∀ i b t j rest, e = .answer i (.ok b) → s.tasks[i]? = some t → t.todo = j :: rest →
    b = (file.drop j.start).take (rangeEnd chunk file.length j + 1 - j.start)

theorem DlInv.step {file : Bytes} {chunk : Nat} (hc : 0 < chunk) {s s' : Dl} {e : Ev} (hi : DlInv file chunk s)
    (ht : Truthful file chunk s e) (h : s.step chunk file.length e = some s') : DlInv file chunk s' := by
  cases e with
  | answer i a =>
    obtain ⟨_, t, t', m, h1, h2, rfl⟩ := answer_step h
    have hmem : t ∈ s.tasks := List.mem_of_getElem? h1
    have hil : i < s.tasks.length := by
      rcases Nat.lt_or_ge i s.tasks.length with h | h
      · exact h
      · rw [List.getElem?_eq_none h] at h1; exact nomatch h1
    obtain ⟨j, rest, hs, hj, hcase⟩ := task_step h2
    have hjj := hi.todo t hmem j (by rw [hj]; exact List.mem_cons_self ..)
    have keep : ∀ k, (∃ t0 ∈ s.tasks, ∃ j0 ∈ t0.todo, j0.index = k) →
        (k = j.index ∨ ∃ t0 ∈ s.tasks.set i t', ∃ j0 ∈ t0.todo, j0.index = k) ∨ ¬ (∀ x ∈ rest, x ∈ t'.todo) := by
      rintro k ⟨t0, ht0, j0, hj0, rfl⟩
      by_cases hr : ∀ x ∈ rest, x ∈ t'.todo
      · refine Or.inl ?_
        obtain ⟨n, hn⟩ := List.mem_iff_getElem?.mp ht0
        by_cases hni : n = i
        · subst hni
          rw [h1] at hn
          obtain rfl := Option.some.inj hn
          rw [hj] at hj0
          rcases List.mem_cons.mp hj0 with rfl | hj0
          · exact Or.inl rfl
          · exact Or.inr ⟨t', List.mem_set hil t', j0, hr _ hj0, rfl⟩
        · refine Or.inr ⟨t0, ?_, j0, hj0, rfl⟩
          exact List.mem_iff_getElem?.mpr ⟨n, by rw [List.getElem?_set_ne (Ne.symm hni)]; exact hn⟩
      · exact Or.inr hr
    have hsub : (∀ x ∈ t'.todo, x ∈ t.todo) ∧ (∀ x ∈ rest, x ∈ t'.todo) := by
      rcases hcase with ⟨b, rfl, rfl, rfl⟩ | ⟨rfl, rfl, rfl⟩ | ⟨rfl, rfl, _, rfl⟩ | ⟨rfl, rfl, _, rfl⟩ <;> rw [hj]
      · exact ⟨fun x hx => List.mem_cons_of_mem _ hx, fun x hx => hx⟩
      all_goals exact ⟨fun x hx => hx, fun x hx => List.mem_cons_of_mem _ hx⟩
    refine ⟨hi.len, hi.nopanic, ?_, ?_, ?_, ?_⟩
    · intro t0 ht0 j0 hj0
      rcases List.mem_or_eq_of_mem_set ht0 with h | rfl
      · exact hi.todo t0 h j0 hj0
      · exact hi.todo t hmem j0 (hsub.1 j0 hj0)
    · intro t0 ht0
      rcases List.mem_or_eq_of_mem_set ht0 with h | rfl
      · exact hi.fin t0 h
      · rcases hcase with ⟨b, rfl, rfl, rfl⟩ | ⟨rfl, rfl, rfl⟩ | ⟨rfl, rfl, _, rfl⟩ | ⟨rfl, rfl, _, rfl⟩
        · dsimp only
          by_cases hr : rest = []
          · rw [if_pos hr]; exact ⟨fun _ => hr, fun _ => rfl⟩
          · rw [if_neg hr]; exact ⟨fun h => (nomatch h), fun h => (hr h).elim⟩
        all_goals exact ⟨fun h => (nomatch h), fun h => (nomatch h)⟩
    · intro m' hm'
      rcases List.mem_append.mp hm' with hx | hx
      · exact hi.chan m' hx
      · rcases hcase with ⟨b, rfl, rfl, rfl⟩ | ⟨rfl, rfl, rfl⟩ | ⟨rfl, rfl, _, rfl⟩ | ⟨rfl, rfl, _, rfl⟩
        · simp only [Option.toList_some, List.mem_singleton] at hx
          subst hx
          refine ⟨by rw [← hjj.1]; exact hjj.2, ?_⟩
          have hb := ht i b t j rest rfl h1 hj
          rw [hb, range_piece hc hjj.1 hjj.2]
        all_goals exact (List.not_mem_nil hx).elim
    · intro k hk
      dsimp only
      rcases hi.cover k hk with h | ⟨m', hm', rfl⟩ | h
      · rcases keep k h with (rfl | h) | h
        · rcases hcase with ⟨b, rfl, rfl, rfl⟩ | ⟨rfl, rfl, rfl⟩ | ⟨rfl, rfl, _, rfl⟩ | ⟨rfl, rfl, _, rfl⟩
          · exact Or.inr (Or.inl ⟨(j.index, b), List.mem_append_right _ (by simp), rfl⟩)
          all_goals exact Or.inl ⟨_, List.mem_set hil _, j, List.mem_cons_self .., rfl⟩
        · exact Or.inl h
        · exact (h hsub.2).elim
      · exact Or.inr (Or.inl ⟨m', List.mem_append_left _ hm', rfl⟩)
      · exact Or.inr (Or.inr h)
  | recv =>
    obtain ⟨_, k, body, rest, h1, h2⟩ := recv_step h
    have hm := hi.chan (k, body) (by rw [h1]; exact List.mem_cons_self ..)
    dsimp only at hm
    obtain ⟨r, hr, hrl, hrb⟩ := copyIn_piece hm.1 hi.len
    rw [hm.2, hr] at h2
    rcases h2 with ⟨r', e, rfl⟩ | ⟨e, _⟩
    · obtain rfl := Option.some.inj e
      refine ⟨hrl, hi.nopanic, hi.todo, hi.fin, fun m hm => hi.chan m (by rw [h1]; exact List.mem_cons_of_mem _ hm), ?_⟩
      intro k' hk'
      dsimp only
      rcases hi.cover k' hk' with h | ⟨m', hm', rfl⟩ | h
      · exact Or.inl h
      · rw [h1] at hm'
        rcases List.mem_cons.mp hm' with rfl | hm'
        · refine Or.inr (Or.inr fun b hb1 hb2 => ?_)
          rw [hrb, if_pos ⟨hb1, hb2⟩]
        · exact Or.inr (Or.inl ⟨m', hm', rfl⟩)
      · refine Or.inr (Or.inr fun b hb1 hb2 => ?_)
        rw [hrb]
        split
        · rfl
        · exact h b hb1 hb2
    · exact nomatch e

/-- At the end, without a failed task, the buffer is the file. -/
theorem DlInv.done {file : Bytes} {chunk : Nat} (hc : 0 < chunk) {s : Dl} (hi : DlInv file chunk s) (hf : s.final)
    (hok : ∀ t ∈ s.tasks, t.status ≠ .failed) : s.result = file := by
  refine List.ext_getElem? fun b => ?_
  rcases Nat.lt_or_ge b file.length with hb | hb
  · have h1 : b / chunk * chunk ≤ b := Nat.div_mul_le_self ..
    have h2 : b < b / chunk * chunk + chunk := by
      have := Nat.lt_mul_div_succ b hc
      rw [Nat.mul_comm, Nat.succ_mul] at this; exact this
    rcases hi.cover (b / chunk) (by omega) with ⟨t, ht, j, hj, _⟩ | ⟨m, hm, _⟩ | h
    · have h3 : t.status = .finished := by
        have := hf.2.2 t ht
        have := hok t ht
        cases hs : t.status <;> simp_all
      rw [(hi.fin t ht).mp h3] at hj
      exact (List.not_mem_nil hj).elim
    · rw [hf.2.1] at hm; exact (List.not_mem_nil hm).elim
    · exact h b h1 h2
  · rw [List.getElem?_eq_none (by rw [hi.len]; exact hb), List.getElem?_eq_none hb]

/-! ## Progress and cost -/

/-- Requests a task may still make. -/
def Task.left (t : Task) : Nat := if t.status = .running then 5 * t.todo.length - t.retries else 0

/-- Requests that may still be made. -/
def Dl.left (s : Dl) : Nat := (s.tasks.map Task.left).sum

theorem sum_set {α : Type} (f : α → Nat) : ∀ (l : List α) (i : Nat) (x y : α), l[i]? = some x →
    ((l.set i y).map f).sum + f x = (l.map f).sum + f y := by
  intro l
  induction l with
  | nil => intro i x y h; simp at h
  | cons a l ih =>
    intro i x y h
    cases i with
    | zero => simp at h; subst h; simp; omega
    | succ i =>
      rw [List.getElem?_cons_succ] at h
      have := ih i x y h
      rw [List.set_cons_succ, List.map_cons, List.sum_cons, List.map_cons, List.sum_cons]
      omega

/-- Retry counts stay below 5 while a task runs. -/
def Dl.small (s : Dl) : Prop := ∀ t ∈ s.tasks, t.status = .running → t.retries < 5 ∧ t.todo ≠ []

theorem small_step {chunk size : Nat} {s s' : Dl} {e : Ev} (h : s.step chunk size e = some s') (hs : s.small) : s'.small := by
  cases e with
  | answer i a =>
    obtain ⟨_, t, t', m, h1, h2, rfl⟩ := answer_step h
    obtain ⟨j, rest, hr, hj, hcase⟩ := task_step h2
    intro t0 ht0 hr0
    rcases List.mem_or_eq_of_mem_set ht0 with h | rfl
    · exact hs t0 h hr0
    · rcases hcase with ⟨b, rfl, rfl, rfl⟩ | ⟨rfl, rfl, rfl⟩ | ⟨rfl, rfl, _, rfl⟩ | ⟨rfl, rfl, _, rfl⟩
      · dsimp only at hr0 ⊢
        split at hr0
        · exact nomatch hr0
        · rename_i h; exact ⟨by omega, h⟩
      · exact nomatch hr0
      · exact nomatch hr0
      · exact ⟨by assumption, by simp⟩
  | recv =>
    obtain ⟨_, k, body, rest, h1, h2⟩ := recv_step h
    rcases h2 with ⟨r, _, rfl⟩ | ⟨_, rfl⟩ <;> exact hs

/-- Answers cost requests, messages are received once. -/
theorem left_step {chunk size : Nat} {s s' : Dl} {e : Ev} (h : s.step chunk size e = some s') (hs : s.small) :
    match e with
    | .answer _ _ => s'.left + 1 ≤ s.left ∧ s'.chan.length + s'.left < s.chan.length + s.left + 1
    | .recv => s'.left = s.left ∧ (s'.panicked = true ∨ s'.chan.length + 1 = s.chan.length) := by
  cases e with
  | answer i a =>
    obtain ⟨_, t, t', m, h1, h2, rfl⟩ := answer_step h
    obtain ⟨j, rest, hr, hj, hcase⟩ := task_step h2
    have hsum := sum_set Task.left s.tasks i t t' h1
    have hsm := hs t (List.mem_of_getElem? h1) hr
    have hl : t.left = 5 * (rest.length + 1) - t.retries := by
      unfold Task.left; rw [if_pos hr, hj, List.length_cons]
    have hl' : t'.left + 1 ≤ t.left ∧ m.toList.length + t'.left ≤ t.left := by
      rw [hl]
      rcases hcase with ⟨b, rfl, rfl, rfl⟩ | ⟨rfl, rfl, rfl⟩ | ⟨rfl, rfl, _, rfl⟩ | ⟨rfl, rfl, _, rfl⟩ <;>
        unfold Task.left <;> dsimp only
      · have : (if (if rest = [] then Status.finished else Status.running) = Status.running then 5 * rest.length - 0 else 0) ≤
            5 * rest.length := by split <;> split <;> omega
        simp only [Option.toList_some, List.length_singleton]
        omega
      · simp; omega
      · simp; omega
      · simp only [if_true, List.length_cons, Option.toList_none, List.length_nil]; omega
    unfold Dl.left
    dsimp only
    rw [List.length_append]
    omega
  | recv =>
    obtain ⟨_, k, body, rest, h1, h2⟩ := recv_step h
    rcases h2 with ⟨r, _, rfl⟩ | ⟨_, rfl⟩
    · exact ⟨rfl, Or.inr (by rw [h1]; rfl)⟩
    · exact ⟨rfl, Or.inl rfl⟩

theorem left_init {size : Nat} {gs : List (List Job)} : (Dl.init size gs).left = 5 * gs.flatten.length := by
  unfold Dl.left Dl.init
  dsimp only
  rw [List.map_map]
  induction gs with
  | nil => rfl
  | cons g gs ih =>
    rw [List.map_cons, List.sum_cons, ih, List.flatten_cons, List.length_append]
    simp only [Function.comp, Task.left, if_true]
    omega

/-! ## Causes of failure -/

/-- The answers task `i` got, in order. -/
def answersOf (i : Nat) : List Ev → List Answer
  | [] => []
  | .answer n a :: es => if n = i then a :: answersOf i es else answersOf i es
  | .recv :: es => answersOf i es

theorem answersOf_append (i : Nat) (a b : List Ev) : answersOf i (a ++ b) = answersOf i a ++ answersOf i b := by
  induction a with
  | nil => rfl
  | cons e a ih =>
    cases e with
    | answer n x => rw [List.cons_append, answersOf, answersOf]; split <;> rw [ih] <;> rfl
    | recv => rw [List.cons_append, answersOf, answersOf, ih]

/-- Retry counts and failures are justified by the answers. -/
def Justified (s : Dl) (past : List Ev) : Prop :=
  ∀ (i : Nat) (t : Task), s.tasks[i]? = some t →
    (t.status = .running → ∃ l, answersOf i past = l ++ List.replicate t.retries .retry) ∧
    (t.status = .failed → .bodyError ∈ answersOf i past ∨ ∃ l, answersOf i past = l ++ List.replicate 5 .retry)

theorem justified_step {chunk size : Nat} {s s' : Dl} {e : Ev} {past : List Ev} (h : s.step chunk size e = some s')
    (hs : s.small) (hj : Justified s past) : Justified s' (past ++ [e]) := by
  cases e with
  | answer i a =>
    obtain ⟨_, t, t', m, h1, h2, rfl⟩ := answer_step h
    obtain ⟨j, rest, hr, hjj, hcase⟩ := task_step h2
    intro n t0 h0
    rw [answersOf_append]
    dsimp only at h0
    by_cases hn : n = i
    · subst hn
      have hlt : n < s.tasks.length := by
        rcases Nat.lt_or_ge n s.tasks.length with h | h
        · exact h
        · rw [List.getElem?_eq_none h] at h1; exact nomatch h1
      rw [List.getElem?_set_self hlt] at h0
      obtain rfl := Option.some.inj h0
      have ea : answersOf n [.answer n a] = [a] := by simp [answersOf]
      rw [ea]
      obtain ⟨l, hl⟩ := (hj n t h1).1 hr
      have hsm := (hs t (List.mem_of_getElem? h1) hr).1
      rcases hcase with ⟨b, rfl, rfl, rfl⟩ | ⟨rfl, rfl, rfl⟩ | ⟨rfl, rfl, h5, rfl⟩ | ⟨rfl, rfl, _, rfl⟩
      · refine ⟨fun _ => ⟨_, (List.append_nil _).symm⟩, fun h => ?_⟩
        dsimp only at h
        split at h <;> exact nomatch h
      · exact ⟨fun h => (nomatch h), fun _ => Or.inl (by simp)⟩
      · refine ⟨fun h => (nomatch h), fun _ => Or.inr ⟨l, ?_⟩⟩
        have e5 : t.retries = 4 := by omega
        rw [hl, e5, List.append_assoc]
        rfl
      · refine ⟨fun _ => ⟨l, ?_⟩, fun h => (nomatch h)⟩
        rw [hl, List.append_assoc, List.replicate_succ']
    · rw [List.getElem?_set_ne (Ne.symm hn)] at h0
      have ea : answersOf n [.answer i a] = [] := by simp [answersOf, Ne.symm hn]
      rw [ea, List.append_nil]
      exact hj n t0 h0
  | recv =>
    obtain ⟨_, k, body, rest, h1, h2⟩ := recv_step h
    intro n t0 h0
    rw [answersOf_append, show answersOf n [Ev.recv] = [] from rfl, List.append_nil]
    refine hj n t0 ?_
    rcases h2 with ⟨r, _, rfl⟩ | ⟨_, rfl⟩ <;> exact h0

/-! ## The `download_raw` loop -/

theorem rawLoop_spec {ε : Type} (answer : Nat → Except ε Bytes) : ∀ (m n d : Nat), n + m = 4 →
    (∀ k, k ≤ m → (∀ i, i < k → ∃ e, answer (n + i) = .error e) → ∀ b, answer (n + k) = .ok b →
      rawLoop answer n d = ⟨.ok b, k + 1, (List.range k).map fun i => d * 2 ^ i⟩) ∧
    (∀ e, (∀ i, i ≤ m → ∃ e, answer (n + i) = .error e) → answer (n + m) = .error e →
      rawLoop answer n d = ⟨.error e, m + 1, (List.range m).map fun i => d * 2 ^ i⟩) := by
  intro m
  induction m with
  | zero =>
    intro n d hn
    refine ⟨fun k hk _ b hb => ?_, fun e _ he => ?_⟩
    · obtain rfl : k = 0 := by omega
      rw [rawLoop]; rw [Nat.add_zero] at hb; rw [hb]; rfl
    · rw [rawLoop]; rw [Nat.add_zero] at he; rw [he]
      dsimp only
      rw [if_pos (by unfold maxRetries; omega)]; rfl
  | succ m ih =>
    intro n d hn
    have hrange : ∀ k, (List.range (k + 1)).map (fun i => d * 2 ^ i) =
        d :: (List.range k).map fun i => d * 2 * 2 ^ i := by
      intro k
      rw [List.range_succ_eq_map, List.map_cons, List.map_map]
      congr 1
      · simp
      · refine List.map_congr_left fun i _ => ?_
        simp only [Function.comp, Nat.pow_succ]
        rw [Nat.mul_comm (2 ^ i), Nat.mul_assoc]
    obtain ⟨ih1, ih2⟩ := ih (n + 1) (d * 2) (by omega)
    refine ⟨fun k hk hf b hb => ?_, fun e hf he => ?_⟩
    · rw [rawLoop]
      cases k with
      | zero => rw [Nat.add_zero] at hb; rw [hb]; rfl
      | succ k =>
        obtain ⟨e, he⟩ := hf 0 (by omega)
        rw [Nat.add_zero] at he
        rw [he]
        dsimp only
        rw [if_neg (by unfold maxRetries; omega), ih1 k (by omega) (fun i hi => by
          obtain ⟨e, he⟩ := hf (i + 1) (by omega)
          exact ⟨e, by rw [← he]; congr 1; omega⟩) b (by rw [← hb]; congr 1; omega), hrange]
    · rw [rawLoop]
      obtain ⟨e0, he0⟩ := hf 0 (by omega)
      rw [Nat.add_zero] at he0
      rw [he0]
      dsimp only
      rw [if_neg (by unfold maxRetries; omega), ih2 e (fun i hi => by
          obtain ⟨e, he⟩ := hf (i + 1) (by omega)
          exact ⟨e, by rw [← he]; congr 1; omega⟩) (by rw [← he]; congr 1; omega), hrange]

/-! ## Splitting at slashes -/

theorem splitSlash_ne_nil (s : Str) : splitSlash s ≠ [] := by
  cases s with
  | nil => simp [splitSlash]
  | cons c cs =>
    rw [splitSlash]
    split
    · simp
    · split <;> simp

theorem splitSlash_plain (s : Str) (h : '/' ∉ s) : splitSlash s = [s] := by
  induction s with
  | nil => rfl
  | cons c cs ih =>
    rw [splitSlash, if_neg (fun e => h (by rw [e]; exact List.mem_cons_self ..)),
      ih (fun e => h (List.mem_cons_of_mem _ e))]

theorem splitSlash_last (a b : Str) (h : '/' ∉ b) : (splitSlash (a ++ '/' :: b)).getLast? = some b := by
  induction a with
  | nil =>
    rw [List.nil_append, splitSlash, if_pos rfl, splitSlash_plain b h]; rfl
  | cons c cs ih =>
    rw [List.cons_append, splitSlash]
    have hne : splitSlash (cs ++ '/' :: b) ≠ [] := splitSlash_ne_nil _
    cases hs : splitSlash (cs ++ '/' :: b) with
    | nil => exact (hne hs).elim
    | cons x xs =>
      rw [hs] at ih
      by_cases hc : c = '/'
      · rw [if_pos hc, List.getLast?_cons_cons]; exact ih
      · rw [if_neg hc]
        dsimp only
        cases xs with
        | nil =>
          -- only possible if there is no slash
          exfalso
          have key : ∀ s : Str, '/' ∈ s → 2 ≤ (splitSlash s).length := by
            intro s
            induction s with
            | nil => intro h; exact (List.not_mem_nil h).elim
            | cons d ds ihd =>
              intro hd
              rw [splitSlash]
              split
              · have := List.length_pos_iff.mpr (splitSlash_ne_nil ds)
                simp only [List.length_cons]; omega
              · rename_i hne
                have hd' : '/' ∈ ds := by
                  rcases List.mem_cons.mp hd with rfl | h
                  · exact (hne rfl).elim
                  · exact h
                have := ihd hd'
                split
                · rename_i h0; rw [h0] at this; simp at this
                · rename_i h0; rw [h0] at this; simpa using this
          have := key (cs ++ '/' :: b) (by simp)
          rw [hs] at this; simp at this
        | cons y ys => rw [List.getLast?_cons_cons] at ih ⊢; exact ih

/-- The part before the first slash and the rest are determined. -/
theorem slash_split {a b c d : Str} (ha : '/' ∉ a) (hc : '/' ∉ c) (h : a ++ '/' :: b = c ++ '/' :: d) : a = c ∧ b = d := by
  induction a generalizing c with
  | nil =>
    cases c with
    | nil => simp at h; exact ⟨rfl, h⟩
    | cons x xs =>
      simp only [List.nil_append, List.cons_append, List.cons.injEq] at h
      exact (hc (by rw [← h.1]; exact List.mem_cons_self ..)).elim
  | cons x xs ih =>
    cases c with
    | nil =>
      simp only [List.nil_append, List.cons_append, List.cons.injEq] at h
      exact (ha (by rw [h.1]; exact List.mem_cons_self ..)).elim
    | cons y ys =>
      simp only [List.cons_append, List.cons.injEq] at h
      obtain ⟨h1, h2⟩ := ih (fun e => ha (List.mem_cons_of_mem _ e)) (fun e => hc (List.mem_cons_of_mem _ e)) h.2
      exact ⟨by rw [h.1, h1], h2⟩

end Verif.Artifacts
