import Verif.ArtifactProofs
/-
# Properties C48 to C51: artifact downloads

Vocabulary: `groups chunk size c` are the chunk lists of the spawned tasks (`none`: panic); `Dl.init size gs` is
the state in which the tasks start; `Dl.run chunk size s es` follows the schedule `es`, in which tasks get
answers and the receiver takes messages in any order; `Dl.final` and `Dl.outcome` describe the end, where the
outcome `none` is an error.
-/

namespace Verif
open Artifacts

/-! ## C48: the parallel download -/

/-- Along the schedule, every body the server sends for a range of `file` consists of exactly the bytes of
that range. Errors are allowed at any time. -/
def Honest (file : Bytes) (chunk : Nat) : Dl → List Ev → Prop
  | _, [] => True
  | s, e :: es => Truthful file chunk s e ∧ ∀ s', s.step chunk file.length e = some s' → Honest file chunk s' es

/-- The requested ranges (first and last byte) partition the file: every byte is in exactly one of them, none
is empty or reaches beyond the end, and no chunk is requested by two tasks. -/
theorem c48_partition (file : Bytes) (chunk c : Nat) (hc : 0 < chunk) (gs : List (List Job))
    (h : groups chunk file.length c = some gs) :
    (∀ b, b < file.length → ∃ j ∈ gs.flatten, (j.start ≤ b ∧ b ≤ rangeEnd chunk file.length j) ∧
      ∀ j' ∈ gs.flatten, j'.start ≤ b ∧ b ≤ rangeEnd chunk file.length j' → j' = j) ∧
    (∀ j ∈ gs.flatten, j.start ≤ rangeEnd chunk file.length j ∧ rangeEnd chunk file.length j < file.length) ∧
    gs.flatten.Nodup := by
  rw [(groups_flatten h).1]
  refine ⟨fun b hb => ?_, fun j hj => ?_, ?_⟩
  · have h1 : b / chunk * chunk ≤ b := Nat.div_mul_le_self ..
    have h2 : b < b / chunk * chunk + chunk := by
      have := Nat.lt_mul_div_succ b hc
      rw [Nat.mul_comm, Nat.succ_mul] at this; exact this
    refine ⟨⟨b / chunk, b / chunk * chunk⟩, (mem_jobs hc).mpr ⟨rfl, by dsimp only; omega⟩,
      ⟨h1, by unfold rangeEnd; dsimp only; omega⟩, ?_⟩
    intro j' hj' ⟨hb1, hb2⟩
    obtain ⟨e1, e2⟩ := (mem_jobs hc).mp hj'
    have e3 : j'.index = b / chunk := by
      unfold rangeEnd at hb2
      have hlt : b < j'.index * chunk + chunk := by omega
      refine Nat.le_antisymm ?_ ?_
      · exact (Nat.le_div_iff_mul_le hc).mpr (by omega)
      · have : b < (j'.index + 1) * chunk := by rw [Nat.succ_mul]; exact hlt
        have := (Nat.div_lt_iff_lt_mul hc).mpr this
        omega
    cases j'
    simp only at e1 e3
    rw [e1, e3]
  · obtain ⟨_, e2⟩ := (mem_jobs hc).mp hj
    unfold rangeEnd
    omega
  · unfold jobs
    refine List.Pairwise.map _ ?_ List.nodup_range
    intro a b hab e
    exact hab (congrArg Job.index e)

/-- Whatever the order in which answers and messages arrive and however often requests are retried: if the
server never sends a wrong body, the receiver does not panic, and when all is done the result is the file,
unless some task was answered with a body error or with five errors in a row. -/
theorem c48_reassembles (file : Bytes) (chunk c : Nat) (hc : 0 < chunk) (gs : List (List Job))
    (h : groups chunk file.length c = some gs) (es : List Ev) (hh : Honest file chunk (Dl.init file.length gs) es)
    (s : Dl) (hr : (Dl.init file.length gs).run chunk file.length es = some s) :
    s.panicked = false ∧ (s.final →
      s.outcome = some file ∨
      (s.outcome = none ∧ ∃ i, .bodyError ∈ answersOf i es ∨ List.replicate 5 .retry <:+: answersOf i es)) := by
  have key : ∀ (es past : List Ev) (s0 : Dl), DlInv file chunk s0 → s0.small → Justified s0 past →
      Honest file chunk s0 es → ∀ s, s0.run chunk file.length es = some s →
      DlInv file chunk s ∧ Justified s (past ++ es) := by
    intro es
    induction es with
    | nil =>
      intro past s0 h1 _ h3 _ s hs
      obtain rfl := Option.some.inj hs
      rw [List.append_nil]; exact ⟨h1, h3⟩
    | cons e es ih =>
      intro past s0 h1 h2 h3 h4 s hs
      rw [Dl.run] at hs
      split at hs
      · exact nomatch hs
      · rename_i s1 hs1
        have := ih (past ++ [e]) s1 (h1.step hc h4.1 hs1) (small_step hs1 h2) (justified_step hs1 h2 h3) (h4.2 s1 hs1) s hs
        rwa [List.append_assoc] at this
  have hsmall : (Dl.init file.length gs).small := by
    intro t ht _
    obtain ⟨g, hg, rfl⟩ := List.mem_map.mp ht
    exact ⟨by dsimp only; omega, (groups_flatten h).2 g hg⟩
  have hjust : Justified (Dl.init file.length gs) [] := by
    intro i t ht
    obtain ⟨g, hg, rfl⟩ := List.mem_map.mp (List.mem_of_getElem? ht)
    exact ⟨fun _ => ⟨[], rfl⟩, fun h => (nomatch h)⟩
  obtain ⟨hi, hj⟩ := key es [] _ (DlInv.init hc h) hsmall hjust hh s hr
  refine ⟨hi.nopanic, fun hf => ?_⟩
  by_cases hfail : ∃ t ∈ s.tasks, t.status = .failed
  · obtain ⟨t, ht, hst⟩ := hfail
    refine Or.inr ⟨?_, ?_⟩
    · unfold Dl.outcome
      rw [if_pos (List.any_eq_true.mpr ⟨t, ht, by rw [hst]; rfl⟩)]
    · obtain ⟨i, hi'⟩ := List.mem_iff_getElem?.mp ht
      refine ⟨i, ((hj i t hi').2 hst).imp id ?_⟩
      rintro ⟨l, hl⟩
      rw [List.nil_append] at hl
      exact ⟨l, [], by rw [hl, List.append_nil]⟩
  · refine Or.inl ?_
    unfold Dl.outcome
    rw [if_neg, hi.done hc hf (fun t ht e => hfail ⟨t, ht, e⟩)]
    intro hany
    obtain ⟨t, ht, e⟩ := List.any_eq_true.mp hany
    exact hfail ⟨t, ht, by simpa using e⟩

/-- The event is the answer to a request. -/
def _root_.Verif.Artifacts.Ev.isAnswer : Ev → Bool
  | .answer _ _ => true
  | .recv => false

/-- Every schedule comes to an end: at most five requests are made for each chunk, and as long as the download
is not final (and the receiver has not panicked) something can happen. -/
theorem c48_terminates (chunk size c : Nat) (gs : List (List Job)) (h : groups chunk size c = some gs) (es : List Ev) (s : Dl)
    (hr : (Dl.init size gs).run chunk size es = some s) :
    (es.filter Ev.isAnswer).length ≤ 5 * (jobs chunk size).length ∧
    es.length ≤ 10 * (jobs chunk size).length + 1 ∧
    (s.panicked = true ∨ s.final ∨ ∃ e s', s.step chunk size e = some s') := by
  have key : ∀ (es : List Ev) (s0 : Dl), s0.small → ∀ s, s0.run chunk size es = some s →
      s.small ∧ (es.filter Ev.isAnswer).length + s.left ≤ s0.left ∧
      (s0.panicked = true → es = []) ∧ es.length ≤ 2 * s0.left + s0.chan.length + 1 := by
    intro es
    induction es with
    | nil =>
      intro s0 h1 s hs
      obtain rfl := Option.some.inj hs
      exact ⟨h1, by simp, fun _ => rfl, by simp⟩
    | cons e es ih =>
      intro s0 h1 s hs
      rw [Dl.run] at hs
      split at hs
      · exact nomatch hs
      · rename_i s1 hs1
        obtain ⟨i1, i2, i3, i4⟩ := ih s1 (small_step hs1 h1) s hs
        have hl := left_step hs1 h1
        cases e with
        | answer i a =>
          have hp := (answer_step hs1).1
          dsimp only at hl
          rw [List.filter_cons_of_pos (by rfl), List.length_cons, List.length_cons]
          exact ⟨i1, by omega, fun h => by rw [hp] at h; exact (nomatch h), by omega⟩
        | recv =>
          have hp := (recv_step hs1).1
          dsimp only at hl
          rw [List.filter_cons_of_neg (by simp [Ev.isAnswer]), List.length_cons]
          refine ⟨i1, by omega, fun h => by rw [hp] at h; exact (nomatch h), ?_⟩
          rcases hl.2 with hl2 | hl2
          · rw [i3 hl2]; simp
          · omega
  have hsmall : (Dl.init size gs).small := by
    intro t ht _
    obtain ⟨g, hg, rfl⟩ := List.mem_map.mp ht
    exact ⟨by dsimp only; omega, (groups_flatten h).2 g hg⟩
  obtain ⟨k1, k2, _, k4⟩ := key es _ hsmall s hr
  rw [left_init, (groups_flatten h).1] at k2 k4
  refine ⟨by omega, by simp only [Dl.init, List.length_nil] at k4; omega, ?_⟩
  by_cases hp : s.panicked = true
  · exact Or.inl hp
  have hp' : s.panicked = false := by simpa using hp
  by_cases hrun : ∃ t ∈ s.tasks, t.status = .running
  · obtain ⟨t, ht, hst⟩ := hrun
    obtain ⟨i, hi⟩ := List.mem_iff_getElem?.mp ht
    have hne := (k1 t ht hst).2
    refine Or.inr (Or.inr ⟨.answer i .bodyError, ?_⟩)
    unfold Dl.step
    dsimp only
    rw [hp', if_neg (by simp), hi]
    obtain ⟨todo, r, st⟩ := t
    dsimp only at hst hne ⊢
    subst hst
    cases todo with
    | nil => exact (hne rfl).elim
    | cons j rest => exact ⟨_, rfl⟩
  · cases hch : s.chan with
    | nil => exact Or.inr (Or.inl ⟨hp', hch, fun t ht e => hrun ⟨t, ht, e⟩⟩)
    | cons m rest =>
      refine Or.inr (Or.inr ⟨.recv, ?_⟩)
      unfold Dl.step
      dsimp only
      rw [hp', if_neg (by simp), hch]
      obtain ⟨k, body⟩ := m
      dsimp only
      split <;> exact ⟨_, rfl⟩

/-- When the two downloads go parallel: the length is known and above one chunk. With a concurrency of at
least 1 they do not panic, with 0 they do. -/
theorem c48_plan (size : Nat) (c : Nat) (hs : CHUNK_SIZE < size) :
    (0 < c → ∃ gs, groups CHUNK_SIZE size c = some gs ∧ s3Plan (some size) (some c) = .parallel size gs ∧
      httpsPlan true true (some size) (some c) = .parallel size gs) ∧
    s3Plan (some size) (some 0) = .panic ∧ httpsPlan true true (some size) (some 0) = .panic := by
  have hch : 0 < CHUNK_SIZE := by decide
  have hj : 0 < (jobs CHUNK_SIZE size).length := by rw [jobs_length]; exact (lt_ceil hch).mpr (by omega)
  have e1 : ¬ ((size : Int) ≤ 0) := by omega
  have e2 : ¬ (size ≤ CHUNK_SIZE) := by omega
  have hg0 : groups CHUNK_SIZE size 0 = none := by
    unfold groups
    dsimp only
    rw [if_pos (Nat.zero_min _)]
  refine ⟨fun hc => ?_, ?_, ?_⟩
  · have hg : ∃ gs, groups CHUNK_SIZE size c = some gs := by
      unfold groups
      dsimp only
      rw [if_neg (by omega)]
      exact ⟨_, rfl⟩
    obtain ⟨gs, hg⟩ := hg
    refine ⟨gs, hg, ?_, ?_⟩
    · unfold s3Plan
      dsimp only [Int.toNat_natCast]
      rw [if_neg e1, if_neg e2]
      rw [show (some c).getD DEFAULT_CONCURRENCY = c from rfl, hg]
    · unfold httpsPlan
      dsimp only
      rw [if_neg (by simp), if_neg e2, show (some c).getD DEFAULT_CONCURRENCY = c from rfl, hg]
  · unfold s3Plan
    dsimp only [Int.toNat_natCast]
    rw [if_neg e1, if_neg e2, show (some 0).getD DEFAULT_CONCURRENCY = 0 from rfl, hg0]
  · unfold httpsPlan
    dsimp only
    rw [if_neg (by simp), if_neg e2, show (some 0).getD DEFAULT_CONCURRENCY = 0 from rfl, hg0]

/-- When the downloads do not go parallel: an HTTPS file is fetched as a whole if the server does not offer ranges, does
not tell the length, or the file is at most one chunk; an S3 object if it is at most one chunk. Without metadata, and
for an S3 object without content, the download fails. -/
theorem c48_whole (c : Option Nat) :
    (∀ range len, range = false ∨ len = none ∨ (∃ n, len = some n ∧ n ≤ CHUNK_SIZE) → httpsPlan true range len c = .whole) ∧
    (∀ n : Nat, 0 < n → n ≤ CHUNK_SIZE → s3Plan (some n) c = .whole) ∧
    (∀ range len, httpsPlan false range len c = .error) ∧ s3Plan none c = .error ∧ ∀ n : Int, n ≤ 0 → s3Plan (some n) c = .error := by
  refine ⟨fun range len h => ?_, fun n h0 h => ?_, fun _ _ => rfl, rfl, fun n h => ?_⟩
  · unfold httpsPlan
    rw [if_neg (by simp)]
    cases range with
    | false => rfl
    | true =>
      cases len with
      | none => rfl
      | some n =>
        dsimp only
        rcases h with h | h | ⟨m, h, hm⟩
        · exact nomatch h
        · exact nomatch h
        · cases h; rw [if_pos hm]
  · unfold s3Plan
    dsimp only [Int.toNat_natCast]
    rw [if_neg (by omega), if_pos h]
  · unfold s3Plan
    dsimp only
    rw [if_pos h]

/-- A body that is too short is not noticed: the missing bytes are zero in the result. (The property assumes
exact answers; this shows that the assumption is needed.) -/
theorem c48_short_body_unnoticed : ∃ (file : Bytes) (gs : List (List Job)) (es : List Ev) (s : Dl) (r : Bytes),
    groups 4 file.length 2 = some gs ∧ (Dl.init file.length gs).run 4 file.length es = some s ∧ s.final ∧
    s.outcome = some r ∧ r ≠ file := by
  refine ⟨[1, 2, 3, 4, 5, 6], [[⟨0, 0⟩], [⟨1, 4⟩]],
    [.answer 1 (.ok [5, 6]), .recv, .answer 0 (.ok [1, 2, 3]), .recv],
    ⟨[⟨[], 0, .finished⟩, ⟨[], 0, .finished⟩], [], [1, 2, 3, 0, 5, 6], false⟩, [1, 2, 3, 0, 5, 6], by decide, rfl,
    ⟨rfl, rfl, by decide⟩, rfl, by decide⟩

-- a file of 6 bytes in chunks of 4, two tasks, an error in between, the second chunk first
example : ∃ s, groups 4 6 2 = some [[⟨0, 0⟩], [⟨1, 4⟩]] ∧
    (Dl.init 6 [[⟨0, 0⟩], [⟨1, 4⟩]]).run 4 6
      [.answer 0 .retry, .answer 1 (.ok [5, 6]), .recv, .answer 0 (.ok [1, 2, 3, 4]), .recv] = some s ∧
    s.final ∧ s.outcome = some [1, 2, 3, 4, 5, 6] :=
  ⟨⟨[⟨[], 0, .finished⟩, ⟨[], 0, .finished⟩], [], [1, 2, 3, 4, 5, 6], false⟩, by decide, rfl, ⟨rfl, rfl, by decide⟩, rfl⟩

-- the same schedule is honest
example : Honest [1, 2, 3, 4, 5, 6] 4 (Dl.init 6 [[⟨0, 0⟩], [⟨1, 4⟩]])
    [.answer 0 .retry, .answer 1 (.ok [5, 6]), .recv, .answer 0 (.ok [1, 2, 3, 4]), .recv] := by
  refine ⟨?_, ?_⟩
  · intro i b t j rest h; exact nomatch h
  intro s hs; obtain rfl := Option.some.inj hs
  refine ⟨?_, ?_⟩
  · intro i b t j rest h ht hj
    simp only [Ev.answer.injEq, Answer.ok.injEq] at h
    obtain ⟨rfl, rfl⟩ := h
    obtain rfl := Option.some.inj ht
    simp only [List.cons.injEq] at hj
    obtain ⟨rfl, rfl⟩ := hj
    rfl
  intro s hs; obtain rfl := Option.some.inj hs
  refine ⟨fun i b t j rest h => (nomatch h), ?_⟩
  intro s hs; obtain rfl := Option.some.inj hs
  refine ⟨?_, ?_⟩
  · intro i b t j rest h ht hj
    simp only [Ev.answer.injEq, Answer.ok.injEq] at h
    obtain ⟨rfl, rfl⟩ := h
    obtain rfl := Option.some.inj ht
    simp only [List.cons.injEq] at hj
    obtain ⟨rfl, rfl⟩ := hj
    rfl
  intro s hs; obtain rfl := Option.some.inj hs
  exact ⟨fun i b t j rest h => (nomatch h), fun _ _ => trivial⟩

/-! ## C49: the concurrency limit

The property is false of the code. -/

/-- A file of five chunks with a concurrency of three is downloaded by five tasks at the same time. -/
theorem c49_false : ∃ gs, groups CHUNK_SIZE (5 * CHUNK_SIZE) 3 = some gs ∧
    ((Dl.init (5 * CHUNK_SIZE) gs).tasks.filter (fun t => t.status = .running)).length = 5 := by
  refine ⟨[[⟨0, 0⟩], [⟨1, CHUNK_SIZE⟩], [⟨2, 2 * CHUNK_SIZE⟩], [⟨3, 3 * CHUNK_SIZE⟩], [⟨4, 4 * CHUNK_SIZE⟩]],
    by decide +kernel, by simp [Dl.init]⟩

/-- What holds: fewer than twice as many tasks as requested are spawned, and never more than there are chunks;
there are exactly the requested number if it divides the number of chunks. -/
theorem c49_bound_partial (chunk size c : Nat) (gs : List (List Job)) (h : groups chunk size c = some gs) :
    gs.length ≤ 2 * c - 1 ∧ gs.length ≤ (jobs chunk size).length ∧
    (c ∣ (jobs chunk size).length → gs.length = c) := by
  obtain ⟨h1, h2, h3⟩ := groups_some h
  generalize hn : (jobs chunk size).length = n at *
  have hlen : gs.length = (n + max (n / min c n) 1 - 1) / max (n / min c n) 1 := by
    rw [h3]; unfold chunks
    rw [chunksGo_length (by omega) _ _ (Nat.le_refl _), hn]
  have hm : 0 < min c n := by omega
  have hq : max (n / min c n) 1 = n / min c n := by
    have : 1 ≤ n / min c n := (Nat.le_div_iff_mul_le hm).mpr (by omega)
    omega
  rw [hq] at hlen
  generalize hk : min c n = k at *
  have hq1 : 1 ≤ n / k := by omega
  have hdm := Nat.div_add_mod n k
  have hml := Nat.mod_lt n hm
  generalize hqq : n / k = q at *
  refine ⟨?_, ?_, ?_⟩
  · have : gs.length ≤ 2 * k - 1 := by
      rw [hlen]
      refine Nat.le_of_lt_succ ((Nat.div_lt_iff_lt_mul (by omega)).mpr ?_)
      have h5 : (k - 1) * 1 ≤ (k - 1) * q := Nat.mul_le_mul_left _ hq1
      have h6 : (2 * k - 1).succ * q = k * q + (k - 1) * q + q := by
        rw [show (2 * k - 1).succ = k + (k - 1) + 1 by omega, Nat.add_mul, Nat.add_mul]; omega
      omega
    omega
  · rw [hlen]
    refine Nat.le_of_lt_succ ((Nat.div_lt_iff_lt_mul (by omega)).mpr ?_)
    have : n * 1 ≤ n * q := Nat.mul_le_mul_left _ hq1
    rw [Nat.succ_mul]
    omega
  · rintro ⟨d, hd⟩
    have hdp : 0 < d := Nat.pos_of_ne_zero fun e => by subst e; omega
    have hck : k = c := by
      have : c * 1 ≤ c * d := Nat.mul_le_mul_left _ hdp
      omega
    subst hck
    have hqd : q = d := by
      rw [← hqq, hd, Nat.mul_div_cancel_left _ hm]
    rw [hlen, hqd, hd, show k * d + d - 1 = (d - 1) + k * d by omega, Nat.add_mul_div_right _ _ hdp,
      Nat.div_eq_of_lt (by omega)]
    omega

-- nine tasks for the limit of five
example : (groups 1 9 5).map List.length = some 9 ∧ (groups 1 10 5).map List.length = some 5 := by decide

/-! ## C50: `download_raw` -/

/-- If the first success is the `k`-th attempt (counting from 0) and `k ≤ 4`, it is returned after `k + 1`
attempts; if the first five attempts fail, the fifth error is returned. The sleeps are 1, 2, 4, ... seconds,
one between every two attempts. -/
theorem c50_download_raw {ε : Type} (answer : Nat → Except ε Bytes) :
    (∀ k b, k ≤ 4 → (∀ i, i < k → ∃ e, answer i = .error e) → answer k = .ok b →
      downloadRaw answer = ⟨.ok b, k + 1, (List.range k).map fun i => 2 ^ i⟩) ∧
    (∀ e, (∀ i, i < 4 → ∃ e, answer i = .error e) → answer 4 = .error e →
      downloadRaw answer = ⟨.error e, 5, [1, 2, 4, 8]⟩) := by
  obtain ⟨h1, h2⟩ := rawLoop_spec answer 4 0 1 rfl
  refine ⟨fun k b hk hf hb => ?_, fun e hf he => ?_⟩
  · have := h1 k hk (fun i hi => by rw [Nat.zero_add]; exact hf i hi) b (by rw [Nat.zero_add]; exact hb)
    unfold downloadRaw
    rw [this]
    simp only [Nat.one_mul]
  · have := h2 e (fun i hi => by
      rw [Nat.zero_add]
      rcases Nat.lt_or_eq_of_le hi with h | rfl
      · exact hf i h
      · exact ⟨e, he⟩) (by rw [Nat.zero_add]; exact he)
    unfold downloadRaw
    rw [this]
    rfl

/-- So there are never more than five attempts and 15 seconds of sleep. -/
theorem c50_bounds {ε : Type} (answer : Nat → Except ε Bytes) :
    1 ≤ (downloadRaw answer).attempts ∧ (downloadRaw answer).attempts ≤ 5 ∧
    (downloadRaw answer).sleeps.length + 1 = (downloadRaw answer).attempts ∧ (downloadRaw answer).sleeps.sum ≤ 15 := by
  obtain ⟨h1, h2⟩ := c50_download_raw answer
  have small : ∀ k, k ≤ 4 → (((List.range k).map fun i => 2 ^ i).sum ≤ 15) := by decide
  have go : ∀ k, k ≤ 4 → (∀ i, i < k → ∃ e, answer i = .error e) →
      (∃ b, answer k = .ok b) ∨ (∃ k' b, k < k' ∧ k' ≤ 4 ∧ (∀ i, i < k' → ∃ e, answer i = .error e) ∧ answer k' = .ok b) ∨
      (∀ i, i ≤ 4 → ∃ e, answer i = .error e) := by
    intro k hk
    induction hm : 4 - k generalizing k with
    | zero =>
      intro hf
      obtain rfl : k = 4 := by omega
      cases ha : answer 4 with
      | ok b => exact Or.inl ⟨b, rfl⟩
      | error e =>
        refine Or.inr (Or.inr fun i hi => ?_)
        rcases Nat.lt_or_eq_of_le hi with h | rfl
        · exact hf i h
        · exact ⟨e, ha⟩
    | succ m ih =>
      intro hf
      cases ha : answer k with
      | ok b => exact Or.inl ⟨b, rfl⟩
      | error e =>
        have hf' : ∀ i, i < k + 1 → ∃ e, answer i = .error e := by
          intro i hi
          rcases Nat.lt_or_eq_of_le (Nat.le_of_lt_succ hi) with h | rfl
          · exact hf i h
          · exact ⟨e, ha⟩
        rcases ih (k + 1) (by omega) (by omega) hf' with ⟨b, hb⟩ | ⟨k', b, q1, q2, q3, q4⟩ | h
        · exact Or.inr (Or.inl ⟨k + 1, b, by omega, by omega, hf', hb⟩)
        · exact Or.inr (Or.inl ⟨k', b, by omega, q2, q3, q4⟩)
        · exact Or.inr (Or.inr h)
  have done : ∀ k b, k ≤ 4 → (∀ i, i < k → ∃ e, answer i = .error e) → answer k = .ok b →
      1 ≤ (downloadRaw answer).attempts ∧ (downloadRaw answer).attempts ≤ 5 ∧
      (downloadRaw answer).sleeps.length + 1 = (downloadRaw answer).attempts ∧ (downloadRaw answer).sleeps.sum ≤ 15 := by
    intro k b hk hf hb
    rw [h1 k b hk hf hb]
    have := small k hk
    exact ⟨by dsimp only; omega, by dsimp only; omega, by simp, this⟩
  rcases go 0 (by omega) (fun i hi => absurd hi (by omega)) with ⟨b, hb⟩ | ⟨k', b, _, q2, q3, q4⟩ | h
  · exact done 0 b (by omega) (fun i hi => absurd hi (by omega)) hb
  · exact done k' b q2 q3 q4
  · obtain ⟨e, he⟩ := h 4 (by omega)
    rw [h2 e (fun i hi => h i (by omega)) he]
    exact ⟨by dsimp only; omega, by dsimp only; omega, rfl, (by decide : [1, 2, 4, 8].sum ≤ 15)⟩

-- success at the third attempt; five failures
example : (downloadRaw (fun i => if i < 2 then .error i else .ok [7])).result.toOption = some [7] ∧
    (downloadRaw (fun i => if i < 2 then .error i else .ok [7])).attempts = 3 ∧
    (downloadRaw (fun i => if i < 2 then .error i else .ok [7])).sleeps = [1, 2] ∧
    (downloadRaw (fun i => (.error i : Except Nat Bytes))).attempts = 5 := by
  decide +kernel

/-! ## C51: keys and names -/

/-- Keys determine kind and id, for all ids. -/
theorem c51_key_injective (t t' : ArtifactType) (id id' : Str) (h : s3Key t id = s3Key t' id') : t = t' ∧ id = id' := by
  have hp : ∀ t, '/' ∉ s3Prefix t := by intro t; cases t <;> decide
  obtain ⟨h1, h2⟩ := slash_split (hp t) (hp t') h
  refine ⟨?_, h2⟩
  cases t <;> cases t' <;> first | rfl | exact absurd h1 (by decide)

/-- The name in a URI that ends in the key is the id, if the id has no slash; name extraction never fails. -/
theorem c51_name (base : Str) (t : ArtifactType) (id : Str) (h : '/' ∉ id) :
    extractArtifactName (base ++ '/' :: s3Key t id) = some id := by
  unfold extractArtifactName s3Key
  rw [show base ++ '/' :: (s3Prefix t ++ '/' :: id) = (base ++ '/' :: s3Prefix t) ++ '/' :: id by simp]
  exact splitSlash_last _ _ h

/-- Name extraction never fails. -/
theorem c51_total (url : Str) : ∃ name, extractArtifactName url = some name ∧ '/' ∉ name := by
  unfold extractArtifactName
  by_cases h : '/' ∈ url
  · -- split at the last slash
    have : ∃ a b, url = a ++ '/' :: b ∧ '/' ∉ b := by
      induction url with
      | nil => exact (List.not_mem_nil h).elim
      | cons c cs ih =>
        by_cases hcs : '/' ∈ cs
        · obtain ⟨a, b, rfl, hb⟩ := ih hcs
          exact ⟨c :: a, b, rfl, hb⟩
        · rcases List.mem_cons.mp h with rfl | h
          · exact ⟨[], cs, rfl, hcs⟩
          · exact (hcs h).elim
    obtain ⟨a, b, rfl, hb⟩ := this
    exact ⟨b, splitSlash_last a b hb, hb⟩
  · rw [splitSlash_plain url h]
    exact ⟨url, rfl, h⟩

-- an id with a slash loses its first part
example : extractArtifactName "s3://bucket/artifacts/artifact_01j9".toList = some "artifact_01j9".toList ∧
    s3Key .stdin "a".toList ≠ s3Key .privateStdin "a".toList ∧
    extractArtifactName (s3Key .proof "a/b".toList) = some "b".toList := by
  decide +kernel

end Verif
