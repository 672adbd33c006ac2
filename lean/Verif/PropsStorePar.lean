import Verif.PropsStore
/-
# Property C80: the parallel download of an object that is replaced meanwhile
-/

namespace Verif
open Artifacts

/-! ## Specification -/

/-- As long as the run lasts, the object is one of the versions `V` or missing. -/
def VersionsDuring (V : Bytes → Prop) (b k : Str) (chunk size : Nat) (d : Dl) (s : Store) (ts : List ParTurn) : Prop :=
  ∀ ts1 ts2 d1 s1, ts = ts1 ++ ts2 → parRun b k chunk size d s ts1 = some (d1, s1) → ∀ x, s1 b k = some x → V x

/-- The bytes of chunk `i` in `r` are those in `v`. -/
def SameChunk (chunk i : Nat) (r v : Bytes) : Prop :=
  ∀ n, i * chunk ≤ n → n < i * chunk + chunk → r[n]? = v[n]?

/-! ## Lemmas -/

namespace Artifacts

/-- Every chunk is still to be fetched, in the channel, or in place, in some version. -/
structure VInv (V : Bytes → Prop) (chunk size : Nat) (s : Dl) : Prop where
  len : s.result.length = size
  nopanic : s.panicked = false
  todo : ∀ t ∈ s.tasks, ∀ j ∈ t.todo, j.start = j.index * chunk ∧ j.start < size
  fin : ∀ t ∈ s.tasks, (t.status = .finished ↔ t.todo = [])
  chan : ∀ m ∈ s.chan, m.1 * chunk < size ∧ ∃ v, V v ∧ m.2 = piece v chunk m.1
  cover : ∀ k, k * chunk < size →
    (∃ t ∈ s.tasks, ∃ j ∈ t.todo, j.index = k) ∨ (∃ m ∈ s.chan, m.1 = k) ∨ ∃ v, V v ∧ SameChunk chunk k s.result v

theorem VInv.init {V : Bytes → Prop} {chunk size c : Nat} (hc : 0 < chunk) {gs : List (List Job)}
    (h : groups chunk size c = some gs) : VInv V chunk size (Dl.init size gs) := by
  have hi := DlInv.init (file := List.replicate size 0) hc (by rw [List.length_replicate]; exact h)
  rw [List.length_replicate] at hi
  refine ⟨List.length_replicate, rfl, fun t ht j hj => ?_, hi.fin, fun m hm => (nomatch hm), fun k hk => ?_⟩
  · have := hi.todo t ht j hj
    rwa [List.length_replicate] at this
  · obtain ⟨h1, _⟩ := groups_flatten h
    have : (⟨k, k * chunk⟩ : Job) ∈ gs.flatten := by rw [h1]; exact (mem_jobs hc).mpr ⟨rfl, hk⟩
    obtain ⟨g, hg, hj⟩ := List.mem_flatten.mp this
    exact Or.inl ⟨⟨g, 0, .running⟩, List.mem_map.mpr ⟨g, hg, rfl⟩, _, hj, rfl⟩

/-- The body sent to task `i`, if any, is the requested range of a version. -/
def VTruthful (V : Bytes → Prop) (chunk size : Nat) (s : Dl) (e : Ev) : Prop :=
  ∀ i b t j rest, e = .answer i (.ok b) → s.tasks[i]? = some t → t.todo = j :: rest →
    ∃ v, V v ∧ b = (v.drop j.start).take (rangeEnd chunk size j + 1 - j.start)

theorem VInv.step {V : Bytes → Prop} {chunk size : Nat} (hc : 0 < chunk) (hV : ∀ v, V v → v.length = size) {s s' : Dl} {e : Ev}
    (hi : VInv V chunk size s) (ht : VTruthful V chunk size s e) (h : s.step chunk size e = some s') :
    VInv V chunk size s' := by
  cases e with
  | answer i a =>
    obtain ⟨_, t, t', m, h1, h2, rfl⟩ := answer_step h
    have hmem : t ∈ s.tasks := List.mem_of_getElem? h1
    have hil : i < s.tasks.length := by
      rcases Nat.lt_or_ge i s.tasks.length with h | h
      · exact h
      · rw [List.getElem?_eq_none h] at h1; exact nomatch h1
    obtain ⟨j, rest, hs, hj, hcase⟩ := task_step h2
    have hjj := hi.todo t hmem j (by rw [hj]; exact List.mem_cons_self ..)
    have keep : ∀ k, (∃ t0 ∈ s.tasks, ∃ j0 ∈ t0.todo, j0.index = k) →
        (k = j.index ∨ ∃ t0 ∈ s.tasks.set i t', ∃ j0 ∈ t0.todo, j0.index = k) ∨ ¬ (∀ x ∈ rest, x ∈ t'.todo) := by
      rintro k ⟨t0, ht0, j0, hj0, rfl⟩
      by_cases hr : ∀ x ∈ rest, x ∈ t'.todo
      · refine Or.inl ?_
        obtain ⟨n, hn⟩ := List.mem_iff_getElem?.mp ht0
        by_cases hni : n = i
        · subst hni
          rw [h1] at hn
          obtain rfl := Option.some.inj hn
          rw [hj] at hj0
          rcases List.mem_cons.mp hj0 with rfl | hj0
          · exact Or.inl rfl
          · exact Or.inr ⟨t', List.mem_set hil t', j0, hr _ hj0, rfl⟩
        · refine Or.inr ⟨t0, ?_, j0, hj0, rfl⟩
          exact List.mem_iff_getElem?.mpr ⟨n, by rw [List.getElem?_set_ne (Ne.symm hni)]; exact hn⟩
      · exact Or.inr hr
    have hsub : (∀ x ∈ t'.todo, x ∈ t.todo) ∧ (∀ x ∈ rest, x ∈ t'.todo) := by
      rcases hcase with ⟨b, rfl, rfl, rfl⟩ | ⟨rfl, rfl, rfl⟩ | ⟨rfl, rfl, _, rfl⟩ | ⟨rfl, rfl, _, rfl⟩ <;> rw [hj]
      · exact ⟨fun x hx => List.mem_cons_of_mem _ hx, fun x hx => hx⟩
      all_goals exact ⟨fun x hx => hx, fun x hx => List.mem_cons_of_mem _ hx⟩
    refine ⟨hi.len, hi.nopanic, ?_, ?_, ?_, ?_⟩
    · intro t0 ht0 j0 hj0
      rcases List.mem_or_eq_of_mem_set ht0 with h | rfl
      · exact hi.todo t0 h j0 hj0
      · exact hi.todo t hmem j0 (hsub.1 j0 hj0)
    · intro t0 ht0
      rcases List.mem_or_eq_of_mem_set ht0 with h | rfl
      · exact hi.fin t0 h
      · rcases hcase with ⟨b, rfl, rfl, rfl⟩ | ⟨rfl, rfl, rfl⟩ | ⟨rfl, rfl, _, rfl⟩ | ⟨rfl, rfl, _, rfl⟩
        · dsimp only
          by_cases hr : rest = []
          · rw [if_pos hr]; exact ⟨fun _ => hr, fun _ => rfl⟩
          · rw [if_neg hr]; exact ⟨fun h => (nomatch h), fun h => (hr h).elim⟩
        all_goals exact ⟨fun h => (nomatch h), fun h => (nomatch h)⟩
    · intro m' hm'
      rcases List.mem_append.mp hm' with hx | hx
      · exact hi.chan m' hx
      · rcases hcase with ⟨b, rfl, rfl, rfl⟩ | ⟨rfl, rfl, rfl⟩ | ⟨rfl, rfl, _, rfl⟩ | ⟨rfl, rfl, _, rfl⟩
        · simp only [Option.toList_some, List.mem_singleton] at hx
          subst hx
          refine ⟨by rw [← hjj.1]; exact hjj.2, ?_⟩
          obtain ⟨v, hv, hb⟩ := ht i b t j rest rfl h1 hj
          refine ⟨v, hv, ?_⟩
          have := hV v hv
          subst this
          rw [hb, range_piece hc hjj.1 hjj.2]
        all_goals exact (List.not_mem_nil hx).elim
    · intro k hk
      dsimp only
      rcases hi.cover k hk with h | ⟨m', hm', rfl⟩ | h
      · rcases keep k h with (rfl | h) | h
        · rcases hcase with ⟨b, rfl, rfl, rfl⟩ | ⟨rfl, rfl, rfl⟩ | ⟨rfl, rfl, _, rfl⟩ | ⟨rfl, rfl, _, rfl⟩
          · exact Or.inr (Or.inl ⟨(j.index, b), List.mem_append_right _ (by simp), rfl⟩)
          all_goals exact Or.inl ⟨_, List.mem_set hil _, j, List.mem_cons_self .., rfl⟩
        · exact Or.inl h
        · exact (h hsub.2).elim
      · exact Or.inr (Or.inl ⟨m', List.mem_append_left _ hm', rfl⟩)
      · exact Or.inr (Or.inr h)
  | recv =>
    obtain ⟨_, k, body, rest, h1, h2⟩ := recv_step h
    obtain ⟨hk, v, hv, hm⟩ := hi.chan (k, body) (by rw [h1]; exact List.mem_cons_self ..)
    dsimp only at hm hk
    have hvl := hV v hv
    subst hvl
    obtain ⟨r, hr, hrl, hrb⟩ := copyIn_piece hk hi.len
    rw [hm, hr] at h2
    rcases h2 with ⟨r', e, rfl⟩ | ⟨e, _⟩
    · obtain rfl := Option.some.inj e
      refine ⟨hrl, hi.nopanic, hi.todo, hi.fin, fun m hm => hi.chan m (by rw [h1]; exact List.mem_cons_of_mem _ hm), ?_⟩
      intro k' hk'
      dsimp only
      have hplaced : k' = k → ∃ v, V v ∧ SameChunk chunk k' r v := by
        rintro rfl
        refine ⟨v, hv, fun b hb1 hb2 => ?_⟩
        rw [hrb, if_pos ⟨hb1, hb2⟩]
      rcases hi.cover k' hk' with h | ⟨m', hm', rfl⟩ | ⟨v', hv', h⟩
      · exact Or.inl h
      · rw [h1] at hm'
        rcases List.mem_cons.mp hm' with rfl | hm'
        · exact Or.inr (Or.inr (hplaced rfl))
        · exact Or.inr (Or.inl ⟨m', hm', rfl⟩)
      · by_cases hkk : k' = k
        · exact Or.inr (Or.inr (hplaced hkk))
        · refine Or.inr (Or.inr ⟨v', hv', fun b hb1 hb2 => ?_⟩)
          rw [hrb, if_neg, h b hb1 hb2]
          rintro ⟨hb3, hb4⟩
          rcases Nat.lt_or_gt_of_ne hkk with hlt | hlt
          · have := Nat.mul_le_mul_right chunk (Nat.succ_le_of_lt hlt)
            rw [Nat.succ_mul] at this
            omega
          · have := Nat.mul_le_mul_right chunk (Nat.succ_le_of_lt hlt)
            rw [Nat.succ_mul] at this
            omega
    · exact nomatch e

theorem VInv.run {V : Bytes → Prop} {b k : Str} {chunk size : Nat} (hc : 0 < chunk) (hV : ∀ v, V v → v.length = size) :
    ∀ {ts : List ParTurn} {d d' : Dl} {s s' : Store}, VInv V chunk size d → VersionsDuring V b k chunk size d s ts →
      parRun b k chunk size d s ts = some (d', s') → VInv V chunk size d' := by
  intro ts
  induction ts with
  | nil =>
    intro d d' s s' hi _ h
    obtain ⟨rfl, rfl⟩ := Prod.mk.inj (Option.some.inj (show some (d, s) = some (d', s') from h))
    exact hi
  | cons t ts ih =>
    intro d d' s s' hi hv h
    cases t with
    | other q l =>
      refine ih hi (fun ts1 ts2 d1 s1 e hr => ?_) (show parRun b k chunk size d (serve s q l).2 ts = _ from h)
      exact hv (.other q l :: ts1) ts2 d1 s1 (by rw [e]; rfl) hr
    | recv =>
      have h : (match d.step chunk size .recv with
        | none => none
        | some d' => parRun b k chunk size d' s ts) = some (d', s') := h
      cases hd : d.step chunk size .recv with
      | none => rw [hd] at h; exact nomatch h
      | some d1 =>
        rw [hd] at h
        refine ih (hi.step hc hV (fun i b t j rest e => by cases e) hd) (fun ts1 ts2 d2 s1 e hr => ?_) h
        refine hv (.recv :: ts1) ts2 d2 s1 (by rw [e]; rfl) ?_
        show (match d.step chunk size .recv with
          | none => none
          | some d' => parRun b k chunk size d' s ts1) = some (d2, s1)
        rw [hd]; exact hr
    | chunk i l =>
      have h : (match (d.tasks[i]?).bind fun t => t.todo.head? with
        | none => none
        | some j => match d.step chunk size (.answer i (rangeAnswer s b k chunk size j l)) with
          | none => none
          | some d' => parRun b k chunk size d' s ts) = some (d', s') := h
      cases hj : (d.tasks[i]?).bind fun t => t.todo.head? with
      | none => rw [hj] at h; exact nomatch h
      | some j =>
        rw [hj] at h
        dsimp only at h
        cases hd : d.step chunk size (.answer i (rangeAnswer s b k chunk size j l)) with
        | none => rw [hd] at h; exact nomatch h
        | some d1 =>
          rw [hd] at h
          refine ih (hi.step hc hV ?_ hd) (fun ts1 ts2 d2 s1 e hr => ?_) h
          · intro i' body t j' rest e ht hjt
            obtain ⟨rfl, ea⟩ := Ev.answer.inj e
            rw [ht, Option.bind_some, hjt] at hj
            obtain rfl := Option.some.inj hj
            cases l with
            | fine =>
              simp only [rangeAnswer] at ea
              cases hs : s b k with
              | none => rw [hs] at ea; exact nomatch ea
              | some x =>
                rw [hs] at ea
                dsimp only at ea
                split at ea
                · exact ⟨x, hv [] _ d s rfl rfl x hs, (Answer.ok.inj ea).symm⟩
                · exact nomatch ea
            | cut =>
              simp only [rangeAnswer] at ea
              cases hs : s b k with
              | none => rw [hs] at ea; exact nomatch ea
              | some x =>
                rw [hs] at ea
                dsimp only at ea
                split at ea <;> exact nomatch ea
            | refused => exact nomatch (show Answer.retry = Answer.ok body from ea)
            | lost => exact nomatch (show Answer.retry = Answer.ok body from ea)
          · refine hv (.chunk i l :: ts1) ts2 d2 s1 (by rw [e]; rfl) ?_
            show (match (d.tasks[i]?).bind fun t => t.todo.head? with
              | none => none
              | some j => match d.step chunk size (.answer i (rangeAnswer s b k chunk size j l)) with
                | none => none
                | some d' => parRun b k chunk size d' s ts1) = some (d2, s1)
            rw [hj]
            dsimp only
            rw [hd]
            exact hr

/-- If the object is a version at the start and everybody puts only versions, it is a version all the time. -/
theorem versions_of_puts {V : Bytes → Prop} {b k : Str} {chunk size : Nat} : ∀ {ts : List ParTurn} {d : Dl} {s : Store},
    (∀ x, s b k = some x → V x) → (∀ x l, ParTurn.other (.put b k x) l ∈ ts → V x) → VersionsDuring V b k chunk size d s ts := by
  intro ts d s hs hp ts1
  induction ts1 generalizing ts d s with
  | nil =>
    intro ts2 d1 s1 _ hr x hx
    obtain ⟨rfl, rfl⟩ := Prod.mk.inj (Option.some.inj (show some (d, s) = some (d1, s1) from hr))
    exact hs x hx
  | cons t ts1 ih =>
    rintro ts2 d1 s1 rfl hr
    have hp' : ∀ x l, ParTurn.other (.put b k x) l ∈ ts1 ++ ts2 → V x := fun x l h => hp x l (List.mem_cons_of_mem _ h)
    cases t with
    | other q l =>
      refine ih (d := d) (s := (serve s q l).2) (fun x hx => ?_) hp' ts2 d1 s1 rfl hr
      cases q with
      | head b' k' => rw [serve_head_store] at hx; exact hs x hx
      | get b' k' => rw [serve_get_store] at hx; exact hs x hx
      | put b' k' y =>
        by_cases he : b = b' ∧ k = k'
        · obtain ⟨rfl, rfl⟩ := he
          have hy := hp y l List.mem_cons_self
          cases l with
          | fine => rw [show (serve s (.put b k y) .fine).2 b k = some y from set_self] at hx; cases hx; exact hy
          | lost => rw [show (serve s (.put b k y) .lost).2 b k = some y from set_self] at hx; cases hx; exact hy
          | refused => exact hs x hx
          | cut => exact hs x hx
        · rw [serve_keeps (by rintro b1 k1 z e; cases e; exact he)] at hx
          exact hs x hx
    | recv =>
      have hr : (match d.step chunk size .recv with
        | none => none
        | some d' => parRun b k chunk size d' s ts1) = some (d1, s1) := hr
      cases hd : d.step chunk size .recv with
      | none => rw [hd] at hr; exact nomatch hr
      | some d2 => rw [hd] at hr; exact ih hs hp' ts2 d1 s1 rfl hr
    | chunk i l =>
      have hr : (match (d.tasks[i]?).bind fun t => t.todo.head? with
        | none => none
        | some j => match d.step chunk size (.answer i (rangeAnswer s b k chunk size j l)) with
          | none => none
          | some d' => parRun b k chunk size d' s ts1) = some (d1, s1) := hr
      cases hj : (d.tasks[i]?).bind fun t => t.todo.head? with
      | none => rw [hj] at hr; exact nomatch hr
      | some j =>
        rw [hj] at hr
        dsimp only at hr
        cases hd : d.step chunk size (.answer i (rangeAnswer s b k chunk size j l)) with
        | none => rw [hd] at hr; exact nomatch hr
        | some d2 => rw [hd] at hr; exact ih hs hp' ts2 d1 s1 rfl hr

end Artifacts

/-! ## C80 -/

/-- C80, what does hold: while all versions of the object have the length first seen, the download does not panic, and
if it succeeds, each chunk of the result is that of a version which the object had during the download. Missing from
the full property: that it is the same version for all chunks. -/
theorem c80_chunks_partial (V : Bytes → Prop) (b k : Str) (chunk size c : Nat) (hc : 0 < chunk) (hV : ∀ v, V v → v.length = size)
    (gs : List (List Job)) (hg : groups chunk size c = some gs) (s s' : Store) (ts : List ParTurn) (d : Dl)
    (hv : VersionsDuring V b k chunk size (Dl.init size gs) s ts)
    (h : parRun b k chunk size (Dl.init size gs) s ts = some (d, s')) :
    d.panicked = false ∧ (d.final → d.outcome = none ∨ ∃ r, d.outcome = some r ∧ r.length = size ∧
      ∀ i, i * chunk < size → ∃ v, V v ∧ SameChunk chunk i r v) := by
  have hi := VInv.run hc hV (VInv.init hc hg) hv h
  refine ⟨hi.nopanic, fun hf => ?_⟩
  unfold Dl.outcome
  split
  · exact Or.inl rfl
  · rename_i hok
    refine Or.inr ⟨_, rfl, hi.len, fun i hik => ?_⟩
    rcases hi.cover i hik with ⟨t, ht, j, hj, _⟩ | ⟨m, hm, _⟩ | h
    · have h3 : t.status = .finished := by
        have h1 := hf.2.2 t ht
        have h2 : t.status ≠ .failed := fun e => hok (List.any_eq_true.mpr ⟨t, ht, by rw [e]; rfl⟩)
        cases hs : t.status with
        | running => exact absurd hs h1
        | failed => exact absurd hs h2
        | finished => rfl
      rw [(hi.fin t ht).mp h3] at hj
      exact (List.not_mem_nil hj).elim
    · rw [hf.2.1] at hm; exact (List.not_mem_nil hm).elim
    · exact h

/-- C80: so if the object is not replaced meanwhile, a successful download returns it. -/
theorem c80_unchanged_partial (file : Bytes) (b k : Str) (chunk c : Nat) (hc : 0 < chunk) (gs : List (List Job))
    (hg : groups chunk file.length c = some gs) (s s' : Store) (ts : List ParTurn) (d : Dl)
    (hv : VersionsDuring (· = file) b k chunk file.length (Dl.init file.length gs) s ts)
    (h : parRun b k chunk file.length (Dl.init file.length gs) s ts = some (d, s')) (hf : d.final) :
    d.outcome = none ∨ d.outcome = some file := by
  rcases (c80_chunks_partial (· = file) b k chunk file.length c hc (fun v e => by rw [e]) gs hg s s' ts d hv h).2 hf with
    h | ⟨r, hr, hl, hch⟩
  · exact Or.inl h
  · refine Or.inr ?_
    rw [hr]
    refine congrArg some (List.ext_getElem? fun n => ?_)
    rcases Nat.lt_or_ge n file.length with hn | hn
    · have h1 : n / chunk * chunk ≤ n := Nat.div_mul_le_self ..
      have h2 : n < n / chunk * chunk + chunk := by
        have := Nat.lt_mul_div_succ n hc
        rw [Nat.mul_comm, Nat.succ_mul] at this; exact this
      obtain ⟨v, rfl, hs⟩ := hch (n / chunk) (by omega)
      exact hs n h1 h2
    · rw [List.getElem?_eq_none (by rw [hl]; exact hn), List.getElem?_eq_none hn]

/-- Witness: a download of three bytes in chunks of two by two tasks, the first of which has to ask twice, while another
client stores something elsewhere. It succeeds. -/
example : let s : Store := fun _ _ => some [1, 2, 3]
    let ts : List ParTurn := [.chunk 1 .fine, .other (.put ['x'] ['y'] [9]) .fine, .chunk 0 .refused, .recv, .chunk 0 .fine, .recv]
    let d0 := Dl.init 3 [[⟨0, 0⟩], [⟨1, 2⟩]]
    groups 2 3 2 = some [[⟨0, 0⟩], [⟨1, 2⟩]] ∧ VersionsDuring (· = [1, 2, 3]) ['a'] ['b'] 2 3 d0 s ts ∧
    ∃ d s', parRun ['a'] ['b'] 2 3 d0 s ts = some (d, s') ∧ d.final ∧ d.outcome = some [1, 2, 3] := by
  refine ⟨by decide +kernel, ?_, ⟨[⟨[], 0, .finished⟩, ⟨[], 0, .finished⟩], [], [1, 2, 3], false⟩, _, rfl, ?_, by decide⟩
  · refine versions_of_puts (fun x hx => (Option.some.inj hx).symm) (fun x l hm => ?_)
    simp at hm
  · exact ⟨rfl, rfl, by intro t ht; simp at ht; rcases ht with rfl | rfl <;> decide⟩

theorem torn_run (C : Nat) (hC : 0 < C) (b k : Str) : ∃ d s',
    parRun b k C (2 * C) (Dl.init (2 * C) [[⟨0, 0⟩], [⟨1, C⟩]]) (fun _ _ => some (List.replicate (2 * C) 1))
      [.chunk 0 .fine, .other (.put b k (List.replicate (2 * C) 2)) .fine, .chunk 1 .fine, .recv, .recv] = some (d, s') ∧
    d.final ∧ d.outcome = some (List.replicate C 1 ++ List.replicate C 2) := by
  have e1 : rangeEnd C (2 * C) ⟨0, 0⟩ + 1 - 0 = C := by unfold rangeEnd; dsimp only; omega
  have e2 : rangeEnd C (2 * C) ⟨1, C⟩ + 1 - C = C := by unfold rangeEnd; dsimp only; omega
  have b1 : rangeAnswer (fun _ _ => some (List.replicate (2 * C) 1)) b k C (2 * C) ⟨0, 0⟩ .fine = .ok (List.replicate C 1) := by
    simp only [rangeAnswer]
    rw [if_pos (by rw [List.length_replicate]; omega), e1, List.drop_zero, List.take_replicate]
    congr 2; omega
  have b2 : rangeAnswer (serve (fun _ _ => some (List.replicate (2 * C) 1)) (.put b k (List.replicate (2 * C) 2)) .fine).2 b k C
      (2 * C) ⟨1, C⟩ .fine = .ok (List.replicate C 2) := by
    simp only [rangeAnswer]
    rw [show (serve (fun _ _ => some (List.replicate (2 * C) 1)) (.put b k (List.replicate (2 * C) 2)) .fine).2 b k =
      some (List.replicate (2 * C) 2) from if_pos ⟨rfl, rfl⟩]
    dsimp only
    rw [if_pos (by rw [List.length_replicate]; omega), e2, List.drop_replicate, List.take_replicate]
    congr 2; omega
  have c1 : copyIn C (2 * C) (List.replicate (2 * C) 0) 0 (List.replicate C 1) =
      some (List.replicate C 1 ++ List.replicate C 0) := by
    unfold copyIn
    dsimp only
    rw [List.length_replicate, if_pos (by omega), Nat.zero_mul, Nat.zero_add, Nat.min_eq_left (by omega), List.take_zero,
      List.nil_append, List.drop_replicate]
    congr 3; omega
  have c2 : copyIn C (2 * C) (List.replicate C 1 ++ List.replicate C 0) 1 (List.replicate C 2) =
      some (List.replicate C 1 ++ List.replicate C 2) := by
    unfold copyIn
    dsimp only
    rw [List.length_replicate, if_pos (by omega), Nat.one_mul, Nat.min_eq_right (by omega),
      List.take_left' List.length_replicate, List.drop_eq_nil_of_le (by simp; omega), List.append_nil]
  refine ⟨⟨[⟨[], 0, .finished⟩, ⟨[], 0, .finished⟩], [], List.replicate C 1 ++ List.replicate C 2, false⟩,
    (serve (fun _ _ => some (List.replicate (2 * C) 1)) (.put b k (List.replicate (2 * C) 2)) .fine).2, ?_,
    ⟨rfl, rfl, by intro t ht; simp at ht; rw [ht]; decide⟩, rfl⟩
  simp only [parRun, Dl.init, List.map_cons, List.map_nil, List.getElem?_cons_zero, Option.bind_some, List.head?_cons, b1,
    Dl.step, Task.step, List.set_cons_zero, List.set_cons_succ, List.getElem?_cons_succ, b2, Option.toList_some,
    List.nil_append, List.cons_append, if_true, Bool.false_eq_true, if_false, c1, c2]

/-- C80 is false in general: an object of two chunks is replaced by another of the same length between the requests for
its chunks, and the download succeeds with a result that the object never was. -/
theorem c80_false (b k : Str) : ∃ (s s' : Store) (gs : List (List Job)) (ts : List ParTurn) (d : Dl) (old new r : Bytes),
    s b k = some old ∧ s3Plan (some old.length) (some 2) = .parallel old.length gs ∧
    parRun b k CHUNK_SIZE old.length (Dl.init old.length gs) s ts = some (d, s') ∧
    VersionsDuring (fun v => v = old ∨ v = new) b k CHUNK_SIZE old.length (Dl.init old.length gs) s ts ∧
    d.final ∧ d.outcome = some r ∧ r ≠ old ∧ r ≠ new := by
  have hC : 0 < CHUNK_SIZE := by decide
  obtain ⟨d, s', h1, h2, h3⟩ := torn_run CHUNK_SIZE hC b k
  have hg : groups CHUNK_SIZE (2 * CHUNK_SIZE) 2 = some [[⟨0, 0⟩], [⟨1, CHUNK_SIZE⟩]] := by decide +kernel
  refine ⟨fun _ _ => some (List.replicate (2 * CHUNK_SIZE) 1), s', [[⟨0, 0⟩], [⟨1, CHUNK_SIZE⟩]],
    [.chunk 0 .fine, .other (.put b k (List.replicate (2 * CHUNK_SIZE) 2)) .fine, .chunk 1 .fine, .recv, .recv], d,
    List.replicate (2 * CHUNK_SIZE) 1, List.replicate (2 * CHUNK_SIZE) 2,
    List.replicate CHUNK_SIZE 1 ++ List.replicate CHUNK_SIZE 2, rfl, ?_, ?_, ?_, h2, h3, ?_, ?_⟩
  · rw [List.length_replicate]
    obtain ⟨gs, e1, e2, _⟩ := (c48_plan (2 * CHUNK_SIZE) 2 (by omega)).1 (by decide)
    rw [hg] at e1
    rw [e2, Option.some.inj e1]
  · rw [List.length_replicate]; exact h1
  · refine versions_of_puts (fun x hx => Or.inl (Option.some.inj hx).symm) (fun x l hm => Or.inr ?_)
    simp only [List.mem_cons, reduceCtorEq, false_or, List.not_mem_nil, or_false, ParTurn.other.injEq, S3Req.put.injEq,
      true_and] at hm
    exact hm.1
  · intro e
    have := congrArg (fun l => l[CHUNK_SIZE]?) e
    rw [List.getElem?_append_right (by rw [List.length_replicate]; exact Nat.le_refl _), List.length_replicate, Nat.sub_self,
      List.getElem?_replicate, List.getElem?_replicate, if_pos hC, if_pos (by omega)] at this
    exact absurd this (by decide)
  · intro e
    have := congrArg (fun l => l[0]?) e
    rw [List.getElem?_append_left (by rw [List.length_replicate]; exact hC),
      List.getElem?_replicate, List.getElem?_replicate, if_pos hC, if_pos (by omega)] at this
    exact absurd this (by decide)

end Verif
