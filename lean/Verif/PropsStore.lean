import Verif.ArtifactStore
import Verif.PropsArtifacts
/-
# Properties C78 to C81: the artifact store

Vocabulary: `run c s ts = some (.done a, s')` says that the client `c`, started on the store `s`, ends with `a` and
the store `s'` when requests are served in the order of `ts`: its own and those of others, each with the luck given.
-/

namespace Verif
open Artifacts

/-! ## Specification -/

/-- Among the turns, others put only artifacts that are not the one with this bucket, kind and id. -/
def Elsewhere (bucket : Str) (t : ArtifactType) (id : Str) (ts : List Turn) : Prop :=
  ∀ b k x l, Turn.other (.put b k x) l ∈ ts → ∃ t' id', k = s3Key t' id' ∧ (b, t', id') ≠ (bucket, t, id)

/-- The lucks of the client's own requests. -/
def lucks : List Turn → List Luck
  | [] => []
  | .mine l :: ts => l :: lucks ts
  | .other _ _ :: ts => lucks ts

/-- At some moment of the run the object had the content `x`. -/
def HadDuring {α : Type} (c : Client α) (s : Store) (ts : List Turn) (bucket key : Str) (x : Option Bytes) : Prop :=
  ∃ ts1 ts2 c1 s1, ts = ts1 ++ ts2 ∧ run c s ts1 = some (c1, s1) ∧ s1 bucket key = x

/-- The store if only the requests of the others had been served. -/
def after (s : Store) : List Turn → Store
  | [] => s
  | .other q l :: ts => after (serve s q l).2 ts
  | .mine _ :: ts => after s ts

/-! ## Lemmas -/

namespace Artifacts

/-- Only others have a turn. -/
def OnlyOthers (ts : List Turn) : Prop := ∀ t ∈ ts, ∃ q l, t = .other q l

theorem run_done {α : Type} {a : α} : ∀ {ts : List Turn} {s s' : Store} {c : Client α}, run (.done a) s ts = some (c, s') →
    c = .done a ∧ OnlyOthers ts ∧ s' = after s ts := by
  intro ts
  induction ts with
  | nil =>
    intro s s' c h
    obtain ⟨rfl, rfl⟩ := Prod.mk.inj (Option.some.inj (show some (Client.done a, s) = some (c, s') from h))
    exact ⟨rfl, fun t ht => (nomatch ht), rfl⟩
  | cons t ts ih =>
    intro s s' c h
    cases t with
    | mine l => exact nomatch (show (none : Option (Client α × Store)) = some (c, s') from h)
    | other q l =>
      obtain ⟨h1, h2, h3⟩ := ih (show run (.done a) (serve s q l).2 ts = some (c, s') from h)
      refine ⟨h1, fun t ht => ?_, h3⟩
      rcases List.mem_cons.mp ht with rfl | ht
      · exact ⟨q, l, rfl⟩
      · exact h2 t ht

theorem run_ask {α : Type} {q : S3Req} {k : S3Ans → Client α} {a : α} : ∀ {ts : List Turn} {s s' : Store},
    run (.ask q k) s ts = some (.done a, s') →
    ∃ os l ts2, ts = os ++ .mine l :: ts2 ∧ OnlyOthers os ∧
      run (k (serve (after s os) q l).1) (serve (after s os) q l).2 ts2 = some (.done a, s') := by
  intro ts
  induction ts with
  | nil =>
    intro s s' h
    exact nomatch (Prod.mk.inj (Option.some.inj (show some (Client.ask q k, s) = some (.done a, s') from h))).1
  | cons t ts ih =>
    intro s s' h
    cases t with
    | mine l => exact ⟨[], l, ts, rfl, fun t ht => (nomatch ht), h⟩
    | other q' l' =>
      obtain ⟨os, l, ts2, h1, h2, h3⟩ := ih (show run (.ask q k) (serve s q' l').2 ts = some (.done a, s') from h)
      refine ⟨.other q' l' :: os, l, ts2, by rw [h1]; rfl, fun t ht => ?_, h3⟩
      rcases List.mem_cons.mp ht with rfl | ht
      · exact ⟨q', l', rfl⟩
      · exact h2 t ht

theorem run_others {α : Type} {c : Client α} : ∀ {os : List Turn} {s : Store}, OnlyOthers os →
    run c s os = some (c, after s os) := by
  intro os
  induction os with
  | nil => intro s _; cases c <;> rfl
  | cons t os ih =>
    intro s h
    obtain ⟨q, l, rfl⟩ := h t List.mem_cons_self
    have := ih (s := (serve s q l).2) fun t ht => h t (List.mem_cons_of_mem _ ht)
    cases c <;> exact this

theorem run_append {α : Type} : ∀ {ts1 ts2 : List Turn} {c c1 : Client α} {s s1 : Store},
    run c s ts1 = some (c1, s1) → run c s (ts1 ++ ts2) = run c1 s1 ts2 := by
  intro ts1
  induction ts1 with
  | nil =>
    intro ts2 c c1 s s1 h
    have : some (c, s) = some (c1, s1) := by cases c <;> exact h
    obtain ⟨rfl, rfl⟩ := Prod.mk.inj (Option.some.inj this)
    rfl
  | cons t ts1 ih =>
    intro ts2 c c1 s s1 h
    cases t with
    | mine l =>
      cases c with
      | done a => exact nomatch (show (none : Option (Client α × Store)) = some (c1, s1) from h)
      | ask q k => exact ih (show run (k (serve s q l).1) (serve s q l).2 ts1 = some (c1, s1) from h)
    | other q l => cases c <;> exact ih (c := _) (s := (serve s q l).2) h

theorem serve_keeps {s : Store} {q : S3Req} {l : Luck} {b k : Str}
    (h : ∀ b' k' x, q = .put b' k' x → ¬ (b = b' ∧ k = k')) : (serve s q l).2 b k = s b k := by
  cases q with
  | head b' k' => cases l <;> rfl
  | get b' k' => cases l <;> rfl
  | put b' k' x =>
    have hn := h b' k' x rfl
    cases l <;> first | rfl | exact if_neg hn

theorem _root_.Verif.Elsewhere.ne {bucket : Str} {t : ArtifactType} {id : Str} {ts : List Turn} (h : Elsewhere bucket t id ts)
    {b k : Str} {x : Bytes} {l : Luck} (hm : Turn.other (.put b k x) l ∈ ts) : ¬ (bucket = b ∧ s3Key t id = k) := by
  rintro ⟨rfl, hk⟩
  obtain ⟨t', id', rfl, hne⟩ := h _ _ _ _ hm
  obtain ⟨rfl, rfl⟩ := c51_key_injective _ _ _ _ hk
  exact hne rfl

theorem _root_.Verif.Elsewhere.sub {bucket : Str} {t : ArtifactType} {id : Str} {ts ts' : List Turn} (h : Elsewhere bucket t id ts)
    (hs : ∀ x ∈ ts', x ∈ ts) : Elsewhere bucket t id ts' := fun b k x l hm => h b k x l (hs _ hm)

theorem after_keeps {bucket : Str} {t : ArtifactType} {id : Str} : ∀ {ts : List Turn} {s : Store}, Elsewhere bucket t id ts →
    after s ts bucket (s3Key t id) = s bucket (s3Key t id) := by
  intro ts
  induction ts with
  | nil => intro s _; rfl
  | cons x ts ih =>
    intro s h
    have hts := h.sub (ts' := ts) fun _ h => List.mem_cons_of_mem _ h
    cases x with
    | mine l => exact ih hts
    | other q l =>
      rw [after, ih hts, serve_keeps]
      rintro b' k' x rfl
      exact h.ne List.mem_cons_self

theorem lucks_append {ts ts' : List Turn} : lucks (ts ++ ts') = lucks ts ++ lucks ts' := by
  induction ts with
  | nil => rfl
  | cons t ts ih => cases t <;> simp [lucks, ih]

theorem lucks_others {ts : List Turn} (h : OnlyOthers ts) : lucks ts = [] := by
  induction ts with
  | nil => rfl
  | cons t ts ih =>
    obtain ⟨q, l, rfl⟩ := h t List.mem_cons_self
    exact ih fun t ht => h t (List.mem_cons_of_mem _ ht)

theorem lucks_mem {ts : List Turn} {l : Luck} (hm : l ∈ lucks ts) : ∃ os os', ts = os ++ .mine l :: os' := by
  induction ts with
  | nil => exact nomatch hm
  | cons y ts ih =>
    cases y with
    | mine l' =>
      rcases List.mem_cons.mp hm with rfl | hm
      · exact ⟨[], ts, rfl⟩
      · obtain ⟨os, os', rfl⟩ := ih hm; exact ⟨_ :: os, os', rfl⟩
    | other q l' => obtain ⟨os, os', rfl⟩ := ih hm; exact ⟨_ :: os, os', rfl⟩

theorem set_self {s : Store} {b k : Str} {x : Bytes} : (s.set b k x) b k = some x := if_pos ⟨rfl, rfl⟩

/-- What an upload does. -/
theorem upload_cases {b : Str} {t : ArtifactType} {id : Str} {data : Bytes} {s s' : Store} {ts : List Turn} {r : Option Unit}
    (h : run (uploadRaw b t id data) s ts = some (.done r, s')) (he : Elsewhere b t id ts) :
    ∃ l, lucks ts = [l] ∧ (r.isSome = true ↔ l = .fine) ∧
      s' b (s3Key t id) = (if l = .fine ∨ l = .lost then some data else s b (s3Key t id)) := by
  obtain ⟨os, l, ts2, rfl, ho, hr⟩ := run_ask h
  have h1 : Elsewhere b t id os := he.sub fun x hx => List.mem_append_left _ hx
  have h2 : Elsewhere b t id ts2 := he.sub fun x hx => List.mem_append_right _ (List.mem_cons_of_mem _ hx)
  refine ⟨l, ?_, ?_⟩
  · have : lucks ts2 = [] := by
      cases l <;> exact lucks_others (run_done hr).2.1
    rw [lucks_append, lucks_others ho, lucks, this]; rfl
  · cases l with
    | fine =>
      obtain ⟨e, _, rfl⟩ := run_done hr
      cases e
      exact ⟨⟨fun _ => rfl, fun _ => rfl⟩, by rw [after_keeps h2, if_pos (Or.inl rfl)]; exact set_self⟩
    | lost =>
      obtain ⟨e, _, rfl⟩ := run_done hr
      cases e
      exact ⟨⟨fun h => (nomatch h), fun h => (nomatch h)⟩, by rw [after_keeps h2, if_pos (Or.inr rfl)]; exact set_self⟩
    | refused =>
      obtain ⟨e, _, rfl⟩ := run_done hr
      cases e
      refine ⟨⟨fun h => (nomatch h), fun h => (nomatch h)⟩, ?_⟩
      rw [after_keeps h2, if_neg (by decide)]
      exact after_keeps h1
    | cut =>
      obtain ⟨e, _, rfl⟩ := run_done hr
      cases e
      refine ⟨⟨fun h => (nomatch h), fun h => (nomatch h)⟩, ?_⟩
      rw [after_keeps h2, if_neg (by decide)]
      exact after_keeps h1

theorem serve_get {s : Store} {b k : Str} {l : Luck} :
    (∃ x, (serve s (.get b k) l).1 = .body x ∧ s b k = some x ∧ l = .fine) ∨
    (∀ x, (serve s (.get b k) l).1 ≠ .body x) ∧ (s b k = none ∨ l ≠ .fine) := by
  cases hs : s b k with
  | none => exact Or.inr ⟨fun x h => by cases l <;> simp [serve, hs] at h, Or.inl rfl⟩
  | some x =>
    cases l with
    | fine => exact Or.inl ⟨x, by simp [serve, hs], rfl, rfl⟩
    | _ => exact Or.inr ⟨fun y h => by simp [serve, hs] at h, Or.inr (by decide)⟩

theorem serve_get_store {s : Store} {b k : Str} {l : Luck} : (serve s (.get b k) l).2 = s := by cases l <;> rfl

theorem serve_head_store {s : Store} {b k : Str} {l : Luck} : (serve s (.head b k) l).2 = s := by cases l <;> rfl

theorem serve_head {s : Store} {b k : Str} {l : Luck} :
    (∃ n, (serve s (.head b k) l).1 = .length n ∧ s b k ≠ none ∧ l = .fine) ∨
    (∀ n, (serve s (.head b k) l).1 ≠ .length n) ∧ (s b k = none ∨ l ≠ .fine) := by
  cases hs : s b k with
  | none => exact Or.inr ⟨fun x h => by cases l <;> simp [serve, hs] at h, Or.inl rfl⟩
  | some x =>
    cases l with
    | fine => exact Or.inl ⟨x.length, by simp [serve, hs], (nomatch ·), rfl⟩
    | _ => exact Or.inr ⟨fun y h => by simp [serve] at h, Or.inr (by decide)⟩

/-- What a copy does after the destination was looked at in vain. -/
theorem copy_rest {t : ArtifactType} {id src dst : Str} {s s' : Store} {ts : List Turn} {r : Option Unit}
    (h : run (Client.ask (.get src (s3Key t id)) fun
      | .body x => .ask (.put dst (s3Key t id) x) fun
        | .stored => .done (some ())
        | _ => .done none
      | _ => .done none) s ts = some (.done r, s')) (hd : Elsewhere dst t id ts) (hs : Elsewhere src t id ts) :
    (r = none ∧ s' dst (s3Key t id) = s dst (s3Key t id) ∧ (lucks ts = [.fine, .fine] → s src (s3Key t id) = none)) ∨
    (s' dst (s3Key t id) = s src (s3Key t id) ∧ s src (s3Key t id) ≠ none ∧ (lucks ts = [.fine, .fine] → r = some ())) := by
  obtain ⟨os, l, ts2, rfl, ho, hr⟩ := run_ask h
  have d1 := hd.sub (ts' := os) fun x hx => List.mem_append_left _ hx
  have d2 := hd.sub (ts' := ts2) fun x hx => List.mem_append_right _ (List.mem_cons_of_mem _ hx)
  have s1 := hs.sub (ts' := os) fun x hx => List.mem_append_left _ hx
  rw [serve_get_store] at hr
  rcases serve_get (s := after s os) (b := src) (k := s3Key t id) (l := l) with ⟨x, hx, hsx, rfl⟩ | ⟨hx, hl⟩
  · rw [hx] at hr
    rw [after_keeps s1] at hsx
    obtain ⟨os2, l2, ts3, rfl, ho2, hr⟩ := run_ask hr
    have d3 := d2.sub (ts' := os2) fun x hx => List.mem_append_left _ hx
    have d4 := d2.sub (ts' := ts3) fun x hx => List.mem_append_right _ (List.mem_cons_of_mem _ hx)
    have hlu : ∀ {l3 : List Luck}, lucks ts3 = l3 → lucks (os ++ Turn.mine .fine :: (os2 ++ .mine l2 :: ts3)) = .fine :: l2 :: l3 := by
      rintro _ rfl
      simp [lucks_append, lucks_others ho, lucks_others ho2, lucks]
    cases l2 with
    | fine =>
      obtain ⟨e, _, rfl⟩ := run_done hr
      cases e
      refine Or.inr ⟨?_, by rw [hsx]; exact (nomatch ·), fun _ => rfl⟩
      rw [after_keeps d4, hsx]; exact set_self
    | lost =>
      obtain ⟨e, o3, rfl⟩ := run_done hr
      cases e
      refine Or.inr ⟨?_, by rw [hsx]; exact (nomatch ·), fun hh => ?_⟩
      · rw [after_keeps d4, hsx]; exact set_self
      · rw [hlu rfl] at hh; cases hh
    | refused =>
      obtain ⟨e, o3, rfl⟩ := run_done hr
      cases e
      refine Or.inl ⟨rfl, ?_, fun hh => ?_⟩
      · rw [after_keeps d4]
        exact (after_keeps d3).trans (after_keeps d1)
      · rw [hlu rfl] at hh; cases hh
    | cut =>
      obtain ⟨e, o3, rfl⟩ := run_done hr
      cases e
      refine Or.inl ⟨rfl, ?_, fun hh => ?_⟩
      · rw [after_keeps d4]
        exact (after_keeps d3).trans (after_keeps d1)
      · rw [hlu rfl] at hh; cases hh
  · have hr : run (Client.done (none : Option Unit)) (after s os) ts2 = some (.done r, s') := by
      cases ha : (serve (after s os) (.get src (s3Key t id)) l).1 with
      | body x => exact absurd ha (hx x)
      | error => rw [ha] at hr; exact hr
      | length n => rw [ha] at hr; exact hr
      | cut => rw [ha] at hr; exact hr
      | stored => rw [ha] at hr; exact hr
    obtain ⟨e, o3, rfl⟩ := run_done hr
    cases e
    refine Or.inl ⟨rfl, (after_keeps d2).trans (after_keeps d1), fun hh => ?_⟩
    rw [lucks_append, lucks_others ho, lucks, lucks_others o3] at hh
    cases hh

theorem run_map {α β : Type} {f : α → β} : ∀ {ts : List Turn} {c : Client α} {s s' : Store} {r : β},
    run (c.map f) s ts = some (.done r, s') → ∃ a, run c s ts = some (.done a, s') ∧ r = f a := by
  intro ts
  induction ts with
  | nil =>
    intro c s s' r h
    cases c with
    | done a =>
      obtain ⟨e, rfl⟩ := Prod.mk.inj (Option.some.inj (show some (Client.done (f a), s) = some (.done r, s') from h))
      cases e
      exact ⟨a, rfl, rfl⟩
    | ask q k => exact nomatch (Prod.mk.inj (Option.some.inj (show some (Client.ask q _, s) = some (.done r, s') from h))).1
  | cons t ts ih =>
    intro c s s' r h
    cases t with
    | mine l =>
      cases c with
      | done a => exact nomatch (show (none : Option (Client β × Store)) = some (.done r, s') from h)
      | ask q k => exact ih (show run ((k (serve s q l).1).map f) (serve s q l).2 ts = some (.done r, s') from h)
    | other q l =>
      cases c with
      | done a => exact ih (c := .done a) h
      | ask q' k => exact ih (c := .ask q' k) h

theorem run_prefix {α : Type} : ∀ {ts1 ts2 : List Turn} {c c2 : Client α} {s s2 : Store},
    run c s (ts1 ++ ts2) = some (c2, s2) → ∃ c1 s1, run c s ts1 = some (c1, s1) := by
  intro ts1
  induction ts1 with
  | nil => intro ts2 c c2 s s2 _; exact ⟨c, s, by cases c <;> rfl⟩
  | cons t ts1 ih =>
    intro ts2 c c2 s s2 h
    cases t with
    | mine l =>
      cases c with
      | done a => exact nomatch (show (none : Option (Client α × Store)) = some (c2, s2) from h)
      | ask q k => exact ih (show run (k (serve s q l).1) (serve s q l).2 (ts1 ++ ts2) = some (c2, s2) from h)
    | other q l => cases c <;> exact ih (c := _) (s := (serve s q l).2) h

/-- Downloads do not change the store. -/
theorem tries_store {b : Str} {t : ArtifactType} {id : Str} : ∀ {ts : List Turn} {n : Nat} {s s1 : Store} {c1 : Client (Option Bytes)},
    run (downloadTries b t id n) s ts = some (c1, s1) → s1 = after s ts := by
  intro ts
  induction ts with
  | nil =>
    intro n s s1 c1 h
    have : some (downloadTries b t id n, s) = some (c1, s1) := by cases n <;> exact h
    exact (Prod.mk.inj (Option.some.inj this)).2.symm
  | cons x ts ih =>
    intro n s s1 c1 h
    cases n with
    | zero => exact (run_done h).2.2
    | succ n =>
      cases x with
      | other q l => exact ih (n := n + 1) h
      | mine l =>
        have h : run (match (serve s (.get b (s3Key t id)) l).1 with
          | .body x => Client.done (some x)
          | _ => downloadTries b t id n) (serve s (.get b (s3Key t id)) l).2 ts = some (c1, s1) := h
        rw [serve_get_store] at h
        cases ha : (serve s (.get b (s3Key t id)) l).1 with
        | body x => rw [ha] at h; exact (run_done h).2.2
        | error => rw [ha] at h; exact ih h
        | length n => rw [ha] at h; exact ih h
        | cut => rw [ha] at h; exact ih h
        | stored => rw [ha] at h; exact ih h

/-- The client puts only the object `k` of bucket `b`. -/
def OnlyPuts {α : Type} (b k : Str) : Client α → Prop
  | .done _ => True
  | .ask q c => (∀ b' k' x, q = .put b' k' x → b' = b ∧ k' = k) ∧ ∀ a, OnlyPuts b k (c a)

theorem serve_congr {s s0 : Store} {q : S3Req} {l : Luck} {b k : Str} (h : s b k = s0 b k) :
    (serve s q l).2 b k = (serve s0 q l).2 b k := by
  cases q with
  | head b' k' => cases l <;> exact h
  | get b' k' => cases l <;> exact h
  | put b' k' x => cases l <;> simp only [serve, Store.set, h]

theorem run_onlyPuts {α : Type} {b k b' k' : Str} : ∀ {ts : List Turn} {c c' : Client α} {s s' s0 : Store}, OnlyPuts b k c →
    ¬ (b' = b ∧ k' = k) → run c s ts = some (c', s') → s b' k' = s0 b' k' → s' b' k' = after s0 ts b' k' := by
  intro ts
  induction ts with
  | nil =>
    intro c c' s s' s0 _ _ h e
    have : some (c, s) = some (c', s') := by cases c <;> exact h
    rw [← (Prod.mk.inj (Option.some.inj this)).2]
    exact e
  | cons t ts ih =>
    intro c c' s s' s0 hp hne h e
    cases t with
    | mine l =>
      cases c with
      | done a => exact nomatch (show (none : Option (Client α × Store)) = some (c', s') from h)
      | ask q f =>
        refine ih (hp.2 _) hne (show run (f (serve s q l).1) (serve s q l).2 ts = some (c', s') from h) ?_
        rw [serve_keeps, e]
        rintro b1 k1 x hq ⟨rfl, rfl⟩
        exact hne (hp.1 _ _ _ hq)
    | other q l =>
      have h : run c (serve s q l).2 ts = some (c', s') := by cases c <;> exact h
      exact ih hp hne h (serve_congr e)

/-- What a download does: it returns what the object is when the request is served, or fails. -/
theorem tries_cases {b : Str} {t : ArtifactType} {id : Str} : ∀ {n : Nat} {s s' : Store} {ts : List Turn} {r : Option Bytes},
    run (downloadTries b t id n) s ts = some (.done r, s') →
    s' = after s ts ∧
    ((∃ os os' x, ts = os ++ .mine .fine :: os' ∧ r = some x ∧ after s os b (s3Key t id) = some x ∧
      OnlyOthers os' ∧ (lucks os).length < n) ∨
     (r = none ∧ (lucks ts).length = n ∧ ∀ os l os', ts = os ++ .mine l :: os' → after s os b (s3Key t id) = none ∨ l ≠ .fine)) := by
  intro n
  induction n with
  | zero =>
    intro s s' ts r h
    obtain ⟨e, ho, hs⟩ := run_done h
    cases e
    refine ⟨hs, Or.inr ⟨rfl, by rw [lucks_others ho]; rfl, ?_⟩⟩
    rintro os l os' rfl
    obtain ⟨q, l', h⟩ := ho (.mine l) (by simp)
    exact nomatch h
  | succ n ih =>
    intro s s' ts r h
    obtain ⟨os, l, ts2, rfl, ho, hr⟩ := run_ask h
    have hafter : ∀ (s : Store) (a b : List Turn), after s (a ++ b) = after (after s a) b := by
      intro s a
      induction a generalizing s with
      | nil => intro b; rfl
      | cons x a ih => intro b; cases x <;> exact ih _ b
    rw [serve_get_store] at hr
    rcases serve_get (s := after s os) (b := b) (k := s3Key t id) (l := l) with ⟨x, hx, hsx, rfl⟩ | ⟨hx, hl⟩
    · rw [hx] at hr
      obtain ⟨e, ho2, hs⟩ := run_done hr
      cases e
      refine ⟨by rw [hs, hafter]; rfl, Or.inl ⟨os, ts2, x, rfl, rfl, hsx, ho2, by rw [lucks_others ho]; exact Nat.succ_pos _⟩⟩
    · have hr : run (downloadTries b t id n) (after s os) ts2 = some (.done r, s') := by
        cases ha : (serve (after s os) (.get b (s3Key t id)) l).1 with
        | body x => exact absurd ha (hx x)
        | error => rw [ha] at hr; exact hr
        | length n => rw [ha] at hr; exact hr
        | cut => rw [ha] at hr; exact hr
        | stored => rw [ha] at hr; exact hr
      obtain ⟨hs, hc⟩ := ih hr
      refine ⟨by rw [hs, hafter]; rfl, ?_⟩
      rcases hc with ⟨os1, os2, x, rfl, rfl, h1, h2, h3⟩ | ⟨rfl, h1, h2⟩
      · refine Or.inl ⟨os ++ .mine l :: os1, os2, x, by simp, rfl, by rw [hafter]; exact h1, h2, ?_⟩
        rw [lucks_append, lucks_others ho, lucks]
        simpa using h3
      · refine Or.inr ⟨rfl, by rw [lucks_append, lucks_others ho, lucks]; simpa using h1, ?_⟩
        intro os1 l1 os2 e
        rcases List.append_eq_append_iff.mp e with ⟨a, rfl, e2⟩ | ⟨a, rfl, e2⟩
        · cases a with
          | nil =>
            obtain ⟨e3, rfl⟩ := List.cons.inj e2
            rw [List.append_nil]
            cases e3
            exact hl
          | cons y a =>
            obtain ⟨rfl, rfl⟩ := List.cons.inj e2
            rw [hafter]
            exact h2 a l1 os2 rfl
        · cases a with
          | nil =>
            obtain ⟨e3, rfl⟩ := List.cons.inj e2
            cases e3
            rw [List.append_nil] at *
            exact hl
          | cons y a =>
            obtain ⟨e3, _⟩ := List.cons.inj e2
            obtain ⟨q, l', h⟩ := ho (.mine l1) (by rw [e3]; simp)
            exact nomatch h

end Artifacts

/-! ## C78: uploaded artifacts read back -/

/-- An upload is all or nothing for everybody: when it succeeds the object is the data; when it fails the object is
the data or what it was before. -/
theorem c78_upload (b : Str) (t : ArtifactType) (id : Str) (data : Bytes) (s s' : Store) (ts : List Turn) (r : Option Unit)
    (h : run (uploadRaw b t id data) s ts = some (.done r, s')) (he : Elsewhere b t id ts) :
    (r = some () → s' b (s3Key t id) = some data) ∧
    (r = none → s' b (s3Key t id) = some data ∨ s' b (s3Key t id) = s b (s3Key t id)) := by
  obtain ⟨l, _, h1, h2⟩ := upload_cases h he
  constructor
  · rintro rfl
    rw [h2, if_pos (Or.inl (h1.mp rfl))]
  · rintro rfl
    rw [h2]
    split
    · exact Or.inl rfl
    · exact Or.inr rfl

/-- An artifact that was uploaded is what a later download returns, whatever other artifacts others upload in the
meantime, unless five requests of the download fail. -/
theorem c78_read_back (b : Str) (t : ArtifactType) (id : Str) (data : Bytes) (s s1 s2 : Store) (ts1 ts2 : List Turn)
    (r : Option Bytes) (hu : run (uploadRaw b t id data) s ts1 = some (.done (some ()), s1))
    (hd : run (downloadRawFrom b t id) s1 ts2 = some (.done r, s2))
    (he1 : Elsewhere b t id ts1) (he2 : Elsewhere b t id ts2) :
    r = some data ∨ r = none ∧ (lucks ts2).length = 5 ∧ ∀ l ∈ lucks ts2, l ≠ .fine := by
  have h1 := (c78_upload b t id data s s1 ts1 _ hu he1).1 rfl
  obtain ⟨_, ⟨os, os', x, rfl, rfl, hx, _⟩ | ⟨rfl, hl, hall⟩⟩ := tries_cases hd
  · rw [after_keeps (he2.sub fun x hx => List.mem_append_left _ hx), h1] at hx
    exact Or.inl hx.symm
  · refine Or.inr ⟨rfl, hl, fun l hm => ?_⟩
    obtain ⟨os, os', rfl⟩ := lucks_mem hm
    rcases hall os l os' rfl with h | h
    · rw [after_keeps (he2.sub fun x hx => List.mem_append_left _ hx), h1] at h
      exact nomatch h
    · exact h

/-- The same for typed artifacts, if decoding undoes encoding. -/
theorem c78_typed {T : Type} (ser : T → Option Bytes) (de : Bytes → Option T) (hsd : ∀ x y, ser x = some y → de y = some x)
    (b : Str) (t : ArtifactType) (id : Str) (item : T) (s s1 s2 : Store) (ts1 ts2 : List Turn)
    (r : Option T) (hu : run (upload ser item b t id) s ts1 = some (.done (some ()), s1))
    (hd : run (download de b t id) s1 ts2 = some (.done r, s2))
    (he1 : Elsewhere b t id ts1) (he2 : Elsewhere b t id ts2) :
    r = some item ∨ r = none ∧ (lucks ts2).length = 5 ∧ ∀ l ∈ lucks ts2, l ≠ .fine := by
  obtain ⟨data, hs, hu⟩ : ∃ data, ser item = some data ∧ run (uploadRaw b t id data) s ts1 = some (.done (some ()), s1) := by
    unfold upload at hu
    cases hs : ser item with
    | none => rw [hs] at hu; exact nomatch (run_done hu).1
    | some data => rw [hs] at hu; exact ⟨data, rfl, hu⟩
  obtain ⟨r', hr', rfl⟩ := run_map hd
  rcases c78_read_back b t id data s s1 s2 ts1 ts2 r' hu hr' he1 he2 with rfl | ⟨rfl, h⟩
  · exact Or.inl (hsd _ _ hs)
  · exact Or.inr ⟨rfl, h⟩

/-- Whatever others do, a download that succeeds returns what the object was at some moment during it. -/
theorem c78_real (b : Str) (t : ArtifactType) (id : Str) (s s' : Store) (ts : List Turn) (x : Bytes)
    (hd : run (downloadRawFrom b t id) s ts = some (.done (some x), s')) :
    HadDuring (downloadRawFrom b t id) s ts b (s3Key t id) (some x) := by
  obtain ⟨_, ⟨os, os', y, rfl, e, hx, _⟩ | ⟨h, _⟩⟩ := tries_cases hd
  · obtain rfl := Option.some.inj e
    obtain ⟨c1, s1, h1⟩ := run_prefix hd
    refine ⟨os, _, c1, s1, rfl, h1, ?_⟩
    rw [tries_store h1]
    exact hx
  · exact nomatch h

/-- Uploads and copies write nothing but their own artifact, and downloads write nothing: everything else is as others
leave it. -/
theorem c78_frame (b : Str) (t : ArtifactType) (id : Str) (s s' : Store) (ts : List Turn) :
    ((∃ data r, run (uploadRaw b t id data) s ts = some (.done r, s')) ∨
     (∃ src r, run (copy t id src b) s ts = some (.done r, s')) →
      ∀ b' t' id', (b', t', id') ≠ (b, t, id) → s' b' (s3Key t' id') = after s ts b' (s3Key t' id')) ∧
    (∀ r, run (downloadRawFrom b t id) s ts = some (.done r, s') → s' = after s ts) := by
  refine ⟨fun h b' t' id' hne => ?_, fun r h => tries_store h⟩
  have hne' : ¬ (b' = b ∧ s3Key t' id' = s3Key t id) := by
    rintro ⟨rfl, hk⟩
    obtain ⟨rfl, rfl⟩ := c51_key_injective _ _ _ _ hk
    exact hne rfl
  rcases h with ⟨data, r, h⟩ | ⟨src, r, h⟩
  · refine run_onlyPuts (b := b) (k := s3Key t id) ?_ hne' h rfl
    refine ⟨fun b k x e => ?_, fun a => by cases a <;> trivial⟩
    cases e; exact ⟨rfl, rfl⟩
  · refine run_onlyPuts (b := b) (k := s3Key t id) ?_ hne' h rfl
    refine ⟨fun b k x e => (nomatch e), fun a => ?_⟩
    have h2 : OnlyPuts b (s3Key t id) (Client.ask (.get src (s3Key t id)) fun
      | .body x => .ask (.put b (s3Key t id) x) fun
        | .stored => .done (some ())
        | _ => .done none
      | _ => .done none) := by
      refine ⟨fun b k x e => (nomatch e), fun a => ?_⟩
      cases a with
      | body x => exact ⟨fun b k x e => by cases e; exact ⟨rfl, rfl⟩, fun a => by cases a <;> trivial⟩
      | _ => trivial
    cases a with
    | length n => trivial
    | _ => exact h2

/-! ## C79: copying

The documentation says that the copy succeeds without copying if the artifact exists in the destination. -/

/-- C79, what does hold: if the artifact is in the destination, nobody else replaces it, and the first request is
served, the copy succeeds and the artifact in the destination is as before. Missing from the full property: the first
request failing. -/
theorem c79_kept_partial (t : ArtifactType) (id src dst : Str) (s s' : Store) (ts : List Turn) (r : Option Unit) (x : Bytes)
    (h : run (copy t id src dst) s ts = some (.done r, s')) (he : Elsewhere dst t id ts)
    (hx : s dst (s3Key t id) = some x) (hl : (lucks ts).head? = some .fine) :
    r = some () ∧ s' dst (s3Key t id) = some x := by
  obtain ⟨os, l, ts2, rfl, ho, hr⟩ := run_ask h
  have h1 : Elsewhere dst t id os := he.sub fun x hx => List.mem_append_left _ hx
  have h2 : Elsewhere dst t id ts2 := he.sub fun x hx => List.mem_append_right _ (List.mem_cons_of_mem _ hx)
  rw [lucks_append, lucks_others ho] at hl
  obtain rfl := Option.some.inj (show some l = some .fine from hl)
  have hs : after s os dst (s3Key t id) = some x := by rw [after_keeps h1, hx]
  have ha : (serve (after s os) (.head dst (s3Key t id)) .fine).1 = .length x.length := by simp [serve, hs]
  rw [ha, serve_head_store] at hr
  obtain ⟨e, _, rfl⟩ := run_done hr
  cases e
  exact ⟨rfl, by rw [after_keeps h2, hs]⟩

/-- C79: what a copy leaves in the destination if nobody else writes the artifact there or in the source: what was
there, or what is in the source; if it succeeds, there is something. -/
theorem c79_copied (t : ArtifactType) (id src dst : Str) (s s' : Store) (ts : List Turn) (r : Option Unit)
    (h : run (copy t id src dst) s ts = some (.done r, s')) (hd : Elsewhere dst t id ts) (hs : Elsewhere src t id ts) :
    (s' dst (s3Key t id) = s dst (s3Key t id) ∨
      s' dst (s3Key t id) = s src (s3Key t id) ∧ s src (s3Key t id) ≠ none) ∧
    (r = some () → s' dst (s3Key t id) ≠ none ∧
      (s dst (s3Key t id) = none → s' dst (s3Key t id) = s src (s3Key t id))) ∧
    (s dst (s3Key t id) = none → lucks ts = [.fine, .fine, .fine] → s src (s3Key t id) ≠ none → r = some ()) := by
  obtain ⟨os, l, ts2, rfl, ho, hr⟩ := run_ask h
  have d1 := hd.sub (ts' := os) fun x hx => List.mem_append_left _ hx
  have d2 := hd.sub (ts' := ts2) fun x hx => List.mem_append_right _ (List.mem_cons_of_mem _ hx)
  have s1 := hs.sub (ts' := os) fun x hx => List.mem_append_left _ hx
  have s2 := hs.sub (ts' := ts2) fun x hx => List.mem_append_right _ (List.mem_cons_of_mem _ hx)
  rw [serve_head_store] at hr
  have hlu : lucks (os ++ Turn.mine l :: ts2) = l :: lucks ts2 := by
    rw [lucks_append, lucks_others ho]; rfl
  rw [hlu]
  rcases serve_head (s := after s os) (b := dst) (k := s3Key t id) (l := l) with ⟨n, hx, hsx, rfl⟩ | ⟨hx, hl⟩
  · rw [hx] at hr
    rw [after_keeps d1] at hsx
    obtain ⟨e, o3, rfl⟩ := run_done hr
    cases e
    have e1 : after (after s os) ts2 dst (s3Key t id) = s dst (s3Key t id) := (after_keeps d2).trans (after_keeps d1)
    rw [e1]
    exact ⟨Or.inl rfl, fun _ => ⟨hsx, fun h => absurd h hsx⟩, fun h => absurd h hsx⟩
  · have hr := copy_rest (t := t) (id := id) (src := src) (dst := dst) (s := after s os) (s' := s') (ts := ts2) (r := r) (by
      cases ha : (serve (after s os) (.head dst (s3Key t id)) l).1 with
      | length n => exact absurd ha (hx n)
      | error => rw [ha] at hr; exact hr
      | body x => rw [ha] at hr; exact hr
      | cut => rw [ha] at hr; exact hr
      | stored => rw [ha] at hr; exact hr) d2 s2
    rw [after_keeps d1, after_keeps s1] at hr
    rcases hr with ⟨rfl, e1, e2⟩ | ⟨e1, e2, e3⟩
    · refine ⟨Or.inl e1, fun h => (nomatch h), fun _ hh hsrc => ?_⟩
      exact absurd (e2 (List.cons.inj hh).2) hsrc
    · refine ⟨Or.inr ⟨e1, e2⟩, fun _ => ⟨by rw [e1]; exact e2, fun _ => e1⟩, fun _ hh _ => e3 (List.cons.inj hh).2⟩

/-- C79 is false as documented, for two reasons. If the request that looks at the destination fails, or if somebody
stores the artifact between that request and the put, the copy replaces the artifact in the destination. -/
theorem c79_false : ∃ (t : ArtifactType) (id src dst : Str) (x y : Bytes), x ≠ y ∧
    (∃ s s', s dst (s3Key t id) = some x ∧
      run (copy t id src dst) s [.mine .refused, .mine .fine, .mine .fine] = some (.done (some ()), s') ∧
      s' dst (s3Key t id) = some y) ∧
    (∃ s s', run (copy t id src dst) s
        [.mine .fine, .mine .fine, .other (.put dst (s3Key t id) x) .fine, .mine .fine] = some (.done (some ()), s') ∧
      s' dst (s3Key t id) = some y) := by
  refine ⟨.proof, ['p'], ['a'], ['b'], [1], [2], by decide, ?_, ?_⟩
  · exact ⟨fun b _ => if b = ['a'] then some [2] else some [1], _, rfl, rfl, by decide⟩
  · exact ⟨fun b _ => if b = ['a'] then some [2] else none, _, rfl, by decide⟩

/-! ## C81: downloads from a URI -/

/-- C81, what does hold: a URI `s3://bucket/prefix/id` with the prefix of the kind, and the name taken from it as id,
is downloaded from the object with that bucket and key. Missing from the full property: other paths. -/
theorem c81_named_partial (parse : Str → Option (Str × Option Str)) (https : Str → Option Bytes) (bucket : Str)
    (t : ArtifactType) (id : Str) (hid : '/' ∉ id) (base : Str)
    (hp : parse (base ++ '/' :: s3Key t id) = some ("s3".toList, some bucket)) :
    (extractArtifactName (base ++ '/' :: s3Key t id)).map (downloadFromUri parse https (base ++ '/' :: s3Key t id) t) =
      some (.ask (.get bucket (s3Key t id)) fun
        | .body x => .done (some x)
        | _ => .done none) := by
  rw [c51_name base t id hid, Option.map_some, downloadFromUri, hp]
  rfl

/-- C81: the path of an `s3://` URI is not used: all URIs of a bucket give the same download; URIs of schemes other
than `s3` and `https`, and those that cannot be parsed, are refused without any request. -/
theorem c81_path_ignored (parse : Str → Option (Str × Option Str)) (https : Str → Option Bytes) (uri : Str) (t : ArtifactType)
    (id : Str) :
    (∀ bucket, parse uri = some ("s3".toList, some bucket) →
      downloadFromUri parse https uri t id = .ask (.get bucket (s3Key t id)) fun
        | .body x => .done (some x)
        | _ => .done none) ∧
    (parse uri = none ∨ (∃ scheme host, parse uri = some (scheme, host) ∧ scheme ≠ "s3".toList ∧ scheme ≠ "https".toList) →
      downloadFromUri parse https uri t id = .done none) := by
  refine ⟨fun bucket h => ?_, ?_⟩
  · rw [downloadFromUri, h]; rfl
  · rintro (h | ⟨scheme, host, h, h1, h2⟩)
    · rw [downloadFromUri, h]
    · rw [downloadFromUri, h]
      dsimp only
      rw [if_neg h1, if_neg h2]

/-- A parser for the URIs of the witnesses: `s3://`, then the bucket up to a slash. -/
def demoParse (uri : Str) : Option (Str × Option Str) :=
  if "s3://".toList.isPrefixOf uri then some ("s3".toList, some ((uri.drop 5).takeWhile (· ≠ '/'))) else none

/-- C81 is false in general: the object that the URI names is there, and so is another one, which is returned. This is
what the node does with a program URI whose path is not that of programs. -/
theorem c81_false : ∃ (s : Store) (uri id : Str) (x y : Bytes),
    uri = "s3://bucket/artifacts/a1".toList ∧ extractArtifactName uri = some id ∧
    s "bucket".toList "artifacts/a1".toList = some x ∧ x ≠ y ∧
    run (downloadFromUri demoParse (fun _ => none) uri .program id) s [.mine .fine] = some (.done (some y), s) := by
  refine ⟨fun _ k => if k = "artifacts/a1".toList then some [1] else if k = "programs/a1".toList then some [2] else none,
    _, "a1".toList, [1], [2], rfl, by decide +kernel, rfl, by decide, ?_⟩
  rw [(c81_path_ignored demoParse _ _ _ _).1 "bucket".toList (by decide +kernel)]
  rfl

/-! ## Witnesses -/

/-- Others store another kind with the same id while an upload and a download run; two requests fail. -/
example : (run (uploadRaw ['b'] .program ['x'] [1, 2]) (fun _ _ => none)
      [.other (.put ['b'] (s3Key .stdin ['x']) [9]) .fine, .mine .fine]).map (·.1) = some (.done (some ())) ∧
    (run (downloadRawFrom ['b'] .program ['x']) (fun _ k => if k = s3Key .program ['x'] then some [1, 2] else some [9])
      [.mine .refused, .other (.put ['c'] (s3Key .program ['x']) [7]) .fine, .mine .cut, .mine .fine]).map (·.1) =
      some (.done (some [1, 2])) := ⟨rfl, rfl⟩
example : Elsewhere ['b'] .program ['x'] [.mine .refused, .other (.put ['c'] (s3Key .program ['x']) [7]) .fine, .mine .cut] := by
  intro b k x l h
  simp only [List.mem_cons, reduceCtorEq, false_or, List.not_mem_nil, or_false, Turn.other.injEq, S3Req.put.injEq] at h
  obtain ⟨⟨rfl, rfl, rfl⟩, rfl⟩ := h
  exact ⟨.program, ['x'], rfl, by decide⟩
/-- A copy into an empty destination. -/
example : (run (copy .proof ['p'] ['a'] ['b']) (fun b _ => if b = ['a'] then some [2] else none)
    [.mine .fine, .mine .fine, .mine .fine]).map (·.1) = some (.done (some ())) := rfl

end Verif
