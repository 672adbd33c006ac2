import Verif.NodeRun
import Verif.PropsNode2
/-
# C73 and C74: the life of a node, and unexecutable requests
-/

namespace Verif.Node
open Retry (RpcError)

/-! ## Specification -/

/-- In the pass with surroundings `w` the prover gets to a request of unspecified mode: the list of assigned requests
was obtained, the requests before it were answered, it is not registered as unexecutable and its program and input
were downloaded. -/
def Poisoned (cfg : Config) (w : World) : Prop :=
  ∃ owner t before r after seg programId stdinId program stdin,
    w.owner [] (Address.bytes cfg.signer) = .ok owner ∧
    w.now ((proveHeader cfg owner t).take 1) = t ∧
    w.filtered ((proveHeader cfg owner t).take 2) (assignedFilter owner t) = .ok (before ++ r :: after) ∧
    AllAnswered cfg w (proveHeader cfg owner t) before seg ∧
    r.mode = 0 ∧ Named r programId stdinId ∧
    w.unexecutable (proveHeader cfg owner t ++ seg) r.requestId = false ∧
    w.download (proveHeader cfg owner t ++ seg ++ (fetchSeg r programId stdinId).take 1) .program programId
      r.programUri = .ok program ∧
    w.download (proveHeader cfg owner t ++ seg ++ (fetchSeg r programId stdinId).take 2) .stdin stdinId
      r.stdinUri = .ok stdin

/-- The network returns no more assigned requests than asked for, which is one. -/
def HonoursLimit (cfg : Config) (w : World) : Prop :=
  ∀ owner t reqs, w.filtered ((proveHeader cfg owner t).take 2) (assignedFilter owner t) = .ok reqs → reqs.length ≤ 1

/-! ## Lemmas -/

theorem bidAttempt_no_panic (cfg : Config) (rid : Bytes) (w : World) (L : List Query) :
    (bidAttempt cfg rid w L).1 ≠ .panic := by
  unfold bidAttempt
  rw [ask_nonce]
  match w.nonce L (Address.bytes cfg.signer) with
  | .error e => exact (nomatch ·)
  | .ok nonce =>
    rw [andThen_ok, ask_details]
    match hd : w.details (L ++ [.getNonce (Address.bytes cfg.signer)]) rid with
    | .error e => rw [hd]; exact (nomatch ·)
    | .ok none => rw [hd]; exact (nomatch ·)
    | .ok (some d) =>
      rw [hd, andThen_ok]
      dsimp only
      rw [ask_now]
      split
      · exact (nomatch ·)
      · rw [ask_bid]
        generalize w.bid _ _ = x
        cases x <;> exact (nomatch ·)

/-- A bidding round never panics. -/
theorem bidRound_no_panic (cfg : Config) (w : World) : (bidRound cfg w []).1 ≠ .panic := by
  unfold bidRound
  rw [ask_owner]
  match w.owner [] (Address.bytes cfg.signer) with
  | .error e => exact (nomatch ·)
  | .ok owner =>
    rw [andThen_ok, ask_now, ask_filtered]
    generalize w.filtered _ _ = x
    match x with
    | .error e => exact (nomatch ·)
    | .ok (x :: xs) => exact (nomatch ·)
    | .ok [] =>
      rw [andThen_ok, if_neg (by simp), ask_now, ask_filtered]
      generalize w.filtered _ _ = x
      match x with
      | .error e => exact (nomatch ·)
      | .ok [] => exact (nomatch ·)
      | .ok (_ :: _ :: _) => exact (nomatch ·)
      | .ok [req] =>
        rw [andThen_ok]
        dsimp only
        generalize (_ : List Query) ++ [Query.filtered _] = L
        obtain ⟨n, L1, L2, r, _, _, h1, h2⟩ := withRetry_cases cfg (bidAttempt cfg req.requestId) w L
        rw [h2]
        have := bidAttempt_no_panic cfg req.requestId w L1
        rw [h1] at this
        exact this

/-- A handled list that panicked got to a request of unspecified mode. -/
theorem handled_panic {cfg : Config} {w : World} {L : List Query} {reqs : List Req} {seg : List Query}
    {o : Retry.Outcome Unit} (h : Handled cfg w L reqs seg o) (ho : o = .panic) :
    ∃ before r after seg' programId stdinId program stdin, reqs = before ++ r :: after ∧
      AllAnswered cfg w L before seg' ∧ r.mode = 0 ∧ Named r programId stdinId ∧
      w.unexecutable (L ++ seg') r.requestId = false ∧
      w.download (L ++ seg' ++ (fetchSeg r programId stdinId).take 1) .program programId r.programUri = .ok program ∧
      w.download (L ++ seg' ++ (fetchSeg r programId stdinId).take 2) .stdin stdinId r.stdinUri = .ok stdin := by
  induction h with
  | done => cases ho
  | answered ha _ ih =>
    obtain ⟨before, r, after, seg', pid, sid, p, s, rfl, h1, h2, h3, h4, h5, h6⟩ := ih ho
    refine ⟨_ :: before, r, after, _ ++ seg', pid, sid, p, s, rfl, .cons ha h1, h2, h3, ?_, ?_, ?_⟩
    · rw [← List.append_assoc]; exact h4
    · rw [← List.append_assoc]; exact h5
    · rw [← List.append_assoc]; exact h6
  | abandoned hb =>
    subst ho
    cases hb with
    | mode pid sid p s hu h0 h1 h2 hn =>
      exact ⟨[], _, _, [], pid, sid, p, s, rfl, .nil _, h0, hn, by simpa using hu, by simpa using h1, by simpa using h2⟩

theorem prove_panic_poisoned (cfg : Config) (w : World) (h : (proveRound cfg w []).1 = .panic) : Poisoned cfg w := by
  match ho : w.owner [] (Address.bytes cfg.signer) with
  | .error e =>
    unfold proveRound at h
    rw [ask_owner, ho] at h
    cases h
  | .ok owner =>
    generalize ht : w.now [.getOwner (Address.bytes cfg.signer)] = t
    match ha : w.filtered ((proveHeader cfg owner t).take 2) (assignedFilter owner t) with
    | .error e =>
      unfold proveRound at h
      rw [ask_owner, ho, andThen_ok, ask_now, ask_filtered] at h
      simp only [List.nil_append, List.cons_append, ht] at h
      have ha' : w.filtered [.getOwner (Address.bytes cfg.signer), .now]
        { status := .assigned, minimumDeadline := t, fulfiller := some owner, limit := 1 } = .error e := ha
      rw [ha'] at h
      cases h
    | .ok reqs =>
      obtain ⟨seg, o, h1, h2⟩ := c53_round_partial cfg w owner t reqs ho ht ha
      rw [h1] at h
      obtain ⟨before, r, after, seg', pid, sid, p, s, rfl, g1, g2, g3, g4, g5, g6⟩ := handled_panic h2 h
      exact ⟨owner, t, before, r, after, seg', pid, sid, p, s, ho, ht, ha, g1, g2, g3, g4, g5, g6⟩

theorem LastPart.unique {uri a b : Artifacts.Str} (ha : LastPart uri a) (hb : LastPart uri b) : a = b := by
  have key : ∀ {uri n}, LastPart uri n → Artifacts.extractArtifactName uri = some n := by
    rintro uri n ⟨h, rfl | ⟨d, rfl⟩⟩
    · unfold Artifacts.extractArtifactName; rw [Artifacts.splitSlash_plain _ h]; rfl
    · exact Artifacts.splitSlash_last d n h
  exact Option.some.inj ((key ha).symm.trans (key hb))

theorem poisoned_prove_panic (cfg : Config) (w : World) (hl : HonoursLimit cfg w) (h : Poisoned cfg w) :
    (proveRound cfg w []).1 = .panic := by
  obtain ⟨owner, t, before, r, after, seg, pid, sid, p, s, ho, ht, ha, hb, h0, hn, hu, hp, hs⟩ := h
  have hlen := hl owner t _ ha
  have : before = [] ∧ after = [] := by
    rw [List.length_append, List.length_cons] at hlen
    exact ⟨List.length_eq_zero_iff.mp (by omega), List.length_eq_zero_iff.mp (by omega)⟩
  obtain ⟨rfl, rfl⟩ := this
  cases hb
  obtain ⟨seg, o, h1, h2⟩ := c53_round_partial cfg w owner t _ ho ht ha
  rw [h1]
  rw [List.append_nil] at hu hp hs
  cases h2 with
  | answered hans _ =>
    exfalso
    have hm : ∀ m, ¬ ModeOf r.mode m := by
      intro m hm
      rw [h0] at hm
      rcases hm with ⟨h, _⟩ | ⟨h, _⟩ | ⟨h, _⟩ | ⟨h, _⟩ | ⟨h, _⟩ <;> revert h <;> decide
    cases hans with
    | unexecutable _ hu' => rw [hu] at hu'; cases hu'
    | failed _ _ _ _ m _ _ _ _ hm' => exact hm m hm'
    | fulfilled _ _ _ _ m _ _ _ _ _ _ _ hm' => exact hm m hm'
  | abandoned hab =>
    cases hab with
    | program pid' sid' e _ he hn' =>
      exfalso
      obtain rfl := hn.1.unique hn'.1
      rw [show (fetchSeg r pid sid').take 1 = (fetchSeg r pid sid).take 1 from rfl, hp] at he
      cases he
    | stdin pid' sid' _ e _ _ he hn' =>
      exfalso
      obtain rfl := hn.1.unique hn'.1
      obtain rfl := hn.2.unique hn'.2
      rw [hs] at he
      cases he
    | mode => rfl
    | serialize _ _ _ _ m _ _ _ _ _ _ _ hm' =>
      exfalso
      rw [h0] at hm'
      rcases hm' with ⟨h, _⟩ | ⟨h, _⟩ | ⟨h, _⟩ | ⟨h, _⟩ | ⟨h, _⟩ <;> revert h <;> decide

theorem lifeStep_returned (cfg : Config) (es : List Event) (r : Except Unit Unit) :
    es.foldl (lifeStep cfg) (.returned r) = .returned r := by
  induction es with
  | nil => rfl
  | cons e es ih => exact ih

theorem lifeStep_pass (cfg : Config) (b p : World) :
    lifeStep cfg .running (.pass b p) =
      if (proveRound cfg p []).1 = .panic then .returned (.error ()) else .running := by
  have hb := bidRound_no_panic cfg b
  unfold lifeStep
  dsimp only
  cases h1 : (bidRound cfg b []).1 with
  | panic => exact absurd h1 hb
  | ok _ => cases h2 : (proveRound cfg p []).1 <;> simp
  | err _ => cases h2 : (proveRound cfg p []).1 <;> simp

/-! ## C73 -/

/-- What an event must not be for the node to go on. -/
def Event.Harmless (cfg : Config) : Event → Prop
  | .pass _ p => ¬ Poisoned cfg p
  | .record o => ∃ u, o = .ok u

/-- C73: whatever the network, the artifact store, the prover and the clock do, the node runs on, as long as the
prover does not get to a request of unspecified mode and the monitor does not fail. -/
theorem c73_runs_on (cfg : Config) (es : List Event) (h : ∀ e ∈ es, e.Harmless cfg) : life cfg es = .running := by
  unfold life
  induction es with
  | nil => rfl
  | cons e es ih =>
    have hs : lifeStep cfg .running e = .running := by
      have := h e List.mem_cons_self
      cases e with
      | pass b p => rw [lifeStep_pass, if_neg fun hp => this (prove_panic_poisoned cfg p hp)]
      | record o => obtain ⟨u, rfl⟩ := this; rfl
    rw [List.foldl_cons, hs]
    exact ih fun e he => h e (List.mem_cons_of_mem _ he)

/-- C73: on a network that honours the limit of its query, the node stops exactly at the first event that is not
harmless, and what `run` returns is an error unless the monitor returned one. -/
theorem c73_stops (cfg : Config) (es : List Event)
    (hl : ∀ b p, Event.pass b p ∈ es → HonoursLimit cfg p) (r : Except Unit Unit) :
    life cfg es = .returned r ↔
      ∃ before e after, es = before ++ e :: after ∧ (∀ e ∈ before, e.Harmless cfg) ∧ ¬ e.Harmless cfg ∧
        (r = .ok () ↔ ∃ err, e = .record (.err err)) := by
  constructor
  · intro h
    unfold life at h
    induction es with
    | nil => cases h
    | cons e es ih =>
      rw [List.foldl_cons] at h
      by_cases he : e.Harmless cfg
      · have hs : lifeStep cfg .running e = .running := c73_runs_on cfg [e] (by simpa using he)
        rw [hs] at h
        obtain ⟨before, e', after, rfl, h1, h2, h3⟩ := ih (fun b p hm => hl b p (List.mem_cons_of_mem _ hm)) h
        refine ⟨e :: before, e', after, rfl, ?_, h2, h3⟩
        intro x hx
        rcases List.mem_cons.1 hx with rfl | hx
        · exact he
        · exact h1 x hx
      · refine ⟨[], e, es, rfl, by simp, he, ?_⟩
        cases e with
        | pass b p =>
          have hp : Poisoned cfg p := Classical.not_not.mp he
          rw [lifeStep_pass, if_pos (poisoned_prove_panic cfg p (hl b p List.mem_cons_self) hp),
            lifeStep_returned] at h
          cases h
          exact ⟨(nomatch ·), fun ⟨_, h⟩ => (nomatch h)⟩
        | record o =>
          cases o with
          | ok u => exact absurd ⟨u, rfl⟩ he
          | err e =>
            rw [show lifeStep cfg .running (.record (.err e)) = .returned (.ok ()) from rfl, lifeStep_returned] at h
            cases h
            exact ⟨fun _ => ⟨e, rfl⟩, fun _ => rfl⟩
          | panic =>
            rw [show lifeStep cfg .running (.record .panic) = .returned (.error ()) from rfl, lifeStep_returned] at h
            cases h
            exact ⟨(nomatch ·), fun ⟨_, h⟩ => (nomatch h)⟩
  · rintro ⟨before, e, after, rfl, h1, h2, h3⟩
    unfold life
    rw [List.foldl_append, List.foldl_cons, show before.foldl (lifeStep cfg) .running = .running from
      c73_runs_on cfg before h1]
    have hne : ∀ x : Except Unit Unit, (∀ u, x ≠ .ok u) → x = .error () := by
      intro x hx
      cases x with
      | ok u => exact absurd rfl (hx u)
      | error u => rfl
    cases e with
    | pass b p =>
      have hp : Poisoned cfg p := Classical.not_not.mp h2
      rw [lifeStep_pass, if_pos (poisoned_prove_panic cfg p (hl b p (by simp)) hp), lifeStep_returned]
      rw [hne r fun u hu => by obtain ⟨_, h⟩ := h3.1 hu; cases h]
    | record o =>
      cases o with
      | ok u => exact absurd ⟨u, rfl⟩ h2
      | err e =>
        rw [show lifeStep cfg .running (.record (.err e)) = .returned (.ok ()) from rfl, lifeStep_returned,
          h3.2 ⟨e, rfl⟩]
      | panic =>
        rw [show lifeStep cfg .running (.record .panic) = .returned (.error ()) from rfl, lifeStep_returned]
        rw [hne r fun u hu => by obtain ⟨_, h⟩ := h3.1 hu; cases h]

/-- The demo network with a request of unspecified mode assigned to the node. -/
def poisonedWorld : World := fun past q =>
  match q with
  | .filtered _ => Except.ok [{ demoReq with mode := 0 }]
  | q => demoWorld past q

/-- C73: one such request, which anybody can send, ends the node although everything else works. -/
theorem c73_one_request : Poisoned demoConfig poisonedWorld ∧ HonoursLimit demoConfig poisonedWorld ∧
    life demoConfig [.record (.ok ()), .pass demoWorld assignedWorld, .pass brokenWorld brokenWorld,
      .pass demoWorld poisonedWorld, .record (.ok ())] = .returned (.error ()) := by
  refine ⟨prove_panic_poisoned _ _ rfl, ?_, ?_⟩
  rotate_left
  · have h1 : (proveRound demoConfig assignedWorld []).1 ≠ .panic := by
      obtain ⟨seg, h, _⟩ := c53_all_answered_partial demoConfig assignedWorld (Address.bytes 3) 900 [demoReq] rfl rfl rfl
        (fun _ _ _ _ => ⟨[], rfl⟩) (by intro r hr; rw [List.mem_singleton] at hr; subst hr; decide)
        (by intro L p s m c t h; cases h)
      rw [h]
      exact (nomatch ·)
    have h2 : (proveRound demoConfig brokenWorld []).1 ≠ .panic := (nomatch ·)
    have h3 : (proveRound demoConfig poisonedWorld []).1 = .panic := rfl
    unfold life
    rw [List.foldl_cons, show lifeStep demoConfig .running (.record (.ok ())) = .running from rfl, List.foldl_cons,
      lifeStep_pass, if_neg h1, List.foldl_cons, lifeStep_pass, if_neg h2, List.foldl_cons, lifeStep_pass, if_pos h3,
      lifeStep_returned]
  intro owner t reqs h
  have : reqs = [{ demoReq with mode := 0 }] := by
    injection h with h; exact h.symm
  rw [this]
  exact Nat.le_refl 1

/-- C73: the node outlives passes in which nothing works. -/
example : life demoConfig [.pass brokenWorld brokenWorld, .record (.ok ()), .pass brokenWorld brokenWorld] = .running := rfl

/-! ## C74 -/

/-- The network told the node during the pass `a` that request `id` is assigned to the signer's owner and
unexecutable. -/
def Watch.Lists (signer : Address) (a : Watch) (id : Bytes) : Prop :=
  ∃ owner ids, a.owner (Address.bytes signer) = .ok owner ∧
    a.list { assigned := true, unexecutable := true, fulfiller := some owner, limit := 100 } = .ok ids ∧ id ∈ ids

theorem mem_insertAll (ids registry : List Bytes) (x : Bytes) :
    x ∈ insertAll registry ids ↔ x ∈ registry ∨ x ∈ ids := by
  induction ids generalizing registry with
  | nil => simp [insertAll]
  | cons id ids ih =>
    rw [insertAll, ih]
    split
    · next h =>
      rw [List.mem_cons]
      constructor
      · rintro (h | h)
        · exact .inl h
        · exact .inr (.inr h)
      · rintro (h | rfl | h')
        · exact .inl h
        · exact .inl h
        · exact .inr h'
    · simp only [List.mem_cons]
      constructor
      · rintro ((h | h) | h)
        · exact .inr (.inl h)
        · exact .inl h
        · exact .inr (.inr h)
      · rintro (h | h | h)
        · exact .inl (.inr h)
        · exact .inl (.inl h)
        · exact .inr h

theorem mem_watchPass (signer : Address) (a : Watch) (registry : List Bytes) (id : Bytes) :
    id ∈ (watchPass signer a registry).1 ↔ id ∈ registry ∨ a.Lists signer id := by
  unfold watchPass Watch.Lists
  cases ho : a.owner (Address.bytes signer) with
  | error e => simp
  | ok owner =>
    dsimp only
    cases hl : a.list { assigned := true, unexecutable := true, fulfiller := some owner, limit := 100 } with
    | error e => simp [hl]
    | ok ids =>
      dsimp only
      rw [mem_insertAll]
      simp [hl]

/-- C74: the registry holds exactly the requests that the network listed in some pass; failed passes in between
change nothing. -/
theorem c74_registry (signer : Address) (ps : List Watch) (id : Bytes) :
    id ∈ registryAfter signer ps ↔ ∃ a ∈ ps, a.Lists signer id := by
  have key : ∀ (ps : List Watch) (r : List Bytes),
      id ∈ ps.foldl (fun r a => (watchPass signer a r).1) r ↔ id ∈ r ∨ ∃ a ∈ ps, a.Lists signer id := by
    intro ps
    induction ps with
    | nil => simp
    | cons a ps ih =>
      intro r
      rw [List.foldl_cons, ih, mem_watchPass, or_assoc]
      simp
  rw [registryAfter, key]
  simp

/-- The answers of `w` about the registry are those of a registry filled by passes of the watching task; `hist` gives
the passes made by the time of a question, and passes are never undone. -/
structure Watched (cfg : Config) (w : World) (hist : List Query → List Watch) : Prop where
  answer : ∀ L id, w.unexecutable L id = (registryAfter cfg.signer (hist L)).contains id
  grows : ∀ L seg, hist L <+: hist (L ++ seg)

/-- C74: a request that the node answers was attempted (downloaded and proved) if and only if the network had not
listed it as unexecutable by then; otherwise only a failure is reported. -/
theorem c74_attempted (cfg : Config) (w : World) (hist : List Query → List Watch) (hw : Watched cfg w hist)
    (L : List Query) (r : Req) (seg : List Query) (h : Answered cfg w L r seg) :
    ((∃ p s m, Query.runTask p s m ∈ seg) ↔ ¬ ∃ a ∈ hist L, a.Lists cfg.signer r.requestId) ∧
    ((∃ a ∈ hist L, a.Lists cfg.signer r.requestId) → ∀ q ∈ seg, (∀ t i u, q ≠ .download t i u) ∧ (∀ f, q ≠ .fulfill f)) := by
  rw [← c74_registry]
  have hu : w.unexecutable L r.requestId = true ↔ r.requestId ∈ registryAfter cfg.signer (hist L) := by
    rw [hw.answer]; exact List.contains_iff_mem
  rw [← hu]
  constructor
  · constructor
    · rintro ⟨p, s, m, hm⟩ ht
      exact (c53_unexecutable cfg w L r seg h ht _ hm).1 p s m rfl
    · intro hf
      cases h with
      | unexecutable _ ht => exact absurd ht hf
      | failed _ _ p s m => exact ⟨p, s, m, by simp⟩
      | fulfilled _ _ p s m => exact ⟨p, s, m, by simp⟩
  · intro ht q hq
    have := c53_unexecutable cfg w L r seg h ht q hq
    exact ⟨this.2.1, this.2.2⟩

/-- C74: once the network has listed a request, every later round that is assigned it reports it as failed, and no
later round proves it. -/
theorem c74_forever (cfg : Config) (w : World) (hist : List Query → List Watch) (hw : Watched cfg w hist)
    (L L' : List Query) (r : Req) (seg : List Query) (a : Watch) (ha : a ∈ hist L) (hl : a.Lists cfg.signer r.requestId)
    (h : Answered cfg w (L ++ L') r seg) :
    (∃ q ∈ seg, ∃ f, q = .fail f) ∨ ∃ pre e, w.nonce pre (Address.bytes cfg.signer) = .error e := by
  have hmem : a ∈ hist (L ++ L') := (hw.grows L L').subset ha
  have hu : w.unexecutable (L ++ L') r.requestId = true := by
    rw [hw.answer, List.contains_iff_mem, c74_registry]; exact ⟨a, hmem, hl⟩
  cases h with
  | unexecutable tail _ hs =>
    rcases hs.sent with ⟨q, hq, hsub⟩ | ⟨pre, e, _, he⟩
    · obtain ⟨pre, post, hsplit⟩ := List.append_of_mem hq
      obtain ⟨_, nonce, _, _, f, rfl, _⟩ := hs.kind pre q post hsplit hsub
      exact .inl ⟨_, List.mem_cons_of_mem _ hq, f, rfl⟩
    · exact .inr ⟨_, e, he⟩
  | failed _ _ _ _ _ _ hf => rw [hu] at hf; cases hf
  | fulfilled _ _ _ _ _ _ _ _ _ hf => rw [hu] at hf; cases hf

/-- C74: the task that watches the registry aborts a proof only if the network has listed the request: a task that
did not end as cancelled on its own is cancelled only after a look at a registry that has the request. -/
theorem c74_abort (signer : Address) (id : Bytes) (es : List TaskEvent)
    (hreg : ∀ registry, TaskEvent.check registry ∈ es → ∃ ps, registry = registryAfter signer ps)
    (hown : ∀ e, TaskEvent.ends e ∈ es → e ≠ .cancelled) (h : supervise id es = some .cancelled) :
    ∃ ps, TaskEvent.check (registryAfter signer ps) ∈ es ∧ ∃ a ∈ ps, a.Lists signer id := by
  have key : ∀ (es : List TaskEvent) (b : Bool), (∀ e, TaskEvent.ends e ∈ es → e ≠ .cancelled) →
      superviseFrom id b es = some .cancelled → b = true ∨ ∃ registry, TaskEvent.check registry ∈ es ∧ id ∈ registry := by
    intro es
    induction es with
    | nil => intro b _ h; cases h
    | cons e es ih =>
      intro b ho h
      have ho' : ∀ e, TaskEvent.ends e ∈ es → e ≠ .cancelled := fun e he => ho e (List.mem_cons_of_mem _ he)
      cases e with
      | check registry =>
        rcases ih _ ho' h with hb | ⟨reg, h1, h2⟩
        · rw [Bool.or_eq_true] at hb
          rcases hb with hb | hb
          · exact .inl hb
          · exact .inr ⟨registry, List.mem_cons_self, List.contains_iff_mem.mp hb⟩
        · exact .inr ⟨reg, List.mem_cons_of_mem _ h1, h2⟩
      | yield =>
        unfold superviseFrom at h
        split at h
        · next hb => exact .inl hb
        · rcases ih _ ho' h with hb | ⟨reg, h1, h2⟩
          · exact .inl hb
          · exact .inr ⟨reg, List.mem_cons_of_mem _ h1, h2⟩
      | ends e =>
        cases h
        exact absurd rfl (ho _ List.mem_cons_self)
  rcases key es false hown h with hb | ⟨registry, h1, h2⟩
  · cases hb
  · obtain ⟨ps, rfl⟩ := hreg registry h1
    exact ⟨ps, h1, (c74_registry signer ps id).mp h2⟩

/-- C74: conversely, a proof whose request is found in the registry is not carried on: it ends as cancelled at the
next point where an abort takes effect, unless it ends on its own before that. -/
theorem c74_aborted (id : Bytes) (before between after : List TaskEvent) (registry : List Bytes)
    (hr : id ∈ registry) (hrun : supervise id before = none)
    (hb : ∀ e ∈ between, ∃ r, e = .check r) :
    supervise id (before ++ .check registry :: (between ++ .yield :: after)) = some .cancelled ∧
    ∀ e, supervise id (before ++ .check registry :: (between ++ .ends e :: after)) = some e := by
  have h1 : ∀ (before : List TaskEvent) (b : Bool), superviseFrom id b before = none → ∃ b', ∀ rest,
      superviseFrom id b (before ++ rest) = superviseFrom id b' rest := by
    intro before
    induction before with
    | nil => intro b _; exact ⟨b, fun _ => rfl⟩
    | cons e es ih =>
      intro b h
      cases e with
      | check r => exact ih _ h
      | yield =>
        unfold superviseFrom at h
        split at h
        · cases h
        · next hb =>
          obtain ⟨b', h'⟩ := ih _ h
          refine ⟨b', fun rest => ?_⟩
          rw [List.cons_append, superviseFrom, if_neg hb]
          exact h' rest
      | ends e => cases h
  have h2 : ∀ (between : List TaskEvent), (∀ e ∈ between, ∃ r, e = .check r) → ∀ rest,
      superviseFrom id true (between ++ rest) = superviseFrom id true rest := by
    intro between
    induction between with
    | nil => intro _ _; rfl
    | cons e es ih =>
      intro h rest
      obtain ⟨r, rfl⟩ := h e List.mem_cons_self
      rw [List.cons_append, superviseFrom, Bool.true_or]
      exact ih (fun e he => h e (List.mem_cons_of_mem _ he)) rest
  obtain ⟨b', h'⟩ := h1 before false hrun
  have hc : registry.contains id = true := List.contains_iff_mem.mpr hr
  constructor
  · rw [supervise, h', superviseFrom, hc, Bool.or_true, h2 between hb]; rfl
  · intro e
    rw [supervise, h', superviseFrom, hc, Bool.or_true, h2 between hb]; rfl

/-- C74: only the first prover of a process gets the task, so the registry of any other one stays empty. -/
theorem c74_first_prover_only (provers : List Nat) (p : Nat) :
    (p :: provers).foldl ensureTask none = some p := by
  have : ∀ ps : List Nat, ps.foldl ensureTask (some p) = some p := by
    intro ps
    induction ps with
    | nil => rfl
    | cons q ps ih => exact ih
  exact this provers

/-! ## Witnesses -/

/-- A pass that fails, one that lists two requests and one that fails to list. -/
def demoWatches : List Watch :=
  [{ owner := fun _ => .error (.other []), list := fun _ => .ok [] },
   { owner := fun a => .ok a, list := fun f => if f.assigned && f.unexecutable then .ok [[1, 2], [3]] else .ok [[4]] },
   { owner := fun a => .ok a, list := fun _ => .error (.other []) }]

/-- The demo network, with the registry of the demo. -/
def watchedWorld : World := fun past q =>
  match q with
  | .unexecutable id => (registryAfter demoConfig.signer demoWatches).contains id
  | .filtered _ => Except.ok [demoReq]
  | q => demoWorld past q

example : registryAfter 3 demoWatches = [[3], [1, 2]] := rfl

example : Watched demoConfig watchedWorld (fun _ => demoWatches) := ⟨fun _ _ => rfl, fun _ _ => List.prefix_refl _⟩

/-- The demo request is listed, so it is reported as failed without being proved. -/
example : ∃ seg, proveRound demoConfig watchedWorld [] = (.ok (), proveHeader demoConfig (Address.bytes 3) 900 ++ seg) ∧
    Answered demoConfig watchedWorld (proveHeader demoConfig (Address.bytes 3) 900) demoReq seg := by
  obtain ⟨seg, h1, h2⟩ := c53_all_answered_partial demoConfig watchedWorld (Address.bytes 3) 900 [demoReq] rfl rfl rfl
    (fun _ _ _ _ => ⟨[], rfl⟩) (by intro r hr; rw [List.mem_singleton] at hr; subst hr; decide)
    (by intro L p s m c t h; cases h)
  cases h2 with
  | cons ha hr =>
    cases hr
    rw [List.append_nil] at h1
    exact ⟨_, h1, ha⟩

example : supervise [1, 2] [.check [], .yield, .check (registryAfter 3 demoWatches), .yield, .ends .error] =
    some .cancelled := rfl

end Verif.Node
