import Verif.Node
import Verif.PropsRetry
/-
# Lemmas about the node's rounds
-/

namespace Verif.Node
open Retry (RpcError Attempt TransientClass)

theorem bind_run {α β : Type} (m : Io α) (f : α → Io β) (w : World) (L : List Query) :
    (m >>= f) w L = Io.bind m f w L := rfl

theorem pure_run {α : Type} (a : α) (w : World) (L : List Query) : (pure a : Io α) w L = (.ok a, L) := rfl

theorem Io.bind_ok {α β : Type} {m : Io α} {f : α → Io β} {w : World} {L L' : List Query} {a : α}
    (h : m w L = (.ok a, L')) : Io.bind m f w L = f a w L' := by simp [Io.bind, h]

theorem Io.bind_err {α β : Type} {m : Io α} {f : α → Io β} {w : World} {L L' : List Query} {e : RpcError}
    (h : m w L = (.err e, L')) : Io.bind m f w L = (.err e, L') := by simp [Io.bind, h]

theorem Io.bind_panic {α β : Type} {m : Io α} {f : α → Io β} {w : World} {L L' : List Query}
    (h : m w L = (.panic, L')) : Io.bind m f w L = (.panic, L') := by simp [Io.bind, h]

/-- Asking and then going on. -/
theorem ask_bind {β : Type} (q : Query) (f : Answer q → Io β) (w : World) (L : List Query) :
    (ask q >>= f) w L = f (w L q) w (L ++ [q]) := rfl

theorem try_ok_bind {α β : Type} (a : α) (f : α → Io β) (w : World) (L : List Query) :
    (try? (.ok a) >>= f) w L = f a w L := rfl

theorem try_error_bind {α β : Type} (e : RpcError) (f : α → Io β) (w : World) (L : List Query) :
    (try? (.error e) >>= f) w L = (.err e, L) := rfl

/-- The outcome that `?` makes of an answer. -/
def ofExcept {α : Type} : Except RpcError α → Retry.Outcome α
  | .ok a => .ok a
  | .error e => .err e

theorem try_run {α : Type} (x : Except RpcError α) (w : World) (L : List Query) : try? x w L = (ofExcept x, L) := by
  cases x <;> rfl

/-- `n` failed tries of an operation with transient errors, from one log to another. -/
inductive Tries {α : Type} (lower : Retry.Str → Retry.Str) (op : Io α) (w : World) :
    Nat → List Query → List Query → Prop
  | nil (L) : Tries lower op w 0 L L
  | cons {n L L1 L2 e} : op w L = (.err e, L1) → TransientClass lower e →
      Tries lower op w n (L1 ++ [.retryTime]) L2 → Tries lower op w (n + 1) L L2

theorem tries_of_calls {α : Type} {cfg : Config} {op : Io α} {w : World} (init : List (Attempt α)) :
    ∀ (last : Attempt α) (s s' : List Query), Retry.Calls (timed op w) s (init ++ [last]) s' →
      (∀ a ∈ init, ∃ e, a.result = .err e ∧ TransientClass cfg.lower e) →
      ∃ L1 L2, Tries cfg.lower op w init.length s L1 ∧ op w L1 = (last.result, L2) ∧ s' = L2 ++ [.retryTime] := by
  induction init with
  | nil =>
    intro last s s' hc _
    cases hc with
    | cons ho hr =>
      cases hr
      cases ho
      exact ⟨s, (op w s).2, .nil _, rfl, rfl⟩
  | cons a init ih =>
    intro last s s' hc ht
    cases hc with
    | cons ho hr =>
      cases ho
      obtain ⟨L1, L2, h1, h2, h3⟩ := ih last _ s' hr (fun b hb => ht b (List.mem_cons_of_mem _ hb))
      obtain ⟨e, he, htc⟩ := ht _ List.mem_cons_self
      refine ⟨L1, L2, .cons (e := e) (L1 := (op w s).2) ?_ htc h1, h2, h3⟩
      exact Prod.ext he rfl

/-- A retried operation is some failed tries, then a try whose outcome is returned. -/
theorem withRetry_cases {α : Type} (cfg : Config) (op : Io α) (w : World) (L : List Query) :
    ∃ n L1 L2 r, n ≤ 240 ∧ Tries cfg.lower op w n L L1 ∧ op w L1 = (r, L2) ∧
      withRetry cfg op w L = (r, L2 ++ [.retryTime]) := by
  obtain ⟨init, last, ps, s', hc, hr, ht, hl, hp, _⟩ :=
    Retry.c54_policy cfg.lower (timed op w) Retry.defaultBudget L
  obtain ⟨L1, L2, h1, h2, h3⟩ := tries_of_calls (cfg := cfg) init last L s' hc ht
  have hb := Retry.pauses_bound _ ps hp
  refine ⟨init.length, L1, L2, last.result, by omega, h1, h2, ?_⟩
  rw [← h3]; exact hr

/-! ## Bidding -/

/-- Answers of the surroundings, by kind. -/
def World.filtered (w : World) (L : List Query) (f : Filter) : Except RpcError (List Req) := w L (.filtered f)
@[inherit_doc World.filtered]
def World.nonce (w : World) (L : List Query) (a : Bytes) : Except RpcError U64 := w L (.getNonce a)
@[inherit_doc World.filtered]
def World.details (w : World) (L : List Query) (r : Bytes) : Except RpcError (Option Req) := w L (.details r)
@[inherit_doc World.filtered]
def World.now (w : World) (L : List Query) : U64 := w L .now
@[inherit_doc World.filtered]
def World.owner (w : World) (L : List Query) (a : Bytes) : Except RpcError Bytes := w L (.getOwner a)
@[inherit_doc World.filtered]
def World.bid (w : World) (L : List Query) (b : Signed BidBody) : Except RpcError Unit := w L (.bid b)
@[inherit_doc World.filtered]
def World.fulfill (w : World) (L : List Query) (b : Signed FulfillBody) : Except RpcError Unit := w L (.fulfill b)
@[inherit_doc World.filtered]
def World.fail (w : World) (L : List Query) (b : Signed FailBody) : Except RpcError Unit := w L (.fail b)
@[inherit_doc World.filtered]
def World.unexecutable (w : World) (L : List Query) (r : Bytes) : Bool := w L (.unexecutable r)
@[inherit_doc World.filtered]
def World.download (w : World) (L : List Query) (t : Artifacts.ArtifactType) (id uri : Artifacts.Str) :
    Except RpcError Bytes := w L (.download t id uri)
@[inherit_doc World.filtered]
def World.runTask (w : World) (L : List Query) (p s : Bytes) (m : ProofMode) : TaskEnd := w L (.runTask p s m)

/-- The four questions of an attempt that ends in a bid. -/
def bidSeg (cfg : Config) (rid : Bytes) (nonce : U64) : List Query :=
  [.getNonce (Address.bytes cfg.signer), .details rid, .now, .bid (mkBid cfg nonce rid)]

theorem satSub_toNat (a b : U64) : (satSub a b).toNat = a.toNat - b.toNat := by
  unfold satSub
  split
  · next h => rw [BitVec.toNat_sub_of_le h]
  · next h =>
    have : ¬ b.toNat ≤ a.toNat := fun hh => h (BitVec.le_def.2 hh)
    show 0 = _
    omega

/-- Continue after an answer that `?` is applied to. -/
def andThen {α β : Type} (x : Except RpcError α) (k : α → Io β) : Io β := fun w L =>
  match x with
  | .ok a => k a w L
  | .error e => (.err e, L)

theorem ask_nonce {β : Type} (a : Bytes) (k : U64 → Io β) (w : World) (L : List Query) :
    (ask (.getNonce a) >>= fun x => try? x >>= k) w L = andThen (w.nonce L a) k w (L ++ [.getNonce a]) := by
  show (try? (w.nonce L a) >>= k) w (L ++ [.getNonce a]) = _
  cases w.nonce L a <;> rfl

theorem ask_details {β : Type} (a : Bytes) (k : Option Req → Io β) (w : World) (L : List Query) :
    (ask (.details a) >>= fun x => try? x >>= k) w L = andThen (w.details L a) k w (L ++ [.details a]) := by
  show (try? (w.details L a) >>= k) w (L ++ [.details a]) = _
  cases w.details L a <;> rfl

theorem ask_filtered {β : Type} (f : Filter) (k : List Req → Io β) (w : World) (L : List Query) :
    (ask (.filtered f) >>= fun x => try? x >>= k) w L = andThen (w.filtered L f) k w (L ++ [.filtered f]) := by
  show (try? (w.filtered L f) >>= k) w (L ++ [.filtered f]) = _
  cases w.filtered L f <;> rfl

theorem ask_owner {β : Type} (a : Bytes) (k : Bytes → Io β) (w : World) (L : List Query) :
    (fetchOwner a >>= k) w L = andThen (w.owner L a) k w (L ++ [.getOwner a]) := by
  show (try? (w.owner L a) >>= k) w (L ++ [.getOwner a]) = _
  cases w.owner L a <;> rfl

theorem ask_now {β : Type} (k : U64 → Io β) (w : World) (L : List Query) :
    (timeNow >>= k) w L = k (w.now L) w (L ++ [.now]) := rfl

theorem ask_bid (b : Signed BidBody) (w : World) (L : List Query) :
    (ask (.bid b) >>= fun x => try? x) w L = (ofExcept (w.bid L b), L ++ [.bid b]) := by
  show try? (w.bid L b) w (L ++ [.bid b]) = _
  cases w.bid L b <;> rfl

theorem ask_fail (b : Signed FailBody) (w : World) (L : List Query) :
    (ask (.fail b) >>= fun x => try? x) w L = (ofExcept (w.fail L b), L ++ [.fail b]) := by
  show try? (w.fail L b) w (L ++ [.fail b]) = _
  cases w.fail L b <;> rfl

theorem ask_fulfill (b : Signed FulfillBody) (w : World) (L : List Query) :
    (ask (.fulfill b) >>= fun x => try? x) w L = (ofExcept (w.fulfill L b), L ++ [.fulfill b]) := by
  show try? (w.fulfill L b) w (L ++ [.fulfill b]) = _
  cases w.fulfill L b <;> rfl

theorem andThen_ok {α β : Type} (a : α) (k : α → Io β) (w : World) (L : List Query) :
    andThen (.ok a) k w L = k a w L := rfl

theorem andThen_error {α β : Type} (e : RpcError) (k : α → Io β) (w : World) (L : List Query) :
    andThen (.error e) k w L = (.err e, L) := rfl

/-- Either an attempt asks no more than three questions, none of them a bid, or it asks for the nonce and the
details, looks at the clock, has enough time and bids. -/
theorem bidAttempt_cases (cfg : Config) (rid : Bytes) (w : World) (L : List Query) :
    (∃ r seg, bidAttempt cfg rid w L = (r, L ++ seg) ∧ ∀ b, Query.bid b ∉ seg) ∨
    (∃ nonce d, w.nonce L (Address.bytes cfg.signer) = .ok nonce ∧
      w.details (L ++ [.getNonce (Address.bytes cfg.signer)]) rid = .ok (some d) ∧
      (cfg.requiredTime d.gasLimit).toNat ≤
        d.deadline.toNat - (w.now (L ++ [.getNonce (Address.bytes cfg.signer), .details rid])).toNat ∧
      bidAttempt cfg rid w L =
        (ofExcept (w.bid (L ++ [.getNonce (Address.bytes cfg.signer), .details rid, .now]) (mkBid cfg nonce rid)),
          L ++ bidSeg cfg rid nonce)) := by
  unfold bidAttempt
  rw [ask_nonce]
  match hn : w.nonce L (Address.bytes cfg.signer) with
  | .error e => exact .inl ⟨_, _, rfl, by simp⟩
  | .ok nonce =>
    rw [andThen_ok, ask_details, List.append_assoc]
    match hd : w.details (L ++ [.getNonce (Address.bytes cfg.signer)]) rid with
    | .error e => exact .inl ⟨_, _, by rw [hd]; rfl, by simp⟩
    | .ok none => exact .inl ⟨_, _, by rw [hd]; rfl, by simp⟩
    | .ok (some d) =>
      rw [hd, andThen_ok]
      dsimp only
      rw [ask_now, List.append_assoc]
      split
      · exact .inl ⟨_, _, rfl, by simp⟩
      · next h =>
        right
        refine ⟨nonce, d, rfl, rfl, ?_, ?_⟩
        · rw [← satSub_toNat]
          have := BitVec.not_lt.1 h
          exact BitVec.le_def.1 this
        · rw [ask_bid]
          simp [bidSeg]

/-! ## Statements about every question in a log -/

/-- `P past q` for every question `q` of `seg`, `past` being what was asked before it, starting from `L`. -/
def Each (P : List Query → Query → Prop) : List Query → List Query → Prop
  | _, [] => True
  | L, q :: seg => P L q ∧ Each P (L ++ [q]) seg

theorem each_append {P : List Query → Query → Prop} {L s1 s2 : List Query} :
    Each P L (s1 ++ s2) ↔ Each P L s1 ∧ Each P (L ++ s1) s2 := by
  induction s1 generalizing L with
  | nil => simp [Each]
  | cons q s1 ih => simp only [List.cons_append, Each, ih, List.append_assoc, List.nil_append, and_assoc]

theorem each_split {P : List Query → Query → Prop} {L seg : List Query} (h : Each P L seg) (pre post : List Query)
    (q : Query) (hs : seg = pre ++ q :: post) : P (L ++ pre) q := by
  subst hs
  exact (each_append.1 h).2.1

theorem each_of_mem {P : List Query → Query → Prop} {L seg : List Query} (h : ∀ q ∈ seg, ∀ L, P L q) :
    Each P L seg := by
  induction seg generalizing L with
  | nil => trivial
  | cons q seg ih =>
    exact ⟨h q List.mem_cons_self L, ih (fun q hq => h q (List.mem_cons_of_mem _ hq))⟩

theorem each_mono {P Q : List Query → Query → Prop} (hPQ : ∀ L q, P L q → Q L q) {L seg : List Query}
    (h : Each P L seg) : Each Q L seg := by
  induction seg generalizing L with
  | nil => trivial
  | cons q seg ih => exact ⟨hPQ _ _ h.1, ih h.2⟩

/-- What an attempt guarantees of each question, its failed tries and the last one guarantee together. -/
theorem tries_each {α : Type} {lower : Retry.Str → Retry.Str} {op : Io α} {w : World} {P : List Query → Query → Prop}
    (hop : ∀ L e L', op w L = (.err e, L') → TransientClass lower e → ∃ seg, L' = L ++ seg ∧ Each P L seg)
    (hrt : ∀ L, P L .retryTime) {n : Nat} {L L1 : List Query} (h : Tries lower op w n L L1) : ∃ seg, L1 = L ++ seg ∧ Each P L seg := by
  induction h with
  | nil L => exact ⟨[], by simp, trivial⟩
  | cons ho ht _ ih =>
    obtain ⟨s1, rfl, h1⟩ := hop _ _ _ ho ht
    obtain ⟨s2, rfl, h2⟩ := ih
    refine ⟨s1 ++ .retryTime :: s2, by simp, ?_⟩
    rw [each_append]
    exact ⟨h1, hrt _, h2⟩

theorem withRetry_each {α : Type} {cfg : Config} {op : Io α} {w : World} {P : List Query → Query → Prop}
    (hop : ∀ L r L', op w L = (r, L') → ∃ seg, L' = L ++ seg ∧ Each P L seg) (hrt : ∀ L, P L .retryTime)
    {L L' : List Query} {r} (h : withRetry cfg op w L = (r, L')) : ∃ seg, L' = L ++ seg ∧ Each P L seg := by
  obtain ⟨n, L1, L2, r', _, htr, ho, hw⟩ := withRetry_cases cfg op w L
  rw [hw] at h
  cases h
  obtain ⟨s1, rfl, h1⟩ := tries_each (fun L e L' h _ => hop L (.err e) L' h) hrt htr
  obtain ⟨s2, rfl, h2⟩ := hop _ _ _ ho
  refine ⟨s1 ++ (s2 ++ [.retryTime]), by simp, ?_⟩
  rw [each_append, each_append]
  exact ⟨h1, h2, hrt _, trivial⟩

/-! ## The bidding round -/

/-- The filters of the two list queries. -/
def assignedFilter (owner : Bytes) (t : U64) : Filter :=
  { status := .assigned, minimumDeadline := t, fulfiller := some owner, limit := 1 }
@[inherit_doc assignedFilter]
def openFilter (owner : Bytes) (t : U64) : Filter :=
  { status := .requested, minimumDeadline := t, notBidBy := some owner, limit := 1 }

/-- The questions a bidding round asks before it looks at a request. -/
def bidHeader (cfg : Config) (owner : Bytes) (t1 t2 : U64) : List Query :=
  [.getOwner (Address.bytes cfg.signer), .now, .filtered (assignedFilter owner t1), .now,
    .filtered (openFilter owner t2)]

/-- A bidding round that gets past its two list queries with exactly one open request retries the attempt; any
other one asks only header questions. -/
theorem bidRound_cases (cfg : Config) (w : World) :
    (∃ r log, bidRound cfg w [] = (r, log) ∧ log.length ≤ 5 ∧ (∀ b, Query.bid b ∉ log)) ∨
    (∃ owner t1 t2 req, w.owner [] (Address.bytes cfg.signer) = .ok owner ∧
      w.now ((bidHeader cfg owner t1 t2).take 1) = t1 ∧
      w.filtered ((bidHeader cfg owner t1 t2).take 2) (assignedFilter owner t1) = .ok [] ∧
      w.now ((bidHeader cfg owner t1 t2).take 3) = t2 ∧
      w.filtered ((bidHeader cfg owner t1 t2).take 4) (openFilter owner t2) = .ok [req] ∧
      bidRound cfg w [] = withRetry cfg (bidAttempt cfg req.requestId) w (bidHeader cfg owner t1 t2)) := by
  unfold bidRound
  rw [ask_owner]
  match ho : w.owner [] (Address.bytes cfg.signer) with
  | .error e => exact .inl ⟨_, _, rfl, by simp, by simp⟩
  | .ok owner =>
    rw [andThen_ok, ask_now, ask_filtered]
    simp only [List.nil_append, List.cons_append]
    generalize ht1 : w.now [.getOwner (Address.bytes cfg.signer)] = t1
    match ha : w.filtered [.getOwner (Address.bytes cfg.signer), .now] (assignedFilter owner t1) with
    | .error e =>
      refine .inl ⟨.err e, [.getOwner (Address.bytes cfg.signer), .now, .filtered (assignedFilter owner t1)], ?_, by simp, by simp⟩
      rfl
    | .ok (x :: xs) =>
      refine .inl ⟨.ok (), [.getOwner (Address.bytes cfg.signer), .now, .filtered (assignedFilter owner t1)], ?_, by simp, by simp⟩
      rfl
    | .ok [] =>
      rw [andThen_ok, if_neg (by simp), ask_now, ask_filtered]
      simp only [List.nil_append, List.cons_append]
      generalize ht2 : w.now _ = t2
      match hu : w.filtered [.getOwner (Address.bytes cfg.signer), .now, .filtered (assignedFilter owner t1), .now]
          (openFilter owner t2) with
      | .error e =>
        refine .inl ⟨.err e, bidHeader cfg owner t1 t2, ?_, by simp [bidHeader], by simp [bidHeader]⟩
        rfl
      | .ok [] =>
        refine .inl ⟨.ok (), bidHeader cfg owner t1 t2, ?_, by simp [bidHeader], by simp [bidHeader]⟩
        rfl
      | .ok (_ :: _ :: _) =>
        refine .inl ⟨.ok (), bidHeader cfg owner t1 t2, ?_, by simp [bidHeader], by simp [bidHeader]⟩
        rfl
      | .ok [req] =>
        refine .inr ⟨owner, t1, t2, req, rfl, ht1, ha, ?_, hu, ?_⟩
        · exact ht2
        · rfl

end Verif.Node
