import Verif.PropsNode
import Verif.ArtifactProofs
/-
# C53: the serial prover
-/

namespace Verif.Node
open Retry (RpcError TransientClass)

/-! ## Specification -/

/-- Messages that answer a request: a fulfilment or a failure report. -/
def Query.isSubmission : Query → Bool
  | .fulfill _ => true
  | .fail _ => true
  | _ => false

/-- The network's answer to a submission. -/
def World.submit (w : World) (L : List Query) : Query → Except RpcError Unit
  | .fulfill f => w.fulfill L f
  | .fail f => w.fail L f
  | _ => .ok ()

/-- A failure report for a request, signed over its binary encoding. -/
def IsFail (cfg : Config) (rid : Bytes) (nonce : U64) (q : Query) : Prop :=
  ∃ f, q = .fail f ∧ f.format = 1 ∧ f.body = some ⟨nonce, rid, none⟩ ∧
    f.signature = cfg.sign (encFields (FailBody.mk nonce rid none).fields)

/-- A fulfilment of a request with a proof, for the mainnet domain, signed over its binary encoding. -/
def IsFulfill (cfg : Config) (rid proof : Bytes) (nonce : U64) (q : Query) : Prop :=
  ∃ f body, q = .fulfill f ∧ f.format = 1 ∧ f.body = some body ∧ f.signature = cfg.sign (Body.fulfill body).encode ∧
    body = ⟨nonce, rid, proof, none, beBytes 32 cfg.mainnetDomain.toNat, 4⟩

/-- `seg`, asked after `L`, submits one message: every submission in it is of the kind `M` with the nonce asked for
just before, a submission is repeated only after a transient error, there is one unless the last nonce could
not be fetched, and nothing else is done besides. -/
structure Submits (cfg : Config) (w : World) (M : U64 → Query → Prop) (L seg : List Query) : Prop where
  kind : ∀ pre q post, seg = pre ++ q :: post → q.isSubmission →
    ∃ pre' nonce, pre = pre' ++ [.getNonce (Address.bytes cfg.signer)] ∧
      w.nonce (L ++ pre') (Address.bytes cfg.signer) = .ok nonce ∧ M nonce q
  once : ∀ pre q post, seg = pre ++ q :: post → q.isSubmission → (∃ q' ∈ post, q'.isSubmission) →
    ∃ e, w.submit (L ++ pre) q = .error e ∧ TransientClass cfg.lower e
  sent : (∃ q ∈ seg, q.isSubmission) ∨
    ∃ pre e, seg = pre ++ [.getNonce (Address.bytes cfg.signer), .retryTime] ∧
      w.nonce (L ++ pre) (Address.bytes cfg.signer) = .error e
  only : ∀ q ∈ seg, q = .getNonce (Address.bytes cfg.signer) ∨ q = .retryTime ∨ q.isSubmission

/-- `name` is what follows the last slash of `uri` (all of it if there is none). -/
def LastPart (uri name : Artifacts.Str) : Prop := '/' ∉ name ∧ (uri = name ∨ ∃ dir, uri = dir ++ '/' :: name)

/-- The names of the program and of the input of a request. -/
def Named (r : Req) (programId stdinId : Artifacts.Str) : Prop :=
  LastPart r.programUri programId ∧ LastPart r.stdinUri stdinId

/-- The questions before the proving task is started. -/
def fetchSeg (r : Req) (programId stdinId : Artifacts.Str) : List Query :=
  [.unexecutable r.requestId, .download .program programId r.programUri, .download .stdin stdinId r.stdinUri]

/-- The mode asked of the prover: the request's, or core if the number is unknown. -/
def ModeOf (mode : I32) (m : ProofMode) : Prop :=
  (mode = 1 ∧ m = .core) ∨ (mode = 2 ∧ m = .compressed) ∨ (mode = 3 ∧ m = .plonk) ∨ (mode = 4 ∧ m = .groth16) ∨
  (mode ∉ [0, 1, 2, 3, 4] ∧ m = .core)

/-- A request is answered: reported as failed without being proved if it is registered as unexecutable; otherwise
its artifacts are downloaded and proved, and then either the proof is counted and submitted or a failure is
reported. -/
inductive Answered (cfg : Config) (w : World) (L : List Query) (r : Req) : List Query → Prop
  | unexecutable (tail) : w.unexecutable L r.requestId = true →
      Submits cfg w (IsFail cfg r.requestId) (L ++ [.unexecutable r.requestId]) tail →
      Answered cfg w L r (.unexecutable r.requestId :: tail)
  | failed (programId stdinId program stdin mode tail) : w.unexecutable L r.requestId = false →
      w.download (L ++ (fetchSeg r programId stdinId).take 1) .program programId r.programUri = .ok program →
      w.download (L ++ (fetchSeg r programId stdinId).take 2) .stdin stdinId r.stdinUri = .ok stdin →
      ModeOf r.mode mode →
      (∀ b c t, w.runTask (L ++ fetchSeg r programId stdinId) program stdin mode ≠ .proof b c t) →
      Submits cfg w (IsFail cfg r.requestId) (L ++ (fetchSeg r programId stdinId ++ [.runTask program stdin mode])) tail →
      Named r programId stdinId →
      Answered cfg w L r (fetchSeg r programId stdinId ++ [.runTask program stdin mode] ++ tail)
  | fulfilled (programId stdinId program stdin mode proof cycles millis tail) :
      w.unexecutable L r.requestId = false →
      w.download (L ++ (fetchSeg r programId stdinId).take 1) .program programId r.programUri = .ok program →
      w.download (L ++ (fetchSeg r programId stdinId).take 2) .stdin stdinId r.stdinUri = .ok stdin →
      ModeOf r.mode mode →
      w.runTask (L ++ fetchSeg r programId stdinId) program stdin mode = .proof (some proof) cycles millis →
      Submits cfg w (IsFulfill cfg r.requestId proof)
        (L ++ (fetchSeg r programId stdinId ++ [.runTask program stdin mode, .countProof cycles millis])) tail →
      Named r programId stdinId →
      Answered cfg w L r
        (fetchSeg r programId stdinId ++ [.runTask program stdin mode, .countProof cycles millis] ++ tail)

/-- A request is abandoned without any submission, and the round ends: a download failed, the mode is unspecified
(a panic), or the proof could not be serialised. -/
inductive Abandoned (cfg : Config) (w : World) (L : List Query) (r : Req) : List Query → Retry.Outcome Unit → Prop
  | program (programId stdinId e) : w.unexecutable L r.requestId = false →
      w.download (L ++ (fetchSeg r programId stdinId).take 1) .program programId r.programUri = .error e →
      Named r programId stdinId →
      Abandoned cfg w L r ((fetchSeg r programId stdinId).take 2) (.err e)
  | stdin (programId stdinId program e) : w.unexecutable L r.requestId = false →
      w.download (L ++ (fetchSeg r programId stdinId).take 1) .program programId r.programUri = .ok program →
      w.download (L ++ (fetchSeg r programId stdinId).take 2) .stdin stdinId r.stdinUri = .error e →
      Named r programId stdinId →
      Abandoned cfg w L r (fetchSeg r programId stdinId) (.err e)
  | mode (programId stdinId program stdin) : w.unexecutable L r.requestId = false → r.mode = 0 →
      w.download (L ++ (fetchSeg r programId stdinId).take 1) .program programId r.programUri = .ok program →
      w.download (L ++ (fetchSeg r programId stdinId).take 2) .stdin stdinId r.stdinUri = .ok stdin →
      Named r programId stdinId →
      Abandoned cfg w L r (fetchSeg r programId stdinId) .panic
  | serialize (programId stdinId program stdin mode cycles millis e) : w.unexecutable L r.requestId = false →
      w.runTask (L ++ fetchSeg r programId stdinId) program stdin mode = .proof none cycles millis →
      w.download (L ++ (fetchSeg r programId stdinId).take 1) .program programId r.programUri = .ok program →
      w.download (L ++ (fetchSeg r programId stdinId).take 2) .stdin stdinId r.stdinUri = .ok stdin →
      ModeOf r.mode mode → Named r programId stdinId →
      Abandoned cfg w L r (fetchSeg r programId stdinId ++ [.runTask program stdin mode, .countProof cycles millis]) (.err e)

/-- How a list of requests is handled: each one answered in turn, until one is abandoned. -/
inductive Handled (cfg : Config) (w : World) : List Query → List Req → List Query → Retry.Outcome Unit → Prop
  | done (L) : Handled cfg w L [] [] (.ok ())
  | answered {L r rs seg rest o} : Answered cfg w L r seg → Handled cfg w (L ++ seg) rs rest o →
      Handled cfg w L (r :: rs) (seg ++ rest) o
  | abandoned {L r rs seg o} : Abandoned cfg w L r seg o → Handled cfg w L (r :: rs) seg o

/-! ## Lemmas -/

/-- Shape of a single attempt to submit: the nonce, then the message. -/
def SubmitShape (cfg : Config) (w : World) (M : U64 → Query → Prop) (op : Io Unit) : Prop :=
  ∀ L, (∃ e, w.nonce L (Address.bytes cfg.signer) = .error e ∧
      op w L = (.err e, L ++ [.getNonce (Address.bytes cfg.signer)])) ∨
    (∃ nonce q, w.nonce L (Address.bytes cfg.signer) = .ok nonce ∧ M nonce q ∧ q.isSubmission = true ∧
      op w L = (ofExcept (w.submit (L ++ [.getNonce (Address.bytes cfg.signer)]) q),
        L ++ [.getNonce (Address.bytes cfg.signer), q]))

theorem failAttempt_shape (cfg : Config) (w : World) (rid : Bytes) :
    SubmitShape cfg w (IsFail cfg rid) (failAttempt cfg rid) := by
  intro L
  unfold failAttempt
  rw [ask_nonce]
  match hn : w.nonce L (Address.bytes cfg.signer) with
  | .error e => exact .inl ⟨e, rfl, rfl⟩
  | .ok nonce =>
    refine .inr ⟨nonce, .fail (mkFail cfg nonce rid), rfl, ⟨_, rfl, rfl, rfl, rfl⟩, rfl, ?_⟩
    rw [andThen_ok, ask_fail]
    exact Prod.ext rfl (by simp)

theorem fulfillAttempt_shape (cfg : Config) (w : World) (rid proof : Bytes) :
    SubmitShape cfg w (IsFulfill cfg rid proof) (fulfillAttempt cfg rid proof) := by
  intro L
  unfold fulfillAttempt
  rw [ask_nonce]
  match hn : w.nonce L (Address.bytes cfg.signer) with
  | .error e => exact .inl ⟨e, rfl, rfl⟩
  | .ok nonce =>
    refine .inr ⟨nonce, .fulfill (mkFulfill cfg nonce rid proof), rfl, ⟨_, _, rfl, rfl, rfl, rfl, rfl⟩, rfl, ?_⟩
    rw [andThen_ok, ask_fulfill]
    exact Prod.ext rfl (by simp)

/-- The predicate behind `Submits.kind`, for use with `Each`, relative to the start `L0`. -/
def KindP (cfg : Config) (w : World) (M : U64 → Query → Prop) (L0 past : List Query) (q : Query) : Prop :=
  q.isSubmission → ∀ pre, past = L0 ++ pre → ∃ pre' nonce, pre = pre' ++ [.getNonce (Address.bytes cfg.signer)] ∧
      w.nonce (L0 ++ pre') (Address.bytes cfg.signer) = .ok nonce ∧ M nonce q

/-- The predicate behind `Submits.once`. -/
def OnceP (cfg : Config) (w : World) (past : List Query) (q : Query) : Prop :=
  q.isSubmission → ∃ e, w.submit past q = .error e ∧ TransientClass cfg.lower e

theorem shape_kind {cfg : Config} {w : World} {M : U64 → Query → Prop} {op : Io Unit} (h : SubmitShape cfg w M op)
    {L0 x L' : List Query} {r : Retry.Outcome Unit} (ho : op w (L0 ++ x) = (r, L')) :
    ∃ seg, L' = L0 ++ x ++ seg ∧ Each (KindP cfg w M L0) (L0 ++ x) seg := by
  rcases h (L0 ++ x) with ⟨e, _, h'⟩ | ⟨nonce, q, hn, hM, hq, h'⟩
  · rw [ho] at h'; cases h'
    exact ⟨_, rfl, (nomatch ·), trivial⟩
  · rw [ho] at h'; cases h'
    refine ⟨_, rfl, (nomatch ·), ?_, trivial⟩
    intro _ pre hpre
    rw [List.append_assoc, List.append_cancel_left_eq] at hpre
    exact ⟨x, nonce, hpre.symm, hn, hM⟩

theorem shape_only {cfg : Config} {w : World} {M : U64 → Query → Prop} {op : Io Unit} (h : SubmitShape cfg w M op)
    (L : List Query) (r : Retry.Outcome Unit) (L' : List Query) (ho : op w L = (r, L')) :
    ∃ seg, L' = L ++ seg ∧ Each (fun _ q => q = .getNonce (Address.bytes cfg.signer) ∨ q = .retryTime ∨ q.isSubmission) L seg := by
  rcases h L with ⟨e, _, h'⟩ | ⟨nonce, q, hn, hM, hq, h'⟩
  · rw [ho] at h'; cases h'
    exact ⟨_, rfl, .inl rfl, trivial⟩
  · rw [ho] at h'; cases h'
    exact ⟨_, rfl, .inl rfl, .inr (.inr hq), trivial⟩

theorem each_mem {P : Query → Prop} {L seg : List Query} (h : Each (fun _ q => P q) L seg) : ∀ q ∈ seg, P q := by
  induction seg generalizing L with
  | nil => simp
  | cons q seg ih =>
    intro q' hq'
    rcases List.mem_cons.1 hq' with rfl | hq'
    · exact h.1
    · exact ih h.2 q' hq'

theorem submits_of_retry {cfg : Config} {w : World} {M : U64 → Query → Prop} {op : Io Unit}
    (h : SubmitShape cfg w M op) (L : List Query) :
    ∃ seg r, withRetry cfg op w L = (r, L ++ seg) ∧ r ≠ .panic ∧ Submits cfg w M L seg := by
  obtain ⟨n, L1, L2, r, _, htr, hop, hw⟩ := withRetry_cases cfg op w L
  -- failed tries
  have hfail : ∀ n x L1, Tries cfg.lower op w n (L ++ x) L1 →
      ∃ seg, L1 = L ++ x ++ seg ∧ Each (KindP cfg w M L) (L ++ x) seg ∧ Each (OnceP cfg w) (L ++ x) seg := by
    intro n
    induction n with
    | zero => intro x L1 ht; cases ht; exact ⟨[], by simp, trivial, trivial⟩
    | succ n ih =>
      intro x L1 ht
      cases ht with
      | cons ho hte hrest =>
        obtain ⟨s1, hs1, hk1⟩ := shape_kind h ho
        have ho1 : Each (OnceP cfg w) (L ++ x) s1 := by
          rcases h (L ++ x) with ⟨e', _, h'⟩ | ⟨nonce, q, _, _, _, h'⟩
          · rw [ho] at h'
            injection h' with _ h'
            rw [hs1, List.append_cancel_left_eq] at h'
            subst h'
            exact ⟨(nomatch ·), trivial⟩
          · rw [ho] at h'
            injection h' with h1 h'
            rw [hs1, List.append_cancel_left_eq] at h'
            subst h'
            refine ⟨(nomatch ·), ?_, trivial⟩
            intro _
            cases hsub : w.submit (L ++ x ++ [.getNonce (Address.bytes cfg.signer)]) q with
            | error e' => rw [hsub] at h1; cases h1; exact ⟨_, rfl, hte⟩
            | ok u => rw [hsub] at h1; cases h1
        subst hs1
        rw [List.append_assoc, List.append_assoc] at hrest
        obtain ⟨s2, rfl, hk2, ho2⟩ := ih _ _ hrest
        refine ⟨s1 ++ .retryTime :: s2, by simp, ?_, ?_⟩
        · rw [each_append]
          refine ⟨hk1, (nomatch ·), ?_⟩
          simpa using hk2
        · rw [each_append]
          refine ⟨ho1, (nomatch ·), ?_⟩
          simpa using ho2
  obtain ⟨s1, rfl, hk1, ho1⟩ := hfail n [] L1 (by simpa using htr)
  simp only [List.append_nil] at hk1 ho1 hop
  obtain ⟨s2, rfl, hk2⟩ := shape_kind h hop
  refine ⟨s1 ++ (s2 ++ [.retryTime]), r, by rw [hw]; simp, ?_, ?_⟩
  · rcases h (L ++ s1) with ⟨e', _, h'⟩ | ⟨nonce, q, _, _, _, h'⟩
    · rw [hop] at h'
      injection h' with h' _
      rw [h']
      exact (nomatch ·)
    · rw [hop] at h'
      injection h' with h' _
      rw [h']
      cases w.submit (L ++ s1 ++ [.getNonce (Address.bytes cfg.signer)]) q <;> exact (nomatch ·)
  have hkind : Each (KindP cfg w M L) L (s1 ++ (s2 ++ [.retryTime])) := by
    rw [each_append, each_append]
    exact ⟨hk1, hk2, (nomatch ·), trivial⟩
  have hs2 : (∃ e, s2 = [.getNonce (Address.bytes cfg.signer)] ∧
      w.nonce (L ++ s1) (Address.bytes cfg.signer) = .error e) ∨
      (∃ q, s2 = [.getNonce (Address.bytes cfg.signer), q] ∧ q.isSubmission = true) := by
    rcases h (L ++ s1) with ⟨e', hne, h'⟩ | ⟨nonce, q, _, _, hq, h'⟩
    · rw [hop] at h'
      injection h' with _ h'
      rw [List.append_cancel_left_eq] at h'
      exact .inl ⟨e', h', hne⟩
    · rw [hop] at h'
      injection h' with _ h'
      rw [List.append_cancel_left_eq] at h'
      exact .inr ⟨q, h', hq⟩
  constructor
  · intro pre q post hseg hq
    exact each_split hkind pre post q hseg hq pre rfl
  · intro pre q post hseg hq hpost
    rcases append_eq_split hseg with ⟨y, hy, _⟩ | ⟨y, rfl, hy⟩
    · exact each_split ho1 pre y q hy hq
    · exfalso
      obtain ⟨q', hq', hsub⟩ := hpost
      have hlen : ((s2 ++ [Query.retryTime]).filter Query.isSubmission).length ≤ 1 := by
        rcases hs2 with ⟨e, rfl, _⟩ | ⟨q, rfl, hq⟩
        · simp [Query.isSubmission]
        · rw [List.cons_append, List.cons_append, List.filter_cons_of_neg (by simp [Query.isSubmission]),
            List.filter_cons_of_pos hq]
          exact Nat.le_refl 1
      rw [hy, List.filter_append, List.filter_cons_of_pos hq, List.length_append, List.length_cons] at hlen
      have : 0 < (post.filter Query.isSubmission).length :=
        List.length_pos_iff_exists_mem.2 ⟨_, List.mem_filter.2 ⟨hq', hsub⟩⟩
      omega
  · rcases hs2 with ⟨e, rfl, he⟩ | ⟨q, rfl, hq⟩
    · exact .inr ⟨s1, e, by simp, he⟩
    · exact .inl ⟨q, by simp, hq⟩
  · obtain ⟨seg', hseg', heach⟩ := withRetry_each (shape_only h) (fun _ => .inr (.inl rfl)) hw
    rw [List.append_assoc, List.append_assoc, List.append_cancel_left_eq] at hseg'
    rw [hseg']
    exact each_mem heach

theorem report_spec (cfg : Config) (w : World) (rid : Bytes) (L : List Query) :
    ∃ seg, reportRequestStatus cfg rid w L = (.ok (), L ++ seg) ∧ Submits cfg w (IsFail cfg rid) L seg := by
  obtain ⟨seg, r, h, hp, hs⟩ := submits_of_retry (failAttempt_shape cfg w rid) L
  refine ⟨seg, ?_, hs⟩
  unfold reportRequestStatus logError failRequest
  rw [h]
  cases r with
  | ok u => rfl
  | err e => rfl
  | panic => exact absurd rfl hp

theorem deliver_spec (cfg : Config) (w : World) (rid proof : Bytes) (L : List Query) :
    ∃ seg, logError (withRetry cfg (fulfillAttempt cfg rid proof)) w L = (.ok (), L ++ seg) ∧
      Submits cfg w (IsFulfill cfg rid proof) L seg := by
  obtain ⟨seg, r, h, hp, hs⟩ := submits_of_retry (fulfillAttempt_shape cfg w rid proof) L
  refine ⟨seg, ?_, hs⟩
  unfold logError
  rw [h]
  cases r with
  | ok u => rfl
  | err e => rfl
  | panic => exact absurd rfl hp

theorem proofMode_spec (mode : I32) (m : ProofMode) (h : proofMode mode = some m) : ModeOf mode m := by
  unfold proofMode at h
  unfold ModeOf
  split at h
  · cases h
  split at h
  · cases h; exact .inl ⟨by assumption, rfl⟩
  split at h
  · cases h; exact .inr (.inl ⟨by assumption, rfl⟩)
  split at h
  · cases h; exact .inr (.inr (.inl ⟨by assumption, rfl⟩))
  split at h
  · cases h; exact .inr (.inr (.inr (.inl ⟨by assumption, rfl⟩)))
  · cases h
    refine .inr (.inr (.inr (.inr ⟨?_, rfl⟩)))
    simp only [List.mem_cons, List.not_mem_nil, or_false, not_or]
    exact ⟨by assumption, by assumption, by assumption, by assumption, by assumption⟩

theorem proofMode_none (mode : I32) (h : proofMode mode = none) : mode = 0 := by
  unfold proofMode at h
  split at h
  · assumption
  · repeat' split at h
    all_goals cases h

theorem ask_unexecutable {β : Type} (a : Bytes) (k : Bool → Io β) (w : World) (L : List Query) :
    (isUnexecutable a >>= k) w L = k (w.unexecutable L a) w (L ++ [.unexecutable a]) := rfl

theorem ask_runTask {β : Type} (p s : Bytes) (m : ProofMode) (k : TaskEnd → Io β) (w : World) (L : List Query) :
    (runTask p s m >>= k) w L = k (w.runTask L p s m) w (L ++ [.runTask p s m]) := rfl

theorem ask_count {β : Type} (c t : Nat) (k : Unit → Io β) (w : World) (L : List Query) :
    (countProof c t >>= k) w L = k () w (L ++ [.countProof c t]) := rfl

theorem ask_download {β : Type} (t : Artifacts.ArtifactType) (id uri : Artifacts.Str) (k : Bytes → Io β) (w : World)
    (L : List Query) : (ask (.download t id uri) >>= fun x => try? x >>= k) w L =
      andThen (w.download L t id uri) k w (L ++ [.download t id uri]) := by
  show (try? (w.download L t id uri) >>= k) w (L ++ [.download t id uri]) = _
  cases w.download L t id uri <;> rfl

theorem extract_lastPart (uri : Artifacts.Str) :
    ∃ n, Artifacts.extractArtifactName uri = some n ∧ LastPart uri n := by
  unfold Artifacts.extractArtifactName
  by_cases h : '/' ∈ uri
  · have : ∃ a b, uri = a ++ '/' :: b ∧ '/' ∉ b := by
      induction uri with
      | nil => exact (List.not_mem_nil h).elim
      | cons c cs ih =>
        by_cases hcs : '/' ∈ cs
        · obtain ⟨a, b, rfl, hb⟩ := ih hcs
          exact ⟨c :: a, b, rfl, hb⟩
        · rcases List.mem_cons.mp h with rfl | h
          · exact ⟨[], cs, rfl, hcs⟩
          · exact (hcs h).elim
    obtain ⟨a, b, rfl, hb⟩ := this
    exact ⟨b, Artifacts.splitSlash_last a b hb, hb, .inr ⟨a, rfl⟩⟩
  · rw [Artifacts.splitSlash_plain uri h]
    exact ⟨uri, rfl, h, .inl rfl⟩

theorem artifactName_bind {β : Type} (uri : Artifacts.Str) (k : Artifacts.Str → Io β) (w : World) (L : List Query) :
    ∃ n, LastPart uri n ∧ (artifactName uri >>= k) w L = k n w L := by
  obtain ⟨n, hn, hl⟩ := extract_lastPart uri
  unfold artifactName
  rw [hn]
  exact ⟨n, hl, rfl⟩

/-- One request is answered, or abandoned. -/
theorem handleRequest_cases (cfg : Config) (w : World) (r : Req) (L : List Query) :
    ∃ seg o, handleRequest cfg r w L = (o, L ++ seg) ∧
      ((o = .ok () ∧ Answered cfg w L r seg) ∨ ((∀ u, o ≠ .ok u) ∧ Abandoned cfg w L r seg o)) := by
  unfold handleRequest
  rw [ask_unexecutable]
  cases hu : w.unexecutable L r.requestId with
  | true =>
    rw [if_pos rfl]
    obtain ⟨seg, h, hs⟩ := report_spec cfg w r.requestId (L ++ [.unexecutable r.requestId])
    exact ⟨_, _, by rw [h, List.append_assoc]; rfl, .inl ⟨rfl, .unexecutable seg hu hs⟩⟩
  | false =>
    rw [if_neg (by simp)]
    obtain ⟨programId, hn1, hp⟩ := artifactName_bind r.programUri _ w (L ++ [.unexecutable r.requestId])
    rw [hp, ask_download]
    cases hd1 : w.download (L ++ [.unexecutable r.requestId]) .program programId r.programUri with
    | error e =>
      exact ⟨_, .err e, by rw [andThen_error, List.append_assoc]; rfl, .inr ⟨(by intro _ h; cases h), .program programId _ e hu hd1 ⟨hn1, (extract_lastPart r.stdinUri).choose_spec.2⟩⟩⟩
    | ok program =>
      rw [andThen_ok]
      obtain ⟨stdinId, hn2, hs⟩ := artifactName_bind r.stdinUri _ w _
      rw [hs, ask_download]
      rw [List.append_assoc, List.append_assoc]
      cases hd2 : w.download (L ++ ([.unexecutable r.requestId] ++ [.download .program programId r.programUri])) .stdin stdinId
          r.stdinUri with
      | error e =>
        exact ⟨_, .err e, by rw [andThen_error]; rfl, .inr ⟨(by intro _ h; cases h), .stdin programId stdinId program e hu hd1 hd2 ⟨hn1, hn2⟩⟩⟩
      | ok stdin =>
        rw [andThen_ok]
        cases hm : proofMode r.mode with
        | none =>
          exact ⟨_, .panic, rfl, .inr ⟨(by intro _ h; cases h), .mode programId stdinId program stdin hu (proofMode_none _ hm) hd1 hd2 ⟨hn1, hn2⟩⟩⟩
        | some mode =>
          have hmode := proofMode_spec _ _ hm
          dsimp only
          rw [ask_runTask, List.append_assoc]
          have hrep : ∀ (hne : ∀ b c t, w.runTask (L ++ fetchSeg r programId stdinId) program stdin mode ≠ .proof b c t),
              ∃ seg o, reportRequestStatus cfg r.requestId w
                  (L ++ fetchSeg r programId stdinId ++ [.runTask program stdin mode]) = (o, L ++ seg) ∧
                ((o = .ok () ∧ Answered cfg w L r seg) ∨ ((∀ u, o ≠ .ok u) ∧ Abandoned cfg w L r seg o)) := by
            intro hne
            obtain ⟨tail, h, hs⟩ := report_spec cfg w r.requestId
              (L ++ (fetchSeg r programId stdinId ++ [.runTask program stdin mode]))
            exact ⟨_, _, by rw [List.append_assoc, h, List.append_assoc],
              .inl ⟨rfl, .failed programId stdinId program stdin mode tail hu hd1 hd2 hmode hne hs ⟨hn1, hn2⟩⟩⟩
          cases ht : w.runTask (L ++ fetchSeg r programId stdinId) program stdin mode with
          | proof bytes cycles millis =>
            have ht' : w.runTask (L ++ ([.unexecutable r.requestId] ++ ([.download .program programId r.programUri] ++
              [.download .stdin stdinId r.stdinUri]))) program stdin mode = .proof bytes cycles millis := ht
            rw [ht']
            dsimp only
            rw [ask_count]
            cases bytes with
            | none =>
              exact ⟨_, _, Prod.ext rfl (by simp [fetchSeg, throw]), .inr ⟨(by intro _ h; cases h),
                .serialize programId stdinId program stdin mode cycles millis _ hu ht hd1 hd2 hmode ⟨hn1, hn2⟩⟩⟩
            | some proof =>
              obtain ⟨tail, h, hs⟩ := deliver_spec cfg w r.requestId proof
                (L ++ (fetchSeg r programId stdinId ++ [.runTask program stdin mode, .countProof cycles millis]))
              refine ⟨_, .ok (), ?_,
                .inl ⟨rfl, .fulfilled programId stdinId program stdin mode proof cycles millis tail hu hd1 hd2 hmode ht hs ⟨hn1, hn2⟩⟩⟩
              have hL : L ++ ([.unexecutable r.requestId] ++ ([.download .program programId r.programUri] ++
                  [.download .stdin stdinId r.stdinUri])) ++ [.runTask program stdin mode] ++ [.countProof cycles millis] =
                  L ++ (fetchSeg r programId stdinId ++ [.runTask program stdin mode, .countProof cycles millis]) := by
                simp [fetchSeg]
              dsimp only
              rw [hL, h, List.append_assoc]
          | error =>
            have ht' : w.runTask (L ++ ([.unexecutable r.requestId] ++ ([.download .program programId r.programUri] ++
              [.download .stdin stdinId r.stdinUri]))) program stdin mode = .error := ht
            rw [ht']
            exact hrep (by rw [ht]; exact fun _ _ _ h => TaskEnd.noConfusion h)
          | panicked =>
            have ht' : w.runTask (L ++ ([.unexecutable r.requestId] ++ ([.download .program programId r.programUri] ++
              [.download .stdin stdinId r.stdinUri]))) program stdin mode = .panicked := ht
            rw [ht']
            exact hrep (by rw [ht]; exact fun _ _ _ h => TaskEnd.noConfusion h)
          | cancelled =>
            have ht' : w.runTask (L ++ ([.unexecutable r.requestId] ++ ([.download .program programId r.programUri] ++
              [.download .stdin stdinId r.stdinUri]))) program stdin mode = .cancelled := ht
            rw [ht']
            exact hrep (by rw [ht]; exact fun _ _ _ h => TaskEnd.noConfusion h)
          | other =>
            have ht' : w.runTask (L ++ ([.unexecutable r.requestId] ++ ([.download .program programId r.programUri] ++
              [.download .stdin stdinId r.stdinUri]))) program stdin mode = .other := ht
            rw [ht']
            exact hrep (by rw [ht]; exact fun _ _ _ h => TaskEnd.noConfusion h)

theorem handleAll_cases (cfg : Config) (w : World) (rs : List Req) (L : List Query) :
    ∃ seg o, handleAll cfg rs w L = (o, L ++ seg) ∧ Handled cfg w L rs seg o := by
  induction rs generalizing L with
  | nil => exact ⟨[], .ok (), by rw [List.append_nil]; rfl, .done L⟩
  | cons r rs ih =>
    obtain ⟨seg, o, h, hc⟩ := handleRequest_cases cfg w r L
    rcases hc with ⟨rfl, ha⟩ | ⟨hne, hb⟩
    · obtain ⟨rest, o, h', hr⟩ := ih (L ++ seg)
      refine ⟨seg ++ rest, o, ?_, .answered ha hr⟩
      rw [← List.append_assoc, ← h']
      exact Io.bind_ok h
    · refine ⟨seg, o, ?_, .abandoned hb⟩
      cases o with
      | ok u => exact absurd rfl (hne u)
      | err e => exact Io.bind_err h
      | panic => exact Io.bind_panic h

/-- The questions a proving round asks before it handles requests. -/
def proveHeader (cfg : Config) (owner : Bytes) (t : U64) : List Query :=
  [.getOwner (Address.bytes cfg.signer), .now, .filtered (assignedFilter owner t)]

/-! ## C53 -/

/-- A proving round in which the list of assigned requests is obtained handles them in order: each one is answered
with exactly one kind of submission, until one has to be abandoned. Missing from the full property: an abandoned
request (failed download, unspecified mode, proof that cannot be serialised) gets no submission. -/
theorem c53_round_partial (cfg : Config) (w : World) (owner : Bytes) (t : U64) (reqs : List Req)
    (ho : w.owner [] (Address.bytes cfg.signer) = .ok owner)
    (ht : w.now ((proveHeader cfg owner t).take 1) = t)
    (ha : w.filtered ((proveHeader cfg owner t).take 2) (assignedFilter owner t) = .ok reqs) :
    ∃ seg o, proveRound cfg w [] = (o, proveHeader cfg owner t ++ seg) ∧
      Handled cfg w (proveHeader cfg owner t) reqs seg o := by
  unfold proveRound
  rw [ask_owner, ho, andThen_ok, ask_now, ask_filtered]
  simp only [List.nil_append, List.cons_append]
  rw [show w.now [.getOwner (Address.bytes cfg.signer)] = t from ht]
  have ha' : w.filtered [.getOwner (Address.bytes cfg.signer), .now]
    { status := .assigned, minimumDeadline := t, fulfiller := some owner, limit := 1 } = .ok reqs := ha
  rw [ha', andThen_ok]
  cases reqs with
  | nil => exact ⟨[], .ok (), rfl, .done _⟩
  | cons r rs =>
    rw [if_neg (by simp)]
    exact handleAll_cases cfg w (r :: rs) (proveHeader cfg owner t)

/-- Every request of the list is answered. -/
inductive AllAnswered (cfg : Config) (w : World) : List Query → List Req → List Query → Prop
  | nil (L) : AllAnswered cfg w L [] []
  | cons {L r rs seg rest} : Answered cfg w L r seg → AllAnswered cfg w (L ++ seg) rs rest →
      AllAnswered cfg w L (r :: rs) (seg ++ rest)

/-- If downloads succeed, modes are specified and proofs can be serialised, every assigned request is answered and
the round ends normally. -/
theorem c53_all_answered_partial (cfg : Config) (w : World) (owner : Bytes) (t : U64) (reqs : List Req)
    (ho : w.owner [] (Address.bytes cfg.signer) = .ok owner)
    (ht : w.now ((proveHeader cfg owner t).take 1) = t)
    (ha : w.filtered ((proveHeader cfg owner t).take 2) (assignedFilter owner t) = .ok reqs)
    (hd : ∀ L ty id uri, ∃ b, w.download L ty id uri = .ok b) (hm : ∀ r ∈ reqs, r.mode ≠ 0)
    (hs : ∀ L p s m c t, w.runTask L p s m ≠ .proof none c t) :
    ∃ seg, proveRound cfg w [] = (.ok (), proveHeader cfg owner t ++ seg) ∧
      AllAnswered cfg w (proveHeader cfg owner t) reqs seg := by
  obtain ⟨seg, o, h, hh⟩ := c53_round_partial cfg w owner t reqs ho ht ha
  have key : ∀ L reqs seg o, Handled cfg w L reqs seg o → (∀ r ∈ reqs, r.mode ≠ 0) →
      o = .ok () ∧ AllAnswered cfg w L reqs seg := by
    intro L reqs seg o hh
    induction hh with
    | done L => exact fun _ => ⟨rfl, .nil L⟩
    | answered ha _ ih =>
      intro hm
      have := ih (fun r hr => hm r (List.mem_cons_of_mem _ hr))
      exact ⟨this.1, .cons ha this.2⟩
    | abandoned hb =>
      intro hm
      exfalso
      cases hb with
      | program _ _ e _ he => obtain ⟨b, hb⟩ := hd _ _ _ _; rw [hb] at he; cases he
      | stdin _ _ _ e _ _ he => obtain ⟨b, hb⟩ := hd _ _ _ _; rw [hb] at he; cases he
      | mode _ _ _ _ _ h0 => exact hm _ List.mem_cons_self h0
      | serialize _ _ _ _ _ _ _ _ _ he => exact hs _ _ _ _ _ _ he
  have := key _ _ _ _ hh hm
  rw [this.1] at h
  exact ⟨seg, h, this.2⟩

/-- A request that is abandoned gets no submission, and neither do the requests after it. -/
theorem c53_abandoned (cfg : Config) (w : World) (L : List Query) (r : Req) (seg : List Query)
    (o : Retry.Outcome Unit) (h : Abandoned cfg w L r seg o) : ∀ q ∈ seg, q.isSubmission = false := by
  cases h <;> simp [fetchSeg, Query.isSubmission]

/-- A request registered as unexecutable is neither downloaded nor proved, and only failure is reported for it. -/
theorem c53_unexecutable (cfg : Config) (w : World) (L : List Query) (r : Req) (seg : List Query)
    (h : Answered cfg w L r seg) (hu : w.unexecutable L r.requestId = true) :
    (∀ q ∈ seg, (∀ p s m, q ≠ .runTask p s m) ∧ (∀ t i u, q ≠ .download t i u) ∧ (∀ f, q ≠ .fulfill f)) := by
  cases h with
  | unexecutable tail _ hs =>
    intro q hq
    rcases List.mem_cons.1 hq with rfl | hq
    · exact ⟨(by intro _ _ _ h; cases h), (by intro _ _ _ h; cases h), (by intro _ h; cases h)⟩
    · rcases hs.only q hq with rfl | rfl | hsub
      · exact ⟨(by intro _ _ _ h; cases h), (by intro _ _ _ h; cases h), (by intro _ h; cases h)⟩
      · exact ⟨(by intro _ _ _ h; cases h), (by intro _ _ _ h; cases h), (by intro _ h; cases h)⟩
      · obtain ⟨pre, post, hsplit⟩ := List.append_of_mem hq
        obtain ⟨_, nonce, _, _, f, rfl, _⟩ := hs.kind pre q post hsplit hsub
        exact ⟨(by intro _ _ _ h; cases h), (by intro _ _ _ h; cases h), (by intro _ h; cases h)⟩
  | failed _ _ _ _ _ _ hf => rw [hu] at hf; cases hf
  | fulfilled _ _ _ _ _ _ _ _ _ hf => rw [hu] at hf; cases hf

/-- Metrics: a proof is counted right after the task that generated it, with its cycles and duration. -/
def CountOk (w : World) (past : List Query) (q : Query) : Prop :=
  ∀ c t, q = .countProof c t → ∃ past' p s m b, past = past' ++ [.runTask p s m] ∧ w.runTask past' p s m = .proof b c t

theorem answered_count {cfg : Config} {w : World} {L : List Query} {r : Req} {seg : List Query}
    (h : Answered cfg w L r seg) : Each (CountOk w) L seg := by
  have hsub : ∀ {M L tail}, Submits cfg w M L tail → Each (CountOk w) L tail := by
    intro M L tail hs
    apply each_of_mem
    intro q hq L c t hqc
    rcases hs.only q hq with rfl | rfl | h
    · cases hqc
    · cases hqc
    · subst hqc; cases h
  have hno : ∀ L q, (∀ c t, q ≠ .countProof c t) → CountOk w L q := fun L q hne c t hq => absurd hq (hne c t)
  cases h with
  | unexecutable tail _ hs => exact ⟨hno _ _ (by intro _ _ h; cases h), hsub hs⟩
  | failed _ _ _ _ _ tail _ _ _ _ _ hs =>
    rw [each_append]
    refine ⟨?_, hsub hs⟩
    exact ⟨hno _ _ (by intro _ _ h; cases h), hno _ _ (by intro _ _ h; cases h), hno _ _ (by intro _ _ h; cases h),
      hno _ _ (by intro _ _ h; cases h), trivial⟩
  | fulfilled _ _ _ _ _ proof cycles millis tail _ _ _ _ ht hs =>
    rw [each_append]
    refine ⟨?_, hsub hs⟩
    refine ⟨hno _ _ (by intro _ _ h; cases h), hno _ _ (by intro _ _ h; cases h), hno _ _ (by intro _ _ h; cases h),
      hno _ _ (by intro _ _ h; cases h), ?_, trivial⟩
    intro c t hq
    cases hq
    exact ⟨_, _, _, _, _, rfl, by simpa [fetchSeg] using ht⟩

theorem abandoned_count {cfg : Config} {w : World} {L : List Query} {r : Req} {seg : List Query}
    {o : Retry.Outcome Unit} (h : Abandoned cfg w L r seg o) : Each (CountOk w) L seg := by
  have hno : ∀ L q, (∀ c t, q ≠ .countProof c t) → CountOk w L q := fun L q hne c t hq => absurd hq (hne c t)
  cases h with
  | program => exact ⟨hno _ _ (by intro _ _ h; cases h), hno _ _ (by intro _ _ h; cases h), trivial⟩
  | stdin => exact ⟨hno _ _ (by intro _ _ h; cases h), hno _ _ (by intro _ _ h; cases h), hno _ _ (by intro _ _ h; cases h), trivial⟩
  | mode => exact ⟨hno _ _ (by intro _ _ h; cases h), hno _ _ (by intro _ _ h; cases h), hno _ _ (by intro _ _ h; cases h), trivial⟩
  | serialize _ _ _ _ _ _ _ _ _ ht =>
    refine ⟨hno _ _ (by intro _ _ h; cases h), hno _ _ (by intro _ _ h; cases h), hno _ _ (by intro _ _ h; cases h),
      hno _ _ (by intro _ _ h; cases h), ?_, trivial⟩
    intro c t hq
    cases hq
    exact ⟨_, _, _, _, _, rfl, by simpa [fetchSeg] using ht⟩

/-- The metrics count only proofs that were generated: right before each count, the task that was run ended with a
proof of those cycles and that duration. -/
theorem c53_counted_were_generated (cfg : Config) (w : World) (L : List Query) (reqs : List Req) (seg : List Query)
    (o : Retry.Outcome Unit) (h : Handled cfg w L reqs seg o) (pre post : List Query) (c t : Nat)
    (hs : seg = pre ++ .countProof c t :: post) :
    ∃ past p s m b, L ++ pre = past ++ [.runTask p s m] ∧ w.runTask past p s m = .proof b c t := by
  have hall : Each (CountOk w) L seg := by
    clear hs
    induction h with
    | done => trivial
    | answered ha _ ih => rw [each_append]; exact ⟨answered_count ha, ih⟩
    | abandoned hb => exact abandoned_count hb
  exact each_split hall pre post _ hs c t rfl

/-- Number of questions in `seg` (asked after `L`) that satisfy `p`, which may look at the answer. -/
def countAnswered (p : List Query → Query → Bool) : List Query → List Query → Nat
  | _, [] => 0
  | L, q :: seg => (if p L q then 1 else 0) + countAnswered p (L ++ [q]) seg

/-- A task that ended with a proof. -/
def generated (w : World) (L : List Query) : Query → Bool
  | .runTask p s m => match w.runTask L p s m with
    | .proof _ _ _ => true
    | _ => false
  | _ => false

/-- A proof counted in the metrics. -/
def counted (_ : List Query) : Query → Bool
  | .countProof _ _ => true
  | _ => false

theorem countAnswered_append (p : List Query → Query → Bool) (L s1 s2 : List Query) :
    countAnswered p L (s1 ++ s2) = countAnswered p L s1 + countAnswered p (L ++ s1) s2 := by
  induction s1 generalizing L with
  | nil => simp [countAnswered]
  | cons q s1 ih => simp [countAnswered, ih, Nat.add_assoc]

theorem countAnswered_zero (p : List Query → Query → Bool) (L s : List Query) (h : ∀ q ∈ s, ∀ L, p L q = false) :
    countAnswered p L s = 0 := by
  induction s generalizing L with
  | nil => rfl
  | cons q s ih =>
    simp [countAnswered, h q List.mem_cons_self, ih (L ++ [q]) (fun q hq => h q (List.mem_cons_of_mem _ hq))]

theorem generated_false {w : World} {L : List Query} {p s : Bytes} {m : ProofMode}
    (h : ∀ b c t, w.runTask L p s m ≠ .proof b c t) : generated w L (.runTask p s m) = false := by
  unfold generated
  dsimp only
  split
  · next b c t hx => exact absurd hx (h b c t)
  · rfl

/-- The metrics count exactly the proofs generated. -/
theorem c53_metrics (cfg : Config) (w : World) (L : List Query) (reqs : List Req) (seg : List Query)
    (o : Retry.Outcome Unit) (h : Handled cfg w L reqs seg o) :
    countAnswered counted L seg = countAnswered (generated w) L seg := by
  have hsub : ∀ {M L tail}, Submits cfg w M L tail →
      countAnswered counted L tail = 0 ∧ countAnswered (generated w) L tail = 0 := by
    intro M L tail hs
    constructor <;>
    · apply countAnswered_zero
      intro q hq L
      rcases hs.only q hq with rfl | rfl | h
      · rfl
      · rfl
      · cases q <;> first | rfl | cases h
  induction h with
  | done => rfl
  | answered ha _ ih =>
    rw [countAnswered_append, countAnswered_append, ih]
    congr 1
    cases ha with
    | unexecutable tail _ hs =>
      have := hsub hs
      simp [countAnswered, counted, generated, this]
    | failed _ _ _ _ _ tail _ _ _ _ hne hs =>
      have := hsub hs
      rw [countAnswered_append counted _ _ tail, countAnswered_append (generated w) _ _ tail, this.1, this.2]
      have hg := generated_false hne
      rw [countAnswered_append counted, countAnswered_append (generated w)]
      simp only [countAnswered, hg]
      rfl
    | fulfilled _ _ _ _ _ proof cycles millis tail _ _ _ _ ht hs =>
      have := hsub hs
      rw [countAnswered_append counted _ _ tail, countAnswered_append (generated w) _ _ tail, this.1, this.2]
      simp only [fetchSeg] at ht
      simp only [fetchSeg, List.cons_append, List.nil_append, countAnswered, counted, generated, List.append_assoc, ht]
      simp
  | abandoned hb =>
    cases hb with
    | program => simp [fetchSeg, countAnswered, counted, generated]
    | stdin => simp [fetchSeg, countAnswered, counted, generated]
    | mode => simp [fetchSeg, countAnswered, counted, generated]
    | serialize _ _ _ _ _ _ _ _ _ ht =>
      simp only [fetchSeg] at ht
      simp only [fetchSeg, List.cons_append, List.nil_append, countAnswered, counted, generated, List.append_assoc, ht]
      simp

/-- A network on which the program of the only assigned request cannot be downloaded. -/
def brokenWorld : World := fun past q =>
  match q with
  | .filtered _ => Except.ok [demoReq]
  | .download _ _ _ => Except.error (.other "no such key".toList)
  | q => demoWorld past q

/-- As stated, the property is false: an assigned request whose program cannot be downloaded gets neither a
fulfilment nor a failure report, and the round ends with the download error. -/
theorem c53_false : ∃ (cfg : Config) (w : World) (req : Req) (log : List Query) (e : RpcError),
    w.filtered ((proveHeader cfg (Address.bytes 3) 900).take 2) (assignedFilter (Address.bytes 3) 900) = .ok [req] ∧
    proveRound cfg w [] = (.err e, log) ∧ (∃ q ∈ log, q = .filtered (assignedFilter (Address.bytes 3) 900)) ∧
    ∀ q ∈ log, q.isSubmission = false := by
  refine ⟨demoConfig, brokenWorld, demoReq, _, _, rfl, rfl, ?_, ?_⟩
  · exact ⟨_, .tail _ (.tail _ (.head _)), rfl⟩
  · intro q hq
    have hq' : q ∈ ([.getOwner (Address.bytes 3), .now, .filtered (assignedFilter (Address.bytes 3) 900),
      .unexecutable [1, 2], .download .program "p".toList demoReq.programUri] : List Query) := hq
    simp only [List.mem_cons, List.not_mem_nil, or_false] at hq'
    rcases hq' with rfl | rfl | rfl | rfl | rfl <;> rfl

/-! ## Witness -/

/-- The demo network, with the demo request assigned. -/
def assignedWorld : World := fun past q =>
  match q with
  | .filtered _ => Except.ok [demoReq]
  | q => demoWorld past q

/-- The hypotheses of `c53_all_answered_partial` hold in the demo. -/
example : ∃ seg, proveRound demoConfig assignedWorld [] = (.ok (), proveHeader demoConfig (Address.bytes 3) 900 ++ seg) ∧
    AllAnswered demoConfig assignedWorld (proveHeader demoConfig (Address.bytes 3) 900) [demoReq] seg :=
  c53_all_answered_partial demoConfig assignedWorld (Address.bytes 3) 900 [demoReq] rfl rfl rfl
    (fun _ _ _ _ => ⟨[], rfl⟩) (by intro r hr; rw [List.mem_singleton] at hr; subst hr; decide)
    (by intro L p s m c t h; cases h)

end Verif.Node
