import Verif.Basic
/-
# Artifact downloads

Models `crates/network/artifacts/src/lib.rs`: the storage keys (399-414), the name in a URI (390-392), the
retry loop of `download_raw` (105-141) and the parallel downloads (477-576 and 594-725).

Not modelled: the S3 and HTTP clients (each request is answered by an arbitrary `Answer`), the client cache,
bincode. Uploads, copies and a store that others write are in `ArtifactStore`.
-/

namespace Verif.Artifacts
open Verif

/-! ## Keys and names -/

/-- A Rust `String`, as its characters. -/
abbrev Str := List Char

/-- `ArtifactType`, `crates/types/artifact/src/artifact.rs:25-38`. -/
inductive ArtifactType | unspecified | program | stdin | proof | transaction | privateStdin
deriving DecidableEq, Repr

/-- `get_s3_prefix`, `lib.rs:399-408`. -/
def s3Prefix : ArtifactType → Str
  | .unspecified => "artifacts".toList
  | .program => "programs".toList
  | .stdin => "stdins".toList
  | .proof => "proofs".toList
  | .transaction => "transactions".toList
  | .privateStdin => "private-stdins".toList

/-- `get_s3_key`, `lib.rs:412-414`. -/
def s3Key (t : ArtifactType) (id : Str) : Str := s3Prefix t ++ '/' :: id

/-- `str::split('/')`, used at `lib.rs:391`. -/
def splitSlash : Str → List Str
  | [] => [[]]
  | c :: cs =>
    if c = '/' then [] :: splitSlash cs
    else match splitSlash cs with
      | [] => [[c]]
      | x :: xs => (c :: x) :: xs

/-- `extract_artifact_name`, `lib.rs:390-392`; `none` is the error. -/
def extractArtifactName (url : Str) : Option Str := (splitSlash url).getLast?

/-! ## `download_raw` -/

/-- What `download_raw` does: the result, the number of attempts and the seconds slept between them. -/
structure RawRun (ε : Type) where
  result : Except ε Bytes
  attempts : Nat
  sleeps : List Nat

/-- `max_retries`, `lib.rs:114`, `526`, `654`. -/
def maxRetries : Nat := 5

/-- The loop of `download_raw`, `lib.rs:118-140`. `answer i` is the outcome of the `i`-th call of
`download_s3_file`; `retryCount` is also the number of calls made before. -/
def rawLoop {ε : Type} (answer : Nat → Except ε Bytes) (retryCount delay : Nat) : RawRun ε :=
  match answer retryCount with
  | .ok b => ⟨.ok b, 1, []⟩
  | .error e =>
    if maxRetries ≤ retryCount + 1 then ⟨.error e, 1, []⟩
    else
      let r := rawLoop answer (retryCount + 1) (delay * 2)
      ⟨r.result, r.attempts + 1, delay :: r.sleeps⟩
termination_by maxRetries - retryCount

/-- `download_raw`, `lib.rs:105-141`. -/
def downloadRaw {ε : Type} (answer : Nat → Except ε Bytes) : RawRun ε := rawLoop answer 0 1

/-! ## Parallel downloads -/

/-- `CHUNK_SIZE`, `lib.rs:46`. -/
def CHUNK_SIZE : Nat := 32 * 1024 * 1024

/-- `DEFAULT_CONCURRENCY`, `lib.rs:49`. -/
def DEFAULT_CONCURRENCY : Nat := 32

/-- An element of `starts`: the number and the first byte of a chunk, `lib.rs:505`, `634`. -/
structure Job where
  index : Nat
  start : Nat
deriving DecidableEq, Repr

/-- `(0..size).step_by(CHUNK_SIZE).enumerate()`, `lib.rs:505`, `634`. -/
def jobs (chunk size : Nat) : List Job := (List.range ((size + chunk - 1) / chunk)).map fun i => ⟨i, i * chunk⟩

/-- `slice::chunks(k)` (for `k ≥ 1`), with the length of the list as fuel. -/
def chunksGo {α : Type} (k : Nat) : Nat → List α → List (List α)
  | 0, _ => []
  | _ + 1, [] => []
  | fuel + 1, x :: xs => (x :: xs).take k :: chunksGo k fuel ((x :: xs).drop k)

/-- `slice::chunks`. -/
def chunks {α : Type} (k : Nat) (l : List α) : List (List α) := chunksGo k l.length l

/-- The chunk groups, one for each spawned task, `lib.rs:507-513`, `636-642`. `none` is the panic of the
division by zero when the concurrency is 0. -/
def groups (chunk size concurrency : Nat) : Option (List (List Job)) :=
  let starts := jobs chunk size
  let numChunks := starts.length
  let c := min concurrency numChunks
  if c = 0 then none else some (chunks (max (numChunks / c) 1) starts)

/-- The last byte of the range requested for a chunk (inclusive), `lib.rs:522`, `650`. -/
def rangeEnd (chunk size : Nat) (j : Job) : Nat := min (j.start + chunk) size - 1

/-- The outcome of a range request: an error or an error status, which is retried; an error while the body is
read, which is not; a body. `lib.rs:530-556`, `658-703`. -/
inductive Answer | retry | bodyError | ok (body : Bytes)
deriving DecidableEq

/-- A spawned task. `retries` is `retry_count` of the chunk at the head of `todo`. -/
inductive Status | running | finished | failed
deriving DecidableEq, Repr

structure Task where
  todo : List Job
  retries : Nat
  status : Status
deriving DecidableEq

/-- What a task does with the answer to its current range request: the new task and the message it sends.
`lib.rs:520-559`, `648-706`. -/
def Task.step (a : Answer) (t : Task) : Option (Task × Option (Nat × Bytes)) :=
  match t.status, t.todo with
  | .running, j :: rest => some <|
    match a with
    | .ok b => (⟨rest, 0, if rest = [] then .finished else .running⟩, some (j.index, b))
    | .bodyError => (⟨j :: rest, t.retries, .failed⟩, none)
    | .retry =>
      if maxRetries ≤ t.retries + 1 then (⟨j :: rest, t.retries + 1, .failed⟩, none)
      else (⟨j :: rest, t.retries + 1, .running⟩, none)
  | _, _ => none

/-- The download in progress: tasks, channel (oldest message first), result buffer. -/
structure Dl where
  tasks : List Task
  chan : List (Nat × Bytes)
  result : Bytes
  panicked : Bool

/-- An interleaving step: a task gets an answer, or the receiver takes a message. -/
inductive Ev | answer (task : Nat) (a : Answer) | recv

/-- `result[start..end].copy_from_slice(&chunk)`, `lib.rs:566-568`, `715-717`; `none` is the panic when the
lengths differ. -/
def copyIn (chunk size : Nat) (result : Bytes) (index : Nat) (body : Bytes) : Option Bytes :=
  let start := index * chunk
  let stop := min (start + body.length) size
  if start ≤ stop ∧ stop - start = body.length then some (result.take start ++ body ++ result.drop stop) else none

/-- One step; `none` if the event cannot happen. The channel has room for all chunks (`lib.rs:511`), so sending
does not block. -/
def Dl.step (chunk size : Nat) (s : Dl) : Ev → Option Dl
  | .answer i a =>
    if s.panicked then none else
    match s.tasks[i]? with
    | none => none
    | some t => match t.step a with
      | none => none
      | some (t', m) => some { s with tasks := s.tasks.set i t', chan := s.chan ++ m.toList }
  | .recv =>
    if s.panicked then none else
    match s.chan with
    | [] => none
    | (k, body) :: rest => match copyIn chunk size s.result k body with
      | none => some { s with panicked := true }
      | some r => some { s with chan := rest, result := r }

/-- A schedule. -/
def Dl.run (chunk size : Nat) (s : Dl) : List Ev → Option Dl
  | [] => some s
  | e :: es => match s.step chunk size e with
    | none => none
    | some s' => s'.run chunk size es

/-- The state after the tasks are spawned, `lib.rs:513-520`, `562-564`. -/
def Dl.init (size : Nat) (gs : List (List Job)) : Dl :=
  ⟨gs.map fun g => ⟨g, 0, .running⟩, [], List.replicate size 0, false⟩

/-- All senders are gone and the channel is empty: the receiving loop ends. -/
def Dl.final (s : Dl) : Prop := s.panicked = false ∧ s.chan = [] ∧ ∀ t ∈ s.tasks, t.status ≠ .running

/-- The outcome at the end, `lib.rs:571-575`, `720-724`: the error of a failed task, or the buffer. -/
def Dl.outcome (s : Dl) : Option Bytes := if s.tasks.any (fun t => t.status == .failed) then none else some s.result

/-- What a download does after the metadata request. -/
inductive Plan | error | whole | parallel (size : Nat) (gs : List (List Job)) | panic

/-- `download_s3_file_par` up to the spawning of tasks, `lib.rs:484-513`. `contentLength` is `none` if the
metadata request failed. Simplification: `i64` and `usize` arithmetic on offsets does not overflow. -/
def s3Plan (contentLength : Option Int) (concurrency : Option Nat) : Plan :=
  match contentLength with
  | none => .error
  | some size =>
    if size ≤ 0 then .error
    else if size.toNat ≤ CHUNK_SIZE then .whole
    else match groups CHUNK_SIZE size.toNat (concurrency.getD DEFAULT_CONCURRENCY) with
      | none => .panic
      | some gs => .parallel size.toNat gs

/-- `download_https_file_par` up to the spawning of tasks, `lib.rs:594-642`: success of the metadata request,
the header `accept-ranges: bytes`, the length if it was given. -/
def httpsPlan (headOk supportsRange : Bool) (contentLength : Option Nat) (concurrency : Option Nat) : Plan :=
  if headOk = false then .error
  else match supportsRange, contentLength with
    | true, some size =>
      if size ≤ CHUNK_SIZE then .whole
      else match groups CHUNK_SIZE size (concurrency.getD DEFAULT_CONCURRENCY) with
        | none => .panic
        | some gs => .parallel size gs
    | _, _ => .whole

end Verif.Artifacts
