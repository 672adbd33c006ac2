import Verif.Artifacts
/-
# The artifact store

Models the uploads, copies and downloads of `crates/network/artifacts/src/lib.rs` as clients of one store that
everybody uses at the same time.

Simplifications: a bucket name determines its region, so regions and the cache of clients (420-453) are left out; the
AWS client's own retries are part of one request (a request is served once, or not at all, and its answer may get
lost); S3 is strongly consistent and a put is atomic; HTTPS downloads are an arbitrary result.
-/

namespace Verif.Artifacts
open Verif

/-- The objects of all buckets, by bucket and key. -/
abbrev Store := Str → Str → Option Bytes

/-- A store with one object replaced. -/
def Store.set (s : Store) (bucket key : Str) (data : Bytes) : Store :=
  fun b k => if b = bucket ∧ k = key then some data else s b k

/-- A request to S3: `head_object`, `get_object` (with or without a range of bytes) and `put_object`. -/
inductive S3Req
  | head (bucket key : Str)
  | get (bucket key : Str)
  | put (bucket key : Str) (data : Bytes)

/-- What a client sees: an error, the length, a body, a body that breaks off, or that the object was stored. -/
inductive S3Ans | error | length (n : Nat) | body (data : Bytes) | cut | stored

/-- What happens to a request: it is served; it is not; it is served but the answer is lost; it is served but the
body breaks off. -/
inductive Luck | fine | refused | lost | cut
deriving DecidableEq

/-- S3 serves a request. -/
def serve (s : Store) : S3Req → Luck → S3Ans × Store
  | .head b k, .fine => ((match s b k with | some x => .length x.length | none => .error), s)
  | .get b k, .fine => ((match s b k with | some x => .body x | none => .error), s)
  | .get b k, .cut => ((match s b k with | some _ => .cut | none => .error), s)
  | .put b k x, .fine => (.stored, s.set b k x)
  | .put b k x, .lost => (.error, s.set b k x)
  | _, _ => (.error, s)

/-- A sequential client of the store. -/
inductive Client (α : Type) where
  | done (a : α)
  | ask (q : S3Req) (k : S3Ans → Client α)

/-- A turn: the client's next request is served, or one of somebody else. -/
inductive Turn | mine (l : Luck) | other (q : S3Req) (l : Luck)

/-- Some turns; `none` if the client has nothing to ask at its turn. -/
def run {α : Type} : Client α → Store → List Turn → Option (Client α × Store)
  | c, s, [] => some (c, s)
  | .done _, _, .mine _ :: _ => none
  | .ask q k, s, .mine l :: ts => run (k (serve s q l).1) (serve s q l).2 ts
  | c, s, .other q l :: ts => run c (serve s q l).2 ts

/-- `upload_file`, `lib.rs:727-748`, which `upload_raw` (321-330) calls; `none` is the error. -/
def uploadRaw (bucket : Str) (t : ArtifactType) (id : Str) (data : Bytes) : Client (Option Unit) :=
  .ask (.put bucket (s3Key t id) data) fun
    | .stored => .done (some ())
    | _ => .done none

/-- `upload`, `lib.rs:83-93`; `ser` is `bincode::serialize`. -/
def upload {T : Type} (ser : T → Option Bytes) (item : T) (bucket : Str) (t : ArtifactType) (id : Str) : Client (Option Unit) :=
  match ser item with
  | none => .done none
  | some data => uploadRaw bucket t id data

/-- `download_s3_file`, `lib.rs:455-475`. -/
def downloadS3File (bucket : Str) (t : ArtifactType) (id : Str) : Client (Option Bytes) :=
  .ask (.get bucket (s3Key t id)) fun
    | .body x => .done (some x)
    | _ => .done none

/-- The loop of `download_raw`, `lib.rs:118-140`, with a number of attempts left. -/
def downloadTries (bucket : Str) (t : ArtifactType) (id : Str) : Nat → Client (Option Bytes)
  | 0 => .done none
  | n + 1 => .ask (.get bucket (s3Key t id)) fun
    | .body x => .done (some x)
    | _ => downloadTries bucket t id n

/-- `download_raw`, `lib.rs:105-141`, with its five attempts (`maxRetries`). -/
def downloadRawFrom (bucket : Str) (t : ArtifactType) (id : Str) : Client (Option Bytes) :=
  downloadTries bucket t id maxRetries

/-- Continue with the result of a download. -/
def Client.map {α β : Type} (f : α → β) : Client α → Client β
  | .done a => .done (f a)
  | .ask q k => .ask q fun a => (k a).map f

/-- `download_program`, `download_stdin` and `download_proof`, `lib.rs:216-291`; `de` is `bincode::deserialize`. -/
def download {T : Type} (de : Bytes → Option T) (bucket : Str) (t : ArtifactType) (id : Str) : Client (Option T) :=
  (downloadRawFrom bucket t id).map fun r => r.bind de

/-- `download_raw_from_uri`, `lib.rs:154-172`. `parse` gives the scheme and the host of a URI (`Url::parse`), `https`
is what an HTTPS download of it gives. The path of the URI is not used. -/
def downloadFromUri (parse : Str → Option (Str × Option Str)) (https : Str → Option Bytes) (uri : Str) (t : ArtifactType)
    (id : Str) : Client (Option Bytes) :=
  match parse uri with
  | none => .done none
  | some (scheme, host) =>
    if scheme = "s3".toList then
      match host with
      | none => .done none
      | some bucket => downloadS3File bucket t id
    else if scheme = "https".toList then .done (https uri)
    else .done none

/-- `copy`, `lib.rs:344-387`. A source body that breaks off makes the put fail without effect. -/
def copy (t : ArtifactType) (id src dst : Str) : Client (Option Unit) :=
  .ask (.head dst (s3Key t id)) fun
    | .length _ => .done (some ())
    | _ => .ask (.get src (s3Key t id)) fun
      | .body x => .ask (.put dst (s3Key t id) x) fun
        | .stored => .done (some ())
        | _ => .done none
      | _ => .done none

/-! ## The parallel download of an object that others may replace -/

/-- A turn of the parallel download: task `i` has its range request served or fails; the receiver takes a message;
somebody else has a request served. -/
inductive ParTurn | chunk (i : Nat) (l : Luck) | recv | other (q : S3Req) (l : Luck)

/-- The answer to the range request of a job, `lib.rs:522-534`: nothing for a range that starts beyond the end, as much
as there is of a range that ends beyond it. -/
def rangeAnswer (s : Store) (bucket key : Str) (chunk size : Nat) (j : Job) : Luck → Answer
  | .fine => match s bucket key with
    | some x => if j.start < x.length then .ok ((x.drop j.start).take (rangeEnd chunk size j + 1 - j.start)) else .retry
    | none => .retry
  | .cut => match s bucket key with
    | some x => if j.start < x.length then .bodyError else .retry
    | none => .retry
  | _ => .retry

/-- Some turns of `download_s3_file_par` after the tasks are spawned, `lib.rs:513-575`. -/
def parRun (bucket key : Str) (chunk size : Nat) : Dl → Store → List ParTurn → Option (Dl × Store)
  | d, s, [] => some (d, s)
  | d, s, .chunk i l :: ts =>
    match (d.tasks[i]?).bind fun t => t.todo.head? with
    | none => none
    | some j => match d.step chunk size (.answer i (rangeAnswer s bucket key chunk size j l)) with
      | none => none
      | some d' => parRun bucket key chunk size d' s ts
  | d, s, .recv :: ts => match d.step chunk size .recv with
    | none => none
    | some d' => parRun bucket key chunk size d' s ts
  | d, s, .other q l :: ts => parRun bucket key chunk size d (serve s q l).2 ts

end Verif.Artifacts
