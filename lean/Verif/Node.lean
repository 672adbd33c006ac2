import Verif.Messages
import Verif.Types
import Verif.Retry
import Verif.Artifacts
/-
# The serial node: bidding and proving rounds

Models `SerialBidder::bid`, `SerialProver::prove`, `fail_request` and `report_request_status`,
`crates/node/core/src/serial.rs`, and `fetch_owner`, `crates/network/rpc/src/fetch.rs`.

A round is a program that asks its surroundings questions (RPC calls, the clock, downloads, the proving task,
the registry of unexecutable requests) and writes each question to a log. The surroundings are an arbitrary
function of the log so far, so a theorem about every `World` covers every behaviour of the network, of the
background task that fills the registry and of the other half of `Node::run` (`lib.rs:126-131`).

Simplifications: log lines are left out; `hex::decode(hex::encode(x))` is `x`; proof request records carry only
the fields the code uses; setup, execution and proving (`serial.rs:624-643`, external SDK) are one question whose
answer is how the spawned task ended; the `f64` expression `((gas_limit as f64) / throughput) as u64`
(`serial.rs:196`) is a parameter of the configuration.
-/

namespace Verif.Node
open Retry (RpcError Attempt)

/-- `FailFulfillmentRequestBody`, `crates/types/network/src/types.rs:322-332`. -/
structure FailBody where
  nonce : U64 := 0
  requestId : Bytes := []
  error : Option I32 := none
  deriving DecidableEq

/-- Fields of `FailFulfillmentRequestBody` (tags at `types.rs:322-332`). -/
def FailBody.fields (b : FailBody) : List (Nat × Wire) :=
  fU64 1 b.nonce ++ (fBytes 2 b.requestId ++ fOptEnum 3 b.error)

/-- `FulfillmentStatus` values used in filters. -/
inductive Status | requested | assigned
  deriving DecidableEq

/-- The fields of `GetFilteredProofRequestsRequest` that the rounds set (`serial.rs:111-118`, `135-142`,
`528-535`); the version is the same constant everywhere. -/
structure Filter where
  status : Status
  minimumDeadline : U64
  fulfiller : Option Bytes := none
  notBidBy : Option Bytes := none
  limit : Nat
  deriving DecidableEq

/-- The fields of `ProofRequest` that the rounds use. -/
structure Req where
  requestId : Bytes
  mode : I32
  programUri : Artifacts.Str
  stdinUri : Artifacts.Str
  deadline : U64
  gasLimit : U64
  deriving DecidableEq

/-- `SP1ProofMode`. -/
inductive ProofMode | core | compressed | plonk | groth16
  deriving DecidableEq

/-- How the spawned proving task ended, `serial.rs:685-798`: a proof (its serialisation, `none` if that fails,
the cycles and the milliseconds it took), an error, a panic, an abort or any other join error. -/
inductive TaskEnd where
  | proof (bytes : Option Bytes) (cycles millis : Nat)
  | error
  | panicked
  | cancelled
  | other
  deriving DecidableEq

/-- Questions to the surroundings and effects on them. -/
inductive Query where
  | getOwner (address : Bytes)
  | filtered (f : Filter)
  | now
  | getNonce (address : Bytes)
  | details (requestId : Bytes)
  | bid (b : Signed BidBody)
  | fulfill (f : Signed FulfillBody)
  | fail (f : Signed FailBody)
  | unexecutable (requestId : Bytes)
  | download (what : Artifacts.ArtifactType) (id uri : Artifacts.Str)
  | runTask (program stdin : Bytes) (mode : ProofMode)
  | countProof (cycles millis : Nat)
  | retryTime

/-- Type of the answer to a question. `retryTime` stands for the duration of an attempt and the random number of
the pause after it. -/
def Answer : Query → Type
  | .getOwner _ => Except RpcError Bytes
  | .filtered _ => Except RpcError (List Req)
  | .now => U64
  | .getNonce _ => Except RpcError U64
  | .details _ => Except RpcError (Option Req)
  | .bid _ => Except RpcError Unit
  | .fulfill _ => Except RpcError Unit
  | .fail _ => Except RpcError Unit
  | .unexecutable _ => Bool
  | .download _ _ _ => Except RpcError Bytes
  | .runTask _ _ _ => TaskEnd
  | .countProof _ _ => Unit
  | .retryTime => Nat × Nat

/-- The surroundings: the answer to each question, given everything asked before. -/
abbrev World := (past : List Query) → (q : Query) → Answer q

/-- Configuration of a node: `SerialBidder` (`serial.rs:79-86`), the signer and constants. -/
structure Config where
  /-- The address of the signer. -/
  signer : Address
  /-- `Signable::sign` over the binary encoding, `crates/types/network/src/lib.rs`. -/
  sign : Bytes → Bytes
  /-- `SerialBidder::bid`. -/
  price : U256
  /-- `SerialBidder::prover`. -/
  prover : Address
  /-- `gas_limit ↦ ((gas_limit as f64) / throughput) as u64`. -/
  requiredTime : U64 → U64
  /-- `SPN_MAINNET_V1_DOMAIN`, `crates/network/utils/src/domain.rs`. -/
  mainnetDomain : B256
  /-- `str::to_lowercase`. -/
  lower : Retry.Str → Retry.Str

/-- A program of the node: from the log so far to an outcome and the extended log. -/
abbrev Io (α : Type) := World → List Query → Retry.Outcome α × List Query

/-- Sequencing with `?`: errors and panics end the program. -/
def Io.bind {α β : Type} (m : Io α) (f : α → Io β) : Io β := fun w log =>
  match m w log with
  | (.ok a, log') => f a w log'
  | (.err e, log') => (.err e, log')
  | (.panic, log') => (.panic, log')

/-- `Ok(a)`. -/
def Io.pure {α : Type} (a : α) : Io α := fun _ log => (.ok a, log)

instance : Monad Io where
  pure := Io.pure
  bind := Io.bind

/-- Ask a question. -/
def ask (q : Query) : Io (Answer q) := fun w log => (.ok (w log q), log ++ [q])

/-- `time_now()`, `crates/network/utils/src/time.rs`. -/
def timeNow : Io U64 := ask .now

/-- Whether the registry of unexecutable requests has an identifier, `serial.rs:550-551`. -/
def isUnexecutable (requestId : Bytes) : Io Bool := ask (.unexecutable requestId)

/-- Spawn the proving task and wait for it, `serial.rs:624-683`. -/
def runTask (program stdin : Bytes) (mode : ProofMode) : Io TaskEnd := ask (.runTask program stdin mode)

/-- Update the metrics, `serial.rs:688-691`. -/
def countProof (cycles millis : Nat) : Io Unit := ask (.countProof cycles millis)

/-- `Err(e)`. -/
def throw {α : Type} (e : RpcError) : Io α := fun _ log => (.err e, log)

/-- A panic in the task that runs the round. -/
def panic {α : Type} : Io α := fun _ log => (.panic, log)

/-- The `?` operator. -/
def try? {α : Type} : Except RpcError α → Io α
  | .ok a => Io.pure a
  | .error e => throw e

/-- One call of a retried operation, with the time it takes. -/
def timed {α : Type} (op : Io α) (w : World) (log : List Query) : Attempt α × List Query :=
  match op w log with
  | (r, log') => (⟨r, (w log' .retryTime).1, (w log' .retryTime).2⟩, log' ++ [.retryTime])

/-- `network.with_retry(op, …)`, `crates/network/rpc/src/retry.rs:114-121`. -/
def withRetry {α : Type} (cfg : Config) (op : Io α) : Io α := fun w log =>
  Retry.retryOperation cfg.lower (timed op w) Retry.defaultBudget log

/-- Decimal digits, `U256::to_string` (`serial.rs:234`). -/
def decimal (n : Nat) : Bytes :=
  if n < 10 then [UInt8.ofNat (48 + n)] else decimal (n / 10) ++ [UInt8.ofNat (48 + n % 10)]
  termination_by n

/-- `fetch_owner`, `crates/network/rpc/src/fetch.rs`. -/
def fetchOwner (address : Bytes) : Io Bytes := do
  try? (← ask (.getOwner address))

/-- `MessageFormat::Binary as i32`. -/
def binaryFormat : I32 := 1

/-- A signed bid, `serial.rs:230-243`. -/
def mkBid (cfg : Config) (nonce : U64) (requestId : Bytes) : Signed BidBody :=
  let body : BidBody := {
    nonce := nonce
    requestId := requestId
    amount := decimal cfg.price.toNat
    prover := Address.bytes cfg.prover
    domain := beBytes 32 cfg.mainnetDomain.toNat
    variant := Variant.bid.toI32 }
  { format := binaryFormat, signature := cfg.sign (encFields body.fields), body := some body }

/-- `u64::saturating_sub`. -/
def satSub (a b : U64) : U64 := if b ≤ a then a - b else 0

/-- The operation retried by `SerialBidder::bid`, `serial.rs:170-247`. -/
def bidAttempt (cfg : Config) (requestId : Bytes) : Io Unit := do
  let nonce ← try? (← ask (.getNonce (Address.bytes cfg.signer)))
  let some request ← try? (← ask (.details requestId))
    | throw (.other "request details not found".toList)
  let currentTime ← timeNow
  let remainingTime := satSub request.deadline currentTime
  if remainingTime < cfg.requiredTime request.gasLimit then pure ()
  else try? (← ask (.bid (mkBid cfg nonce requestId)))

/-- `SerialBidder::bid`, `serial.rs:99-253`. -/
def bidRound (cfg : Config) : Io Unit := do
  let owner ← fetchOwner (Address.bytes cfg.signer)
  let t ← timeNow
  let assigned ← try? (← ask (.filtered
    { status := .assigned, minimumDeadline := t, fulfiller := some owner, limit := 1 }))
  if !assigned.isEmpty then pure ()
  else
    let t ← timeNow
    let unassigned ← try? (← ask (.filtered
      { status := .requested, minimumDeadline := t, notBidBy := some owner, limit := 1 }))
    match unassigned with
    | [] => pure ()
    | [request] => withRetry cfg (bidAttempt cfg request.requestId)
    | _ :: _ :: _ => pure ()

/-- A signed failure report, `serial.rs:380-389`. -/
def mkFail (cfg : Config) (nonce : U64) (requestId : Bytes) : Signed FailBody :=
  let body : FailBody := { nonce := nonce, requestId := requestId, error := none }
  { format := binaryFormat, signature := cfg.sign (encFields body.fields), body := some body }

/-- The operation retried by `fail_request`, `serial.rs:369-393`. -/
def failAttempt (cfg : Config) (requestId : Bytes) : Io Unit := do
  let nonce ← try? (← ask (.getNonce (Address.bytes cfg.signer)))
  try? (← ask (.fail (mkFail cfg nonce requestId)))

/-- `fail_request`, `serial.rs:363-398`. -/
def failRequest (cfg : Config) (requestId : Bytes) : Io Unit := withRetry cfg (failAttempt cfg requestId)

/-- Code that looks at the outcome of `m` and only logs an error (`if let Err(e) = …`). Panics unwind. -/
def logError (m : Io Unit) : Io Unit := fun w log =>
  match m w log with
  | (.err _, log') => (.ok (), log')
  | r => r

/-- `report_request_status`, `serial.rs:808-830`. -/
def reportRequestStatus (cfg : Config) (requestId : Bytes) : Io Unit := logError (failRequest cfg requestId)

/-- `ProofMode::try_from(request.mode).unwrap_or(Core)` and the `match` after it, `serial.rs:614-621`; `none` is
the `unreachable!()` of the unspecified mode. -/
def proofMode (mode : I32) : Option ProofMode :=
  if mode = 0 then none
  else if mode = 1 then some .core
  else if mode = 2 then some .compressed
  else if mode = 3 then some .plonk
  else if mode = 4 then some .groth16
  else some .core

/-- A signed fulfilment, `serial.rs:715-727`. -/
def mkFulfill (cfg : Config) (nonce : U64) (requestId proof : Bytes) : Signed FulfillBody :=
  let body : FulfillBody := {
    nonce := nonce
    requestId := requestId
    proof := proof
    reservedMetadata := none
    domain := beBytes 32 cfg.mainnetDomain.toNat
    variant := Variant.fulfill.toI32 }
  { format := binaryFormat, signature := cfg.sign (encFields body.fields), body := some body }

/-- The operation retried to submit a proof, `serial.rs:703-735`. -/
def fulfillAttempt (cfg : Config) (requestId proof : Bytes) : Io Unit := do
  let nonce ← try? (← ask (.getNonce (Address.bytes cfg.signer)))
  try? (← ask (.fulfill (mkFulfill cfg nonce requestId proof)))

/-- `extract_artifact_name(uri)?`, `crates/network/artifacts/src/lib.rs`. -/
def artifactName (uri : Artifacts.Str) : Io Artifacts.Str :=
  match Artifacts.extractArtifactName uri with
  | some n => pure n
  | none => throw (.other "failed to extract artifact name".toList)

/-- The body of the loop of `SerialProver::prove`, `serial.rs:547-800`. -/
def handleRequest (cfg : Config) (r : Req) : Io Unit := do
  let registered ← isUnexecutable r.requestId
  if registered then reportRequestStatus cfg r.requestId
  else
    let programId ← artifactName r.programUri
    let program ← try? (← ask (.download .program programId r.programUri))
    let stdinId ← artifactName r.stdinUri
    let stdin ← try? (← ask (.download .stdin stdinId r.stdinUri))
    match proofMode r.mode with
    | none => panic
    | some mode =>
      let result ← runTask program stdin mode
      match result with
      | .proof bytes cycles millis =>
        countProof cycles millis
        match bytes with
        | none => throw (.other "failed to serialize proof".toList)
        | some proof => logError (withRetry cfg (fulfillAttempt cfg r.requestId proof))
      | .error => reportRequestStatus cfg r.requestId
      | .panicked => reportRequestStatus cfg r.requestId
      | .cancelled => reportRequestStatus cfg r.requestId
      | .other => reportRequestStatus cfg r.requestId

/-- The loop of `SerialProver::prove`, `serial.rs:547`. -/
def handleAll (cfg : Config) : List Req → Io Unit
  | [] => pure ()
  | r :: rs => do
    handleRequest cfg r
    handleAll cfg rs

/-- `SerialProver::prove`, `serial.rs:513-803`. The task that fills the registry (`serial.rs:285-359`) is part of
the surroundings. -/
def proveRound (cfg : Config) : Io Unit := do
  let owner ← fetchOwner (Address.bytes cfg.signer)
  let t ← timeNow
  let requests ← try? (← ask (.filtered
    { status := .assigned, minimumDeadline := t, fulfiller := some owner, limit := 1 }))
  if requests.isEmpty then pure ()
  else handleAll cfg requests

end Verif.Node
