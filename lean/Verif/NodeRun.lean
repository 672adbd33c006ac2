import Verif.Node
/-
# The life of a node

Models `Node::run` (`crates/node/core/src/lib.rs:113-168`) and the two background tasks of the serial prover: the
one that fills the registry of unexecutable requests (`crates/node/core/src/serial.rs:285-359`) and the one that
watches the registry while a proof is generated (`serial.rs:646-683`).

Simplifications: pauses between passes are left out, since they change nothing but the clock, which is arbitrary.
When one half of a pass panics, the other half is dropped wherever it is; only the end of the node is modelled then.
-/

namespace Verif.Node
open Retry (RpcError)

/-! ## `Node::run` -/

/-- What happens in a running node: a pass of the loop that bids and proves, or a pass of the monitor. -/
inductive Event where
  /-- `tokio::join!(bidder.bid(&ctx), prover.prove(&ctx))`, `lib.rs:122-125`, each half with its surroundings. -/
  | pass (bidder prover : World)
  /-- `monitor.record(&ctx)`, `lib.rs:140`, with its outcome. -/
  | record (outcome : Retry.Outcome Unit)

/-- A node that runs, or what `run` returned; the error stands for a `JoinError`. -/
inductive Life where
  | running
  | returned (result : Except Unit Unit)

/-- One event of `Node::run`, `lib.rs:119-165`. The results of both halves of a pass are dropped (`let _`), so only
a panic ends the task. An error of the monitor ends its task with `Ok(Err(_))`, which `select!` does not look into, so
`run` returns `Ok(())`; a panic ends it with `Err(_)`, which is returned. -/
def lifeStep (cfg : Config) (l : Life) (e : Event) : Life :=
  match l with
  | .returned r => .returned r
  | .running =>
    match e with
    | .pass b p =>
      match (bidRound cfg b []).1, (proveRound cfg p []).1 with
      | .panic, _ => .returned (.error ())
      | _, .panic => .returned (.error ())
      | _, _ => .running
    | .record (.ok _) => .running
    | .record (.err _) => .returned (.ok ())
    | .record .panic => .returned (.error ())

/-- `Node::run` over the events of a history. -/
def life (cfg : Config) (es : List Event) : Life := es.foldl (lifeStep cfg) .running

/-! ## The registry of unexecutable requests -/

/-- The fields of the query for unexecutable requests, `serial.rs:323-330`: status assigned and unexecutable. -/
structure UnexecutableFilter where
  assigned : Bool
  unexecutable : Bool
  fulfiller : Option Bytes
  limit : Nat
  deriving DecidableEq

/-- Answers of the network during one pass of the task. -/
structure Watch where
  owner : Bytes → Except RpcError Bytes
  list : UnexecutableFilter → Except RpcError (List Bytes)

/-- `HashSet::insert` for each request listed, `serial.rs:345-354`. -/
def insertAll (registry : List Bytes) : List Bytes → List Bytes
  | [] => registry
  | id :: ids => insertAll (if id ∈ registry then registry else id :: registry) ids

/-- One pass of the task, `serial.rs:309-357`: the registry, and the query that was asked. Errors are logged and the
task goes on. -/
def watchPass (signer : Address) (a : Watch) (registry : List Bytes) : List Bytes × Option UnexecutableFilter :=
  match a.owner (Address.bytes signer) with
  | .error _ => (registry, none)
  | .ok owner =>
    let f : UnexecutableFilter := { assigned := true, unexecutable := true, fulfiller := some owner, limit := 100 }
    match a.list f with
    | .error _ => (registry, some f)
    | .ok ids => (insertAll registry ids, some f)

/-- The registry after the passes `ps`, starting from `SerialProver::new` (`serial.rs:278-281`). -/
def registryAfter (signer : Address) (ps : List Watch) : List Bytes :=
  ps.foldl (fun r a => (watchPass signer a r).1) []

/-- Which prover's task is running in the process: the flag is static, `serial.rs:288-297`, so only the first prover
that asks for the task gets one. -/
def ensureTask (running : Option Nat) (prover : Nat) : Option Nat :=
  match running with
  | none => some prover
  | some p => some p

/-! ## Watching a proof -/

/-- What happens while the proving task runs, `serial.rs:624-683`: the watching task looks at the registry, the
proving task reaches a point where an abort takes effect, or the proving task ends on its own. -/
inductive TaskEvent where
  | check (registry : List Bytes)
  | yield
  | ends (e : TaskEnd)

/-- How the proving task for request `id` ends (`none`: it has not yet). `aborted` says whether `abort()` has been
called. An abort that comes too late changes nothing. -/
def superviseFrom (id : Bytes) (aborted : Bool) : List TaskEvent → Option TaskEnd
  | [] => none
  | .check registry :: es => superviseFrom id (aborted || registry.contains id) es
  | .yield :: es => if aborted then some .cancelled else superviseFrom id aborted es
  | .ends e :: _ => some e

/-- The proving task and the task that watches it, `serial.rs:624-686`. -/
def supervise (id : Bytes) (es : List TaskEvent) : Option TaskEnd := superviseFrom id false es

end Verif.Node
