/-
# The metrics server

Models `MetricServer::serve` and `start_endpoint` (`crates/node/metrics/src/server.rs:93-162`): the future returned by
`serve`, the task with the HTTP endpoint and the task that waits for the external signal, as one state that changes by
the steps of either. A schedule is a list of steps; a step that is not possible when its turn comes is skipped.

Simplifications: a request is one unit that is accepted and answered at some later time; what the handler renders
(`server.rs:165-172`) is not modelled. Of the broadcast channel only whether `recv` would return is kept: it does so
with a message, after lag, and when all senders are gone. Of `axum::serve` with graceful shutdown we use what its
documentation says: after the signal it accepts nothing more and returns when all requests are answered.
-/

namespace Verif.Metrics

/-- Where the body of `serve` is. -/
inductive MainPc where
  /-- before `get_or_init_prometheus`, `server.rs:138` -/
  | start
  /-- the recorder is installed, the endpoint not yet spawned, `server.rs:149` -/
  | installed
  /-- before the ready signal, `server.rs:103` -/
  | spawned
  /-- before the task that listens is spawned, `server.rs:117` -/
  | described
  /-- at `server_handle.await?`, `server.rs:127` -/
  | awaiting
  /-- `serve` has returned, without error or with a `JoinError` -/
  | returned (ok : Bool)
  /-- a recorder of somebody else was installed, `recorder.rs:28-31` -/
  | panicked
  /-- the future was dropped, as by aborting the task it runs in -/
  | dropped
  deriving DecidableEq

/-- Where the task with the endpoint is, `server.rs:149-161`. -/
inductive SrvPc where
  | none
  /-- before `TcpListener::bind`, `server.rs:152` -/
  | spawned
  | serving
  /-- `shutdown_rx.await` has returned -/
  | stopping
  | finished
  /-- the `unwrap` after `bind` -/
  | panicked
  deriving DecidableEq

/-- Where the task that waits for the external signal is, `server.rs:117-124`. -/
inductive LstPc where
  | none
  | waiting
  | done
  deriving DecidableEq

structure State where
  main : MainPc
  srv : SrvPc
  lst : LstPc
  /-- `shutdown_rx.await` would return: something was sent or the sender was dropped -/
  internal : Bool
  /-- `shutdown_signal.recv().await` would return -/
  external : Bool
  /-- the ready signal was sent -/
  ready : Bool
  /-- the recorder is installed -/
  recorder : Bool
  /-- `axum::serve` returned an error, which is only logged -/
  failed : Bool
  accepted : Nat
  answered : Nat
  deriving DecidableEq

/-- Before `serve` is polled. -/
def init : State := ⟨.start, .none, .none, false, false, false, false, false, 0, 0⟩

/-- The steps of the three tasks and of their surroundings. -/
inductive Event where
  /-- installing the recorder, with its outcome -/
  | install (ok : Bool)
  /-- the next step of `serve` -/
  | main
  /-- `TcpListener::bind`, with its outcome -/
  | bind (ok : Bool)
  | accept
  | answer
  /-- the endpoint notices the internal signal -/
  | stop
  /-- the endpoint returns -/
  | finish
  /-- the endpoint returns an error -/
  | fail
  /-- a message on the external channel, or all its senders are gone -/
  | signal
  /-- the listening task's `recv` returns, and with it the internal sender is used or dropped -/
  | listen
  /-- the future of `serve` is dropped; it is suspended only before its first step and at `server_handle.await` -/
  | abort
  deriving DecidableEq

/-- One step, if it is possible. `wants` says whether a ready signal was configured. -/
def step (wants : Bool) (s : State) : Event → Option State
  | .install ok =>
    if s.main = .start then
      some (if ok then { s with main := .installed, recorder := true } else { s with main := .panicked })
    else none
  | .main =>
    match s.main with
    | .installed => some { s with main := .spawned, srv := .spawned }
    | .spawned => some { s with main := .described, ready := wants }
    | .described => some { s with main := .awaiting, lst := .waiting }
    | .awaiting =>
      match s.srv with
      | .finished => some { s with main := .returned true }
      | .panicked => some { s with main := .returned false }
      | _ => none
    | _ => none
  | .bind ok => if s.srv = .spawned then some { s with srv := if ok then .serving else .panicked } else none
  | .accept => if s.srv = .serving then some { s with accepted := s.accepted + 1 } else none
  | .answer =>
    if (s.srv = .serving ∨ s.srv = .stopping) ∧ s.answered < s.accepted then some { s with answered := s.answered + 1 }
    else none
  | .stop => if s.srv = .serving ∧ s.internal = true then some { s with srv := .stopping } else none
  | .finish => if s.srv = .stopping ∧ s.answered = s.accepted then some { s with srv := .finished } else none
  | .fail => if s.srv = .serving ∨ s.srv = .stopping then some { s with srv := .finished, failed := true } else none
  | .signal => if s.external = false then some { s with external := true } else none
  | .listen => if s.lst = .waiting ∧ s.external = true then some { s with lst := .done, internal := true } else none
  | .abort =>
    if s.main = .start ∨ s.main = .awaiting then some { s with main := .dropped } else none

/-- A schedule. -/
def run (wants : Bool) (s : State) (es : List Event) : State := es.foldl (fun s e => (step wants s e).getD s) s

end Verif.Metrics
