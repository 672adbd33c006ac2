import Verif.Basic
/-
# The RPC retry policy

Models `retry_operation`, `crates/network/rpc/src/retry.rs:35-110`, together with the part of the external
crate `backoff` it relies on (`future::retry` and `ExponentialBackoff::next_backoff`, with the defaults
`multiplier = 1.5` and `randomization_factor = 0.5`).  Times are in milliseconds.

Simplifications: the log lines are left out; only `Some(timeout)` is modelled (the only callers are
`with_retry` and `with_retry_timeout`, `retry.rs:113-136`); a randomised interval is a whole number of
milliseconds.
-/

namespace Verif.Retry

/-- Text of an error, as characters. -/
abbrev Str := List Char

/-- `tonic::Code`. -/
inductive Code where
  | ok | cancelled | unknown | invalidArgument | deadlineExceeded | notFound | alreadyExists
  | permissionDenied | resourceExhausted | failedPrecondition | aborted | outOfRange | unimplemented
  | internal | unavailable | dataLoss | unauthenticated
  deriving DecidableEq, Repr

/-- An `anyhow::Error` as `retry_operation` looks at it: one that downcasts to `tonic::Status`, or any
other one, of which only the text matters (`retry.rs:56`, `retry.rs:85`). -/
inductive RpcError where
  | status (c : Code)
  | other (msg : Str)
  deriving DecidableEq, Repr

/-- Outcome of a piece of fallible code: `Ok`, `Err` or an unwinding panic. -/
inductive Outcome (α : Type) where
  | ok (a : α)
  | err (e : RpcError)
  | panic
  deriving DecidableEq, Repr

/-- `str::starts_with`. -/
def startsWith : Str → Str → Bool
  | _, [] => true
  | [], _ :: _ => false
  | c :: s, d :: p => c == d && startsWith s p

/-- `str::contains`. -/
def contains : Str → Str → Bool
  | [], p => startsWith [] p
  | c :: s, p => startsWith (c :: s) p || contains s p

/-- The texts of `retry.rs:86-93`. -/
def transientTexts : List Str :=
  ["tls handshake".toList, "dns error".toList, "connection reset".toList, "broken pipe".toList,
   "transport error".toList, "failed to lookup".toList, "timeout".toList, "deadline exceeded".toList]

/-- Whether `retry_operation` turns the error into `BackoffError::transient`, `retry.rs:55-105`.
`lower` is `str::to_lowercase` (any function). -/
def isTransient (lower : Str → Str) : RpcError → Bool
  | .status .unavailable => true
  | .status .deadlineExceeded => true
  | .status .internal => true
  | .status .aborted => true
  | .status _ => false
  | .other msg =>
    let m := lower msg
    transientTexts.any fun p => contains m p

/-- `initial_interval`, `retry.rs:45`. -/
def initialInterval : Nat := 1000
/-- `max_interval`, `retry.rs:46`. -/
def maxInterval : Nat := 120000
/-- `DEFAULT_RETRY_TIMEOUT`, `retry.rs:9`. -/
def defaultBudget : Nat := 120000

/-- `ExponentialBackoff::increment_current_interval` (crate `backoff`): times 1.5, capped. -/
def nextInterval (cur : Nat) : Nat :=
  if cur * 3 ≥ maxInterval * 2 then maxInterval else cur * 3 / 2

/-- `ExponentialBackoff::get_random_value_from_interval` (crate `backoff`): a value between half and one and a
half of the current interval; `jitter` stands for the random number. -/
def pause (cur jitter : Nat) : Nat := cur / 2 + jitter % (cur + 1)

/-- What one call of the operation yields: its outcome, how long it took and the random number drawn for the
pause after it (not used when there is no further call). -/
structure Attempt (α : Type) where
  result : Outcome α
  took : Nat
  jitter : Nat

/-- `ExponentialBackoff::next_backoff` (crate `backoff`) with `max_elapsed_time = Some(budget)`. -/
def nextBackoff (budget elapsed cur jitter : Nat) : Option Nat :=
  if elapsed > budget then none
  else if elapsed + pause cur jitter ≤ budget then some (pause cur jitter) else none

theorem nextInterval_ge {cur : Nat} (h : 1000 ≤ cur) : 1000 ≤ nextInterval cur := by
  unfold nextInterval maxInterval; split <;> omega

theorem nextBackoff_some {budget elapsed cur jitter p : Nat} (h : nextBackoff budget elapsed cur jitter = some p) :
    p = pause cur jitter ∧ elapsed + p ≤ budget := by
  unfold nextBackoff at h
  split at h
  · cases h
  · split at h
    · cases h; exact ⟨rfl, by assumption⟩
    · cases h

/-- The loop of `backoff::future::retry` around the closure of `retry.rs:51-108`. `σ` is whatever the operation
depends on and changes. `elapsed` is the time since the first call started, `cur` the current interval. -/
def retryLoop {σ α : Type} (lower : Str → Str) (op : σ → Attempt α × σ) (budget : Nat) :
    (elapsed cur : Nat) → 1000 ≤ cur → σ → Outcome α × σ
  | elapsed, cur, hc, s =>
    match op s with
    | (a, s') =>
      match a.result with
      | .ok v => (.ok v, s')
      | .panic => (.panic, s')
      | .err e =>
        if isTransient lower e then
          match h : nextBackoff budget (elapsed + a.took) cur a.jitter with
          | some p => retryLoop lower op budget (elapsed + a.took + p) (nextInterval cur) (nextInterval_ge hc) s'
          | none => (.err e, s')
        else (.err e, s')
  termination_by elapsed => budget + 1 - elapsed
  decreasing_by
    have h' := nextBackoff_some h
    have : 0 < p := by rw [h'.1]; unfold pause; omega
    omega

/-- `retry_operation(operation, Some(budget), …)`, `retry.rs:35-110`. -/
def retryOperation {σ α : Type} (lower : Str → Str) (op : σ → Attempt α × σ) (budget : Nat) (s : σ) :
    Outcome α × σ :=
  retryLoop lower op budget 0 initialInterval (by decide) s

end Verif.Retry
