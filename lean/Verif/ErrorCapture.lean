/-
# Capturing panics

Models `ErrorCapture` (`crates/network/utils/src/error.rs:1-72`): `new`, `format_error` and `drop` together with the
panic hook of the process, which they replace. A history is a list of operations of any threads in the order in which
they take effect on the hook and the channels; each of them is atomic there.

Simplifications: the message of a panic, `"panic occurred at {location}: {panic_info}"` (`error.rs:18-21`), is a given
text; the location is always known, as it is in the standard library. Of `panic::take_hook` we use what its
documentation says: it panics if called from a panicking thread, and a panic while unwinding ends the process.
`extract_panic_message` (`error.rs:44-59`) is not modelled.
-/

namespace Verif.Capture

/-- What the process does on a panic. -/
inductive Hook where
  /-- the hook of the standard library, or that of a dropped capture (`error.rs:69-71`): the panic is printed -/
  | print
  /-- the hook of capture number `i`, `error.rs:17-22` -/
  | send (i : Nat)
  deriving DecidableEq

inductive Op where
  /-- `ErrorCapture::new()`; captures are numbered in the order in which they are made -/
  | new
  /-- a panic, with its message -/
  | panic (msg : String)
  /-- `format_error(err)` of capture `i` -/
  | format (i : Nat) (err : String)
  /-- capture `i` goes out of scope, because its thread unwinds or otherwise -/
  | drop (i : Nat) (unwinding : Bool)
  deriving DecidableEq

/-- A capture: whether it was not dropped yet, and the messages in its channel. -/
structure Cap where
  live : Bool
  queue : List String
  deriving DecidableEq

structure State where
  hook : Hook
  caps : List Cap
  /-- the process was ended by a panic while unwinding -/
  aborted : Bool
  deriving DecidableEq

def init : State := ⟨.print, [], false⟩

/-- Whether capture `i` exists. -/
def State.live (s : State) (i : Nat) : Bool := (s.caps[i]?.map Cap.live).getD false

/-- The messages in the channel of capture `i`. -/
def State.queue (s : State) (i : Nat) : List String := (s.caps[i]?.map Cap.queue).getD []

/-- `format_error`, `error.rs:35-42`, on the messages of `collect_messages`. -/
def render (err : String) (msgs : List String) : String :=
  if msgs.isEmpty then err else err ++ "\nPanic details:\n" ++ "\n".intercalate msgs

/-- The state after an operation. Operations on captures that do not exist are not possible. -/
def step (s : State) (o : Op) : State :=
  if s.aborted then s else
  match o with
  -- `error.rs:12-25`
  | .new => { s with hook := .send s.caps.length, caps := s.caps ++ [⟨true, []⟩] }
  -- `error.rs:17-22`; a message for a dropped capture is lost
  | .panic msg =>
    match s.hook with
    | .print => s
    | .send i => { s with caps := s.caps.modify i (fun c => { c with queue := c.queue ++ [msg] }) }
  -- `error.rs:28-34`
  | .format i _ => if s.live i then { s with caps := s.caps.modify i (fun c => { c with queue := [] }) } else s
  -- `error.rs:66-72`
  | .drop i unwinding =>
    if s.live i then
      if unwinding then { s with aborted := true }
      else { s with hook := .print, caps := s.caps.modify i (fun c => { c with live := false }) }
    else s

def run (s : State) (h : List Op) : State := h.foldl step s

/-- What `format_error(err)` of capture `i` returns after history `h`, if it can be called. -/
def report (h : List Op) (i : Nat) (err : String) : Option String :=
  let s := run init h
  if s.aborted = false ∧ s.live i = true then some (render err (s.queue i)) else none

end Verif.Capture
