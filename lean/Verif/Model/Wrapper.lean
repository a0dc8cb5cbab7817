import Verif.Model.Basic
/-!
# The response to an attach in the hands of the control service

A control service that is asked about an attach of the peer may change the attach that will be sent in response
(`Wrapper<Attach>` in `ControlFrameKind`, src/control.rs:30-31).  The service owns its `ControlFrame`, a shared reference to the
frame the dispatcher keeps, and may keep it after it has answered.
-/

namespace Amqp.Wrap

/-- `Wrapper` (src/types.rs:131-134): `none` once the dispatcher has taken the content. -/
abbrev Wrapper (α : Type) := Option α

/-- What happens to it, in order. -/
inductive Op (α : Type) where
  /-- The application calls `with` (types.rs:147-153), with a closure that changes the content and does not panic. -/
  | use (f : α → α)
  /-- The service has answered `Ok` and the dispatcher calls `take` (types.rs:143-145, dispatcher.rs:338, 353). -/
  | answer

/-- One operation: `none` if it panics, else the wrapper afterwards and what was taken. -/
def step (w : Wrapper α) : Op α → Option (Wrapper α × Option α)
  | .use f =>
    match w with
    | some a => some (some (f a), none)
    | none => none
  | .answer =>
    match w with
    | some a => some (none, some a)
    | none => none

/-- A sequence of operations: `none` if one panics, else the wrapper afterwards and all that was taken. -/
def run (w : Wrapper α) : List (Op α) → Option (Wrapper α × List α)
  | [] => some (w, [])
  | o :: os =>
    match step w o with
    | none => none
    | some (w, t) =>
      match run w os with
      | none => none
      | some (w, ts) => some (w, t.toList ++ ts)

end Amqp.Wrap
