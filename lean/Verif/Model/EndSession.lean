import Verif.Model.Connection
/-!
# The future of `Session::end`

What the call does to the session is `Session.endLocal`.  The future waits on the condition `closed` of the session, which
`set_error` notifies and locks when it sets the flag `ENDED` (session.rs:377-379, the only place that sets either), so it is
woken when the flag is set and not before.
-/

namespace Amqp.Rt.Session

/-- What `end` returns at once (session.rs:104-105). -/
def endAtOnce (s : Session) : Option (Except PErr Unit) := if s.ended then some (.ok ()) else none

/-- What its future is polled to (session.rs:119-126). -/
def endPoll (s : Session) : Option (Except PErr Unit) :=
  if s.ended then
    some (match s.error with
      | some (.sessionEnded (some e)) => .error (.sessionEnded (some e))
      | _ => .ok ())
  else none

end Amqp.Rt.Session
