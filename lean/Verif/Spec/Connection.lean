import Verif.Model.Connection
/-!
# What the connection properties are about

Everything here is read off the history of a connection (`Conn.log`) or off its configuration.
-/

namespace Amqp.Rt

/-- One event, as it concerns who is spoken to on channel `ch`: a session begun there is, until the peer ends it. -/
def speak (ch : UInt16) (cur : Option Ref) : CEv → Option Ref
  | .begun c s => if c = ch then some s else cur
  | .peer c (.end_ _) => if c = ch then none else cur
  | _ => cur

/-- The session the peer speaks to on a channel, according to the history. -/
def speaking (log : List CEv) (ch : UInt16) : Option Ref := log.foldl (speak ch) none

/-- The control frames sessions queued, in order. -/
def queuedCtl (log : List CEv) : List (Ref × Control) :=
  log.filterMap fun | .ses s (.control k) => some (s, k) | _ => none

/-- The queued control frames that were handed to the control service, in order. -/
def handedCtl (log : List CEv) : List (Ref × Control) :=
  log.filterMap fun | .called (.queued s k) => some (s, k) | _ => none

/-- Channels on which this side began sessions of its own. -/
def begunHere (log : List CEv) : List UInt16 :=
  log.filterMap fun
    | .frame ch (.begin_ b) => if b.remoteChannel = none then some ch else none
    | _ => none

end Amqp.Rt
