import Verif.Spec.Receiving
import Verif.Model.Pair
/-!
# What two sessions connected to each other should do

Functions of the event logs, of the send requests and of nothing else.
-/

namespace Amqp.Rt

/-- The frames that came from the peer, oldest first. -/
def arrived (log : List Ev) : List Frame := log.filterMap fun
  | .peer f => some f
  | _ => none

/-- The transfer frames among them that carry handle `h`. -/
def transfersOn (h : UInt32) (fs : List Frame) : List Transfer := fs.filterMap fun
  | .transfer t => if t.head.handle = h then some t else none
  | _ => none

/-- The flow frames among them about the link with handle `k`. -/
def flowsOn (k : UInt32) (fs : List Frame) : List Flow := fs.filterMap fun
  | .flow f => if f.handle = some k then some f else none
  | _ => none

/-- The flow frames sender link `r` was given, oldest first. -/
def appliedOn (r : Ref) (log : List Ev) : List Flow := log.filterMap fun
  | .applied r' f => if r' = r then some f else none
  | _ => none

/-- The requests of the deliveries that went out on sender link `r`, in that order. -/
def sentOn (r : Ref) (s : Session) : List SendReq := s.log.filterMap fun
  | .begun t r' _ => if r' = r then s.sends[t]?.map (·.req) else none
  | _ => none

/-- A delivery that was received is what was sent: the message, its format, whether it was settled by the sender, and the tag
if the sender chose one. -/
structure SameMessage (q : SendReq) (a : Arrival) : Prop where
  payload : a.payload = q.body.tenc
  format : a.head.messageFormat = if q.format.isNone then q.body.format else q.format
  settled : a.head.settled = if q.settled then some true else none
  tag : ∀ g, q.tag = some g → a.head.deliveryTag = some g

/-- The application grants credit only when none is left. -/
def Frugal (r : Ref) (log : List Ev) : Prop :=
  ∀ pre n post, log = pre ++ .granted r n :: post → creditLeft r pre = 0

end Amqp.Rt
