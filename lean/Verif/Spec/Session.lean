import Verif.Model.SessionStep
import Verif.Spec.Frame
/-!
# What the history of a session says

Small functions of the event log, in which the properties of `Props/Session.lean` are stated.  They do not use any
function of the model.
-/

namespace Amqp.Rt

/-- The performative of a transfer frame that was posted. -/
def Ev.transfer? : Ev → Option Transfer
  | .frame (.transfer t) => some t
  | _ => none

/-- The transfer frames posted, oldest first. -/
def sentTransfers (log : List Ev) : List Transfer := log.filterMap Ev.transfer?

/-- The delivery ids on the transfer frames posted, oldest first. -/
def sentIds (log : List Ev) : List UInt32 := (sentTransfers log).filterMap fun t => t.head.deliveryId

/-- How many sends used a unit of the credit of sender link `r`. -/
def taken (r : Ref) (log : List Ev) : Nat := log.countP fun
  | .took _ r' => r' == r
  | _ => false

/-- How many deliveries of sender link `r` went out. -/
def begunOn (r : Ref) (log : List Ev) : Nat := log.countP fun
  | .begun _ r' _ => r' == r
  | _ => false

/-- How many deliveries of the session went out. -/
def begun (log : List Ev) : Nat := log.countP fun
  | .begun .. => true
  | _ => false

/-- A flow frame set the credit of sender link `r`. -/
def Ev.grantsTo (r : Ref) : Ev → Bool
  | .applied r' f => r' == r && f.linkCredit.isSome
  | _ => false

/-- A flow frame set the session's window. -/
def Ev.setsWindow : Ev → Bool
  | .windowed _ => true
  | _ => false

/-- The id of the peer's next delivery as the peer stated it: in the last flow frame taken into account, or when the
session began. -/
def peerStated (begun : UInt32) (log : List Ev) : UInt32 := log.foldl (fun n e => match e with
  | .windowed f => f.nextOutgoingId
  | _ => n) begun

/-- The id of the next transfer the peer will send (AMQP 1.0 §2.5.6): as it stated it, counted up by every transfer frame
since. -/
def peerNext (begun : UInt32) (log : List Ev) : UInt32 := log.foldl (fun n e => match e with
  | .peer (.flow f) => f.nextOutgoingId
  | .peer (.transfer _) => n + 1
  | _ => n) begun

/-- What is left of the window the peer opened: it set it when the session began and sets it anew with every flow frame,
relative to the delivery id it expects next; every delivery uses one (AMQP 1.0 §2.5.6).  Delivery ids start at 1. -/
def windowLeft (begun : UInt32) (log : List Ev) : UInt32 := (log.foldl (fun (n : UInt32 × UInt32) e => match e with
  | .begun .. => (n.1 + 1, n.2 - 1)
  | .windowed f => (n.1, f.nextIncomingId.getD 0 + f.incomingWindow - n.1)
  | _ => n) (1, begun)).2

/-! ## Dispositions -/

/-- A disposition is about delivery `id`: counting up from `first`, `id` comes no later than `last`, or it is `first` if
there is no `last`.  Delivery ids are serial numbers (AMQP 1.0 §2.8.7): after 4294967295 comes 0. -/
def _root_.Amqp.Disposition.Covers (d : Disposition) (id : UInt32) : Prop :=
  match d.last with
  | some last => id - d.first ≤ last - d.first
  | none => id = d.first

instance (d : Disposition) (id : UInt32) : Decidable (d.Covers id) := by
  unfold Amqp.Disposition.Covers; split <;> infer_instance

/-- After delivery `id` went out, the peer sent a disposition about it. -/
def Covered (log : List Ev) (id : UInt32) : Prop :=
  ∃ pre d post, log = pre ++ .peer (.disposition d) :: post ∧ (∃ t r, .begun t r id ∈ pre) ∧ d.role = .receiver ∧
    d.Covers id

/-- After delivery `id` went out, the peer sent a disposition about it with state `st`. -/
def Heard (log : List Ev) (id : UInt32) (st : DeliveryState) : Prop :=
  ∃ pre d post, log = pre ++ .peer (.disposition d) :: post ∧ (∃ t r, .begun t r id ∈ pre) ∧ d.role = .receiver ∧
    d.Covers id ∧ d.state = some st

/-- The disposition frames posted, oldest first. -/
def sentDispositions (log : List Ev) : List Disposition := log.filterMap fun
  | .frame (.disposition d) => some d
  | _ => none

/-- The dispositions asked for through delivery objects: which object, settled or not, and the state. -/
def disposals (log : List Ev) : List (Ref × Bool × DeliveryState) := log.filterMap fun
  | .disposed d b st => some (d, b, st)
  | _ => none

/-- The outcomes with which delivery object `d` was settled. -/
def settlements (d : Ref) (log : List Ev) : List DeliveryState := log.filterMap fun
  | .disposed d' true st => if d' = d then some st else none
  | _ => none

/-! ## Deliveries on the wire -/

/-- The transfer frames of one delivery (AMQP 1.0 §2.7.5): the first names it, all but the last announce more, and the
payloads put together are the message. -/
structure WholeDelivery (handle id : UInt32) (tag message : Bytes) (format : Option UInt32) (settled : Bool)
    (ts : List Transfer) : Prop where
  ids : ts.map (·.head.deliveryId) = some id :: List.replicate (ts.length - 1) none
  tags : ts.map (·.head.deliveryTag) = some tag :: List.replicate (ts.length - 1) none
  settles : ts.map (·.head.settled) = (if settled then some true else none) :: List.replicate (ts.length - 1) none
  more : ts.map (·.head.more) = List.replicate (ts.length - 1) true ++ [false]
  handle : ∀ t ∈ ts, t.head.handle = handle
  format : ∀ t ∈ ts, t.head.messageFormat = format
  sound : ∀ t ∈ ts, t.head.aborted = false ∧ t.head.resume = false
  payload : (ts.map Transfer.payload).flatten = message

end Amqp.Rt
