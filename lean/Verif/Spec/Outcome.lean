import Verif.Spec.Pair
/-!
# What two connected sessions should agree on about deliveries

Functions of the event logs and of nothing else.
-/

namespace Amqp.Rt

/-- The transfer frames taken in by receiver links, oldest first. -/
def takenIn (log : List Ev) : List Transfer := log.filterMap fun
  | .received _ t => some t
  | _ => none

/-- The delivery ids on them: one for every delivery. -/
def takenIds (log : List Ev) : List UInt32 := (takenIn log).filterMap fun t => t.head.deliveryId

end Amqp.Rt
