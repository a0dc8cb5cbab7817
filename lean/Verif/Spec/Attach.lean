import Verif.Model.Session
/-!
# Attaching links

AMQP 1.0 §2.6.3, §2.7.3: each end sends an attach with the name of the link, its own role and its own handle.
-/

namespace Amqp.Rt

def _root_.Amqp.Role.opposite : Role → Role
  | .sender => .receiver
  | .receiver => .sender

/-- `g` is an answer to the attach `a`: same link, the other role, terminuses and sender settle mode as asked for, nothing
resumed. -/
structure Answers (a g : Attach) : Prop where
  name : g.name = a.name
  role : g.role = a.role.opposite
  source : g.source = a.source
  target : g.target = a.target
  sndSettleMode : g.sndSettleMode = a.sndSettleMode
  unsettled : g.unsettled = none ∧ g.incompleteUnsettled = false

/-- A limit on the size of messages as 32 bits: nothing larger than 2³²−1 can be announced. -/
def LimitOf (announced : Option UInt64) (limit : Option UInt32) : Prop :=
  limit.map UInt32.toNat = announced.map fun n => min n.toNat (2 ^ 32 - 1)

/-- The parameters of a sender link are those of the peer's attach. -/
structure SenderOf (a : Attach) (l : Snd) : Prop where
  remoteHandle : l.remoteHandle = a.handle
  deliveryCount : l.deliveryCount = a.initialDeliveryCount.getD 0
  limit : LimitOf a.maxMessageSize l.maxMessageSize
  credit : l.linkCredit = 0
  usable : l.error = none ∧ l.closed = false ∧ l.pending = []

/-- The parameters of a receiver link are those of the peer's attach. -/
structure ReceiverOf (a : Attach) (l : Rcv) : Prop where
  name : l.name = a.name
  remoteHandle : l.remoteHandle = a.handle
  deliveryCount : l.deliveryCount = a.initialDeliveryCount.getD 0
  credit : l.credit = 0
  usable : l.error = none ∧ l.closed = false ∧ l.queue = [] ∧ l.partialBody = none

end Amqp.Rt
