import Verif.Spec.Session
/-!
# What a receiver link should make of the frames it takes in

Functions of the event log only; nothing of the model is used.
-/

namespace Amqp.Rt

/-- The transfer frames receiver link `r` took in, oldest first. -/
def receivedOn (r : Ref) (log : List Ev) : List Transfer := log.filterMap fun
  | .received r' t => if r' = r then some t else none
  | _ => none

/-- The deliveries the application took from receiver link `r`, oldest first: the delivery object and its transfer. -/
def handedOn (r : Ref) (log : List Ev) : List (Ref × Transfer) := log.filterMap fun
  | .handed r' d t => if r' = r then some (d, t) else none
  | _ => none

/-- A message as it arrived: the performative of the first frame, and the payloads of all frames put together. -/
structure Arrival where
  head : TransferHead
  payload : Bytes

/-- The messages that are complete, and the one of which frames are still to come. -/
structure Assembly where
  done : List Arrival
  open_ : Option Arrival

/-- One more frame: it continues the open message, or begins one; the message is complete unless the frame announces
more (AMQP 1.0 §2.7.5). -/
def Assembly.add (a : Assembly) (t : Transfer) : Assembly :=
  let m := match a.open_ with
    | some m => { m with payload := m.payload ++ t.payload }
    | none => { head := t.head, payload := t.payload }
  if t.head.more then { a with open_ := some m } else { done := a.done ++ [m], open_ := none }

/-- What a sequence of frames amounts to. -/
def assemble (ts : List Transfer) : Assembly := ts.foldl Assembly.add ⟨[], none⟩

/-- How a delivery looks to the application. -/
def _root_.Amqp.Transfer.asArrival (t : Transfer) : Arrival := { head := t.head, payload := t.payload }

/-- The credit of receiver link `r` after one more event: grants add to it, a delivery that is complete uses one unit.
A frame that ends a delivery uses a unit even if the link refuses it, unless there was none. -/
def creditAfter (r : Ref) (c : UInt32) : Ev → UInt32
  | .granted r' n => if r' = r then c + n else c
  | .received r' t | .declined r' t => if r' = r ∧ c ≠ 0 ∧ t.head.more = false then c - 1 else c
  | _ => c

/-- The credit left on receiver link `r`. -/
def creditLeft (r : Ref) (log : List Ev) : UInt32 := log.foldl (creditAfter r) 0

/-- The sum of the credit the application granted on receiver link `r`. -/
def grantedOn (r : Ref) (log : List Ev) : Nat := (log.map fun
  | .granted r' n => if r' = r then n.toNat else 0
  | _ => 0).sum

/-- How many deliveries receiver link `r` has accepted entirely. -/
def completedOn (r : Ref) (log : List Ev) : Nat := ((receivedOn r log).filter fun t => !t.head.more).length

end Amqp.Rt
