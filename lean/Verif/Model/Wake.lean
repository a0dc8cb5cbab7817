import Verif.Model.SessionStep
/-!
# Tasks that wait for messages

A task that calls `ReceiverLink::recv` and finds nothing leaves its waker with the link and sleeps until the link wakes it
(rcvlink.rs:30, 249-251).  Executions elsewhere in the model poll any future at any time; here a sleeping task is polled
again only after it was woken.  The session is the one of `Model/Session.lean`; `wakes` lists where the code calls `wake`.
-/

namespace Amqp.Rt
namespace Session

/-- Whether `handle_transfer` wakes the reader: a message is complete and is the only one in the queue
(rcvlink.rs:364-366, 435-437), or the link is closed (rcvlink.rs:281). -/
def transferWakes (s : Session) (l : Rcv) (t : Transfer) : Bool :=
  if l.credit = 0 then true
  else match l.partialBody with
    | some body =>
      if t.head.deliveryId.isSome ∧ s.backId l ≠ t.head.deliveryId then true
      else if t.body.isSome ∧ body.length + optSum TransferBody.esize t.body > l.maxMessageSize.toNat then true
      else if t.head.more then false
      else if l.queue ≠ [] then decide (l.queue.length = 1)
      else true
    | none =>
      match t.head.deliveryId with
      | some _ => if t.head.more then false else decide (l.queue.length + 1 = 1)
      | none => true

/-- The receivers `set_error` calls `remote_detached` on (session.rs:370-372). -/
def establishedReceivers (s : Session) : List Ref :=
  s.links.values.filterMap fun
    | .rcv (.established r) => some r
    | _ => none

/-- The slot `handle_detach` is about (session.rs:943-952). -/
def detachSlot (s : Session) (f : Detach) : Option Nat :=
  match s.remoteHandles.get f.handle with
  | some idx => some idx
  | none => if s.links.contains f.handle.toNat then some f.handle.toNat else none

/-- The links whose reader a step wakes.  `remote_detached` (rcvlink.rs:170) and `close` (rcvlink.rs:281) wake it, and so
does `handle_transfer`; dropping an established link (rcvlink.rs:471-475) and `detached` (rcvlink.rs:261-265) do not. -/
def wakes (s : Session) : Step → List Ref
  | .peer (.transfer t) =>
    if s.error.isSome then [] else
    match (s.remoteHandles.get t.head.handle).bind s.links.get with
    | some (.rcv (.established r)) =>
      match s.rcv? r with
      | some l => if s.transferWakes l t then [r] else []
      | none => []
    | _ => []
  | .peer (.detach f) =>
    if s.error.isSome then [] else
    match (s.detachSlot f).bind s.links.get with
    | some (.rcv (.established r)) => [r]
    | _ => []
  | .peer (.end_ _) | .endConfirmed _ => if s.error.isSome then [] else s.establishedReceivers
  | .fail _ => s.establishedReceivers
  | .closeReceiver r _ => [r]
  | .complete i _ (some _) =>
    match s.todo[i]? with
    | some (.ctl (.attachReceiver r _ _)) | some (.attached r _) | some (.ctl (.detachReceiver r _)) => [r]
    | _ => []
  | _ => []

/-- What `poll_recv` returned `Pending`. -/
def recvPending (s : Session) (r : Ref) : Bool :=
  match (s.pollRecv r).2 with
  | .pending => true
  | _ => false

end Session

/-- A session and the tasks that read from its links. -/
structure Readers where
  sess : Session
  /-- `reader_task` of each link: the task that polled it last, unless woken since. -/
  waker : Ref → Option Nat
  /-- The tasks that were told `Pending` and not woken since. -/
  asleep : List (Ref × Nat)

namespace Readers

def new (s : Session) : Readers := ⟨s, fun _ => none, []⟩

/-- One step of the session; if it is a `recv`, it is made by `task`. -/
def step (w : Readers) (task : Nat) (st : Step) : Readers :=
  let woken := w.sess.wakes st
  let waker := fun r => if r ∈ woken then none else w.waker r
  let asleep := w.asleep.filter fun x => !(decide (x.1 ∈ woken) && decide (w.waker x.1 = some x.2))
  match st with
  | .recv r =>
    if w.sess.recvPending r then
      ⟨w.sess.step st, fun r' => if r' = r then some task else waker r', (r, task) :: asleep⟩
    else ⟨w.sess.step st, waker, asleep.filter fun x => decide (x ≠ (r, task))⟩
  | st => ⟨w.sess.step st, waker, asleep⟩

def run (w : Readers) (steps : List (Nat × Step)) : Readers := steps.foldl (fun w x => w.step x.1 x.2) w

end Readers
end Amqp.Rt
