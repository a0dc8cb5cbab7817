import Verif.Model.Dispatcher
/-!
# When the dispatcher is polled

The dispatcher is polled by the task that runs it, and that task sleeps until something wakes it.  Executions of `Disp` poll
it at any time; here it is recorded who has the waker of the task.  `poll` leaves it with the control queue
(dispatcher.rs:108) and with each call of the control service it finds unanswered (dispatcher.rs:122).  A new call
(dispatcher.rs:54) and a frame put into the control queue (control.rs:83-87) take it from the queue, and a call that is
answered uses the one it has.  `ctl_error_waker` (dispatcher.rs:137) never has one: nothing registers it.
-/

namespace Amqp.Rt

structure Tended where
  disp : Disp
  /-- The task is to be polled. -/
  woken : Bool
  /-- `queue.waker` has the waker of the task. -/
  armed : Bool
  /-- The calls that have it. -/
  polled : Nat → Bool
  /-- The answers that were given. -/
  answers : Nat → Option Answer

inductive TStep where
  /-- Anything but a poll. -/
  | disp (st : DStep)
  /-- The control service answers a call. -/
  | answer (id : Nat) (a : Answer)
  | poll

/-- The calls `Disp.pollFrom` finds unanswered. -/
def Disp.pendingFrom (ready : Nat → Option Answer) : Nat → Nat → Disp → List Nat
  | 0, _, _ => []
  | n + 1, idx, d =>
    match d.futs[idx]? with
    | none => []
    | some (id, k) =>
      match ready id with
      | none => id :: pendingFrom ready n (idx + 1) d
      | some a =>
        let d' := { d with futs := swapRemove d.futs idx }.handle id k a
        match k with
        | .protocolError _ => []
        | _ => pendingFrom ready n idx d'

namespace Tended

/-- `LocalWaker::wake` of the queue: the waker is used up. -/
def wake (t : Tended) : Tended := if t.armed then { t with woken := true, armed := false } else t

/-- A step of the dispatcher, which wakes the task for each new call and each frame put into the queue. -/
def act (t : Tended) (st : DStep) : Tended :=
  let d := t.disp.step st
  if t.disp.calls < d.calls ∨ t.disp.conn.queue.length < d.conn.queue.length then { t with disp := d }.wake
  else { t with disp := d }

/-- A call is answered, once; its future wakes the task that polled it. -/
def answer (t : Tended) (id : Nat) (a : Answer) : Tended :=
  if id < t.disp.calls ∧ (t.answers id).isNone then
    { t with answers := fun i => if i = id then some a else t.answers i
             polled := fun i => if i = id then false else t.polled i
             woken := t.woken || t.polled id }
  else t

/-- The task runs.  The queue is emptied before the loop, so what is in it afterwards was put there by the loop. -/
def poll (t : Tended) : Tended :=
  let d₀ := t.disp.advance .poll
  let pending := d₀.pendingFrom t.answers d₀.futs.length 0
  let t' := { t with disp := t.disp.step (.poll t.answers), woken := false, armed := true
                     polled := fun i => t.polled i || decide (i ∈ pending) }
  if t'.disp.conn.queue = [] then t' else t'.wake

def step (t : Tended) : TStep → Tended
  | .disp (.poll _) => t
  | .disp st => t.act st
  | .answer id a => t.answer id a
  | .poll => t.poll

def run (t : Tended) (steps : List TStep) : Tended := steps.foldl step t

/-- A new dispatcher: its task is about to run for the first time. -/
def new (cfg : ConnCfg) : Tended := ⟨Disp.new cfg, true, false, fun _ => false, fun _ => none⟩

def Reachable (t : Tended) : Prop := ∃ cfg steps, t = (new cfg).run steps

end Tended
end Amqp.Rt
