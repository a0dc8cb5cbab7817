import Verif.Model.Connection
/-!
# The dispatcher's control calls

`Dispatcher` keeps the calls of the control service that are not answered yet in a vector, `ctl_fut`, polls all of them
whenever it is polled, and acts on the answers (dispatcher.rs:51-58, 105-150, 299-376).  An entry about a frame of the peer
is the position of that frame in `todo` of its session.
-/

namespace Amqp.Rt

/-- What an answer concerns. -/
inductive Call where
  /-- An action of a session, at this position of its `todo`. -/
  | action (s : Ref) (i : Nat) (t : Todo)
  | protocolError (e : PErr)
  | disconnected
  /-- Nothing happens when it is answered (dispatcher.rs:318-320, 329-331, 369-374). -/
  | notice

/-- What the control service says: it may have changed the frame it was shown, and may have failed. -/
structure Answer where
  edit : Attach → Attach
  error : Option Error

structure Disp where
  conn : Conn
  /-- `ctl_fut`, each call with its number. -/
  futs : List (Nat × Call)
  /-- How many calls were made. -/
  calls : Nat
  /-- `ctl_error`. -/
  error : Option PErr
  /-- The calls whose answers have taken effect, in that order. -/
  answered : List Nat

/-- `Vec::swap_remove`: the last element takes the place of the one removed. -/
def swapRemove (l : List α) (i : Nat) : List α :=
  match l.getLast? with
  | some x => (l.set i x).dropLast
  | none => []

/-- The calls of the control service among some events. -/
def calledIn (log : List CEv) : List CtlFrame := log.filterMap fun
  | .called k => some k
  | _ => none

namespace Disp

/-- The entry for a call, the `n`-th a step makes; `c` is the connection before the step. -/
def callOf (c : Conn) (n : Nat) : CtlFrame → Call
  | .action s t => .action s ((match c.obj? s with | some x => x.todo.length | none => 0) + n) t
  | .protocolError e => .protocolError e
  | .disconnected => .disconnected
  | .queued _ _ | .closed => .notice

/-- The connection takes a step, and the calls it makes are remembered (dispatcher.rs:51-58, 113-117). -/
def advance (d : Disp) (st : CStep) : Disp :=
  let c := d.conn.step st
  let new := calledIn (c.log.drop d.conn.log.length)
  { d with conn := c, futs := d.futs ++ new.mapIdx (fun n k => (d.calls + n, callOf d.conn n k)), calls := d.calls + new.length }

/-- Positions after entry `i` of session `s` was removed. -/
def shift (s : Ref) (i : Nat) : Nat × Call → Nat × Call
  | (id, .action s' j t) => (id, .action s' (if s' = s ∧ i < j then j - 1 else j) t)
  | p => p

/-- The answer about entry `i` of session `s` takes effect. -/
def complete (d : Disp) (s : Ref) (i : Nat) (a : Answer) : Disp :=
  { d with futs := d.futs.map (shift s i) }.advance (.local s (.complete i a.edit a.error))

/-- `handle_control_frame` (dispatcher.rs:299-376). -/
def handle (d : Disp) (id : Nat) (k : Call) (a : Answer) : Disp :=
  let d := { d with answered := d.answered ++ [id] }
  match k with
  | .action s i _ => d.complete s i a
  | .protocolError e => { d.advance (.fail e) with error := some e }
  | .disconnected => d.advance (.fail .disconnected)
  | .notice => d

/-- The loop of `poll` (dispatcher.rs:119-137), from position `idx`; `ready` tells which calls are answered by now.  In each
round the distance to the end of the vector shrinks, so its length is enough fuel. -/
def pollFrom (ready : Nat → Option Answer) : Nat → Nat → Disp → Disp
  | 0, _, d => d
  | n + 1, idx, d =>
    match d.futs[idx]? with
    | none => d
    | some (id, k) =>
      match ready id with
      | none => pollFrom ready n (idx + 1) d
      | some a =>
        let d' := { d with futs := swapRemove d.futs idx }.handle id k a
        match k with
        | .protocolError _ => d'
        | _ => pollFrom ready n idx d'

/-- `poll` (dispatcher.rs:105-150) without the idle timer. -/
def poll (d : Disp) (ready : Nat → Option Answer) : Disp :=
  let d := d.advance .poll
  pollFrom ready d.futs.length 0 d

end Disp

inductive DStep where
  /-- A frame arrives. -/
  | recv (channel : UInt16) (f : Frame)
  /-- The application or one of its futures acts, or the transport stops. -/
  | own (st : CStep)
  /-- The publish service answers about a new receiver link: a task of its own (dispatcher.rs:339-353). -/
  | attached (s : Ref) (i : Nat) (a : Answer)
  | poll (ready : Nat → Option Answer)
  /-- `shutdown` (dispatcher.rs:152-166). -/
  | shutdown

/-- Steps of a connection that are neither the transport's nor the dispatcher's. -/
def CStep.outside : CStep → Bool
  | .recv _ _ | .poll | .fail _ | .local _ (.complete _ _ _) => false
  | _ => true

namespace Disp

def step (d : Disp) : DStep → Disp
  | .recv ch f => d.advance (.recv ch f)
  | .own st => if st.outside then d.advance st else d
  | .attached s i a =>
    match (d.conn.obj? s).bind (·.todo[i]?) with
    | some (.attached _ _) => d.complete s i a
    | _ => d
  | .poll ready => d.poll ready
  | .shutdown => d.advance (.fail .disconnected)

def run (d : Disp) (steps : List DStep) : Disp := steps.foldl step d

def new (cfg : ConnCfg) : Disp := ⟨Conn.new cfg, [], 0, none, []⟩

/-- A state some execution reaches. -/
def Reachable (d : Disp) : Prop := ∃ cfg steps, d = (new cfg).run steps

end Disp
end Amqp.Rt
