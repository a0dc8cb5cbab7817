import Verif.Model.Dispatcher
/-!
# The dispatcher as a service

`Dispatcher` is a service the `ntex` framework drives: `ready` is asked before each item, `call` gets the item, and when one
of them returns an error the framework neither asks nor polls it again, and shuts it down (dispatcher.rs:57-292).
-/

namespace Amqp.Rt

/-- What a service says when asked whether it is ready. -/
inductive Readiness where
  | ready
  | pending
  | failed (e : Error)

/-- Why the dispatcher stopped. -/
inductive Stopped where
  /-- `ready` found `ctl_error` (dispatcher.rs:68-72). -/
  | control (e : PErr)
  /-- One of the application's services failed its readiness check (dispatcher.rs:75-95). -/
  | service (e : Error)
  /-- `call` returned the error of `handle_frame` (dispatcher.rs:177-184). -/
  | refused (e : PErr)

structure Serve where
  disp : Disp
  stopped : Option Stopped

inductive SStep where
  /-- `ready`, with what the publish and the control service say. -/
  | ready (publish control : Readiness)
  /-- A step of the dispatcher: a frame is a `call`. -/
  | disp (st : DStep)

/-- The error with which a frame was refused, by the connection or by a session. -/
def refusedIn (log : List CEv) : Option PErr := log.findSome? fun
  | .refused e | .ses _ (.refused e) => some e
  | _ => none

namespace Serve

/-- `ready` (dispatcher.rs:66-103).  `ctl_error` is taken there; it is left here, as nothing looks at it after the
dispatcher has stopped. -/
def ready (σ : Serve) (publish control : Readiness) : Serve :=
  match σ.disp.error with
  | some e => { disp := σ.disp.advance (.close none), stopped := some (.control e) }
  | none =>
    match publish with
    | .failed e => { disp := σ.disp.advance (.close (some e)), stopped := some (.service e) }
    | _ =>
      match control with
      | .failed e => { disp := σ.disp.advance (.close (some e)), stopped := some (.service e) }
      | _ => σ

/-- `call` with a frame (dispatcher.rs:167-256). -/
def call (σ : Serve) (ch : UInt16) (f : Frame) : Serve :=
  let d := σ.disp.step (.recv ch f)
  { disp := d, stopped := (refusedIn (d.conn.log.drop σ.disp.conn.log.length)).map .refused }

def step (σ : Serve) : SStep → Serve
  | .ready p c => if σ.stopped.isSome then σ else σ.ready p c
  | .disp (.recv ch f) => if σ.stopped.isSome then σ else σ.call ch f
  | .disp (.poll r) => if σ.stopped.isSome then σ else { σ with disp := σ.disp.step (.poll r) }
  | .disp st => { σ with disp := σ.disp.step st }

def run (σ : Serve) (steps : List SStep) : Serve := steps.foldl step σ

def new (cfg : ConnCfg) : Serve := ⟨Disp.new cfg, none⟩

end Serve
end Amqp.Rt
