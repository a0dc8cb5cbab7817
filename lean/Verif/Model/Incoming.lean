import Verif.Model.EndToEnd
/-!
# The task of a server for one connection

`ServerHandler::create` (server/service.rs:163-194): the handshake under its timeout, then the application's publish service
is made, then its control service, then the dispatcher runs.  How long the application takes to make a service and whether it
succeeds is left open.  From the end of the handshake on the connection exists, and the application has it
(`HandshakeAmqpOpened::sink`, handshake.rs:130-133), but only the dispatcher reads from it.
-/

namespace Amqp.Rt

/-- `ServerError` (server/error.rs:8-30) without the errors of a running dispatcher. -/
inductive TaskError where
  | handshake (e : Hs.Err)
  | publish
  | control

inductive Task where
  | shaking
  /-- `inner.publish.pipeline(st).await` -/
  | publish
  /-- `inner.control.pipeline(st).await` -/
  | control
  | serving
  /-- `create` has returned the error and dropped the transport. -/
  | failed (e : TaskError)

/-- What the task does to the application and to the transport. -/
inductive TEv where
  | publishAsked
  | publishMade
  | publishFailed
  | controlAsked
  | controlMade
  | controlFailed
  | started
  | dropped
deriving DecidableEq

structure Incoming where
  conn : End
  task : Task
  log : List TEv

inductive IStep where
  /-- Bytes arrive. -/
  | bytes (b : Bytes)
  /-- `handshake_timeout` has passed. -/
  | timer
  /-- The application's publish factory has an answer. -/
  | publish (made : Bool)
  /-- The application's control factory has an answer. -/
  | control (made : Bool)
  /-- The application uses the connection. -/
  | own (st : CStep)
  /-- The dispatcher asks the codec for a frame. -/
  | read

namespace Incoming

/-- What follows the handshake as soon as it has a result (service.rs:167-175): its error is returned, or the publish
factory is called. -/
def settle (a : Incoming) : Incoming :=
  match a.task, a.conn.shake.prog with
  | .shaking, .done (.ok _) => { a with task := .publish, log := a.log ++ [.publishAsked] }
  | .shaking, .done (.error e) => { a with task := .failed (.handshake e), log := a.log ++ [.dropped] }
  | _, _ => a

def start (p : Hs.Prog Hs.Opened) : Incoming := settle ⟨.start p, .shaking, []⟩

def step (a : Incoming) (st : IStep) : Incoming :=
  match a.task, st with
  | .failed _, _ => a
  | _, .bytes b => settle { a with conn := a.conn.take b }
  | .shaking, .timer => settle { a with conn := a.conn.quit }
  | .publish, .publish true => { a with task := .control, log := a.log ++ [.publishMade, .controlAsked] }
  | .publish, .publish false => { a with task := .failed .publish, log := a.log ++ [.publishFailed, .dropped] }
  | .control, .control true => { a with task := .serving, log := a.log ++ [.controlMade, .started] }
  | .control, .control false => { a with task := .failed .control, log := a.log ++ [.controlFailed, .dropped] }
  | _, .own st => { a with conn := a.conn.own st }
  | .serving, .read => { a with conn := a.conn.read }
  | _, _ => a

def run (a : Incoming) (steps : List IStep) : Incoming := steps.foldl step a

end Incoming

/-- A client and a server whose end is run by such a task. -/
structure Visit where
  client : End
  server : Incoming
  toServer : Nat
  toClient : Nat

inductive VStep where
  | client (st : CStep)
  | clientReads
  | clientQuits
  | carryToServer (n : Nat)
  | carryToClient (n : Nat)
  /-- Anything but the arrival of bytes. -/
  | server (st : IStep)

namespace Visit

def start (p q : Hs.Prog Hs.Opened) : Visit := ⟨.start p, .start q, 0, 0⟩

def step (v : Visit) : VStep → Visit
  | .client st => { v with client := v.client.own st }
  | .clientReads => { v with client := v.client.read }
  | .clientQuits => { v with client := v.client.quit }
  | .carryToServer n =>
    let more := (v.client.bytes.drop v.toServer).take n
    { v with toServer := v.toServer + more.length, server := v.server.step (.bytes more) }
  | .carryToClient n =>
    let more := (v.server.conn.bytes.drop v.toClient).take n
    { v with toClient := v.toClient + more.length, client := v.client.take more }
  | .server (.bytes _) => v
  | .server st => { v with server := v.server.step st }

def run (v : Visit) (steps : List VStep) : Visit := steps.foldl step v

end Visit
end Amqp.Rt
