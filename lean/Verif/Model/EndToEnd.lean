import Verif.Model.Handshake
import Verif.Model.Stream
/-!
# A client and a server from the first byte on

Each end begins with its handshake; when that has succeeded the connection it made runs on the same transport, with the bytes
the handshake has not used (server/service.rs:160-196; client/connector.rs:162-293, client/connection.rs:60-100).
The transport between them carries the bytes each end has sent, in pieces of any size.
-/

namespace Amqp.Rt

structure End where
  shake : Hs.Run Hs.Opened
  /-- The connection and where it reads, once the handshake has succeeded. -/
  up : Option (Conn × Reader)

namespace End

/-- The handshake may have succeeded: the connection takes over what is left in the read buffer.  The codec of a
server is new (service.rs:302); that of a client is the one that has just read a whole frame (connector.rs:262-293). -/
def settle (e : End) : End :=
  match e.up, e.shake.prog with
  | none, .done (.ok o) => { e with up := some (o.conn, { max := o.codecMax, buf := e.shake.buf }) }
  | _, _ => e

def start (p : Hs.Prog Hs.Opened) : End := settle ⟨.start p, none⟩

/-- All bytes the end has sent. -/
def bytes (e : End) : Bytes :=
  e.shake.sent.flatMap Hs.Item.encode ++ match e.up with
    | some (c, _) => c.bytes
    | none => []

/-- Bytes arrive. -/
def take (e : End) (more : Bytes) : End :=
  match e.up with
  | some (c, r) => { e with up := some (c, r.fill more) }
  | none => settle { e with shake := e.shake.step (.bytes more) }

/-- The connection, if there is one already, takes a step of its own. -/
def own (e : End) (st : CStep) : End :=
  match e.up with
  | some (c, r) => if st.own then { e with up := some (c.step st, r) } else e
  | none => e

/-- The dispatcher asks the codec for a frame. -/
def read (e : End) : End :=
  match e.up with
  | some (c, r) => { e with up := some ((r.read c).2, (r.read c).1) }
  | none => e

/-- The handshake gives up: its time is over (service.rs:166-169, connector.rs:104-123). -/
def quit (e : End) : End :=
  match e.up with
  | some _ => e
  | none => { e with shake := e.shake.step .timeout }

end End

structure Duplex where
  client : End
  server : End
  /-- How many bytes of the client the transport has carried over. -/
  toServer : Nat
  /-- How many bytes of the server the transport has carried over. -/
  toClient : Nat

inductive XStep where
  | client (st : CStep)
  | server (st : CStep)
  | carryToServer (n : Nat)
  | carryToClient (n : Nat)
  | serverReads
  | clientReads
  | serverQuits
  | clientQuits

namespace Duplex

def start (p q : Hs.Prog Hs.Opened) : Duplex := ⟨.start p, .start q, 0, 0⟩

def step (φ : Duplex) : XStep → Duplex
  | .client st => { φ with client := φ.client.own st }
  | .server st => { φ with server := φ.server.own st }
  | .carryToServer n =>
    let more := (φ.client.bytes.drop φ.toServer).take n
    { φ with toServer := φ.toServer + more.length, server := φ.server.take more }
  | .carryToClient n =>
    let more := (φ.server.bytes.drop φ.toClient).take n
    { φ with toClient := φ.toClient + more.length, client := φ.client.take more }
  | .serverReads => { φ with server := φ.server.read }
  | .clientReads => { φ with client := φ.client.read }
  | .serverQuits => { φ with server := φ.server.quit }
  | .clientQuits => { φ with client := φ.client.quit }

def run (φ : Duplex) (steps : List XStep) : Duplex := steps.foldl step φ

end Duplex
end Amqp.Rt
