import Verif.Model.Io
import Verif.Model.Net
/-!
# Two connections of the library connected by bytes

The frames of a connection are written one after the other into its output buffer (`AmqpCodec::encode`, io.rs:109-120); the
transport carries any number of the bytes at a time, and the other side keeps them in a buffer from which the dispatcher
reads a frame at a time (`AmqpCodec::decode`, io.rs:62-102).  What cannot be read reaches the dispatcher as the reason to stop
(dispatcher.rs:264-269), after which nothing more is read.

The bytes before the first frame, protocol header and Open, belong to the handshake (`Model/Handshake.lean`).
-/

namespace Amqp.Rt

/-- The frames of a connection, as the codec is given them. -/
def Conn.out (c : Conn) : List AmqpFrame := c.wire.map fun p => ⟨p.1, p.2⟩

/-- The bytes of a connection. -/
def Conn.bytes (c : Conn) : Bytes := c.out.foldl (fun dst f => codecEncode AmqpFrame.encode f dst) []

/-- The reading side of a connection: the state of the codec, what it has not yet taken, the codec's limit, and the error
that ended the reading, if any. -/
structure Reader where
  max : Nat
  state : DecodeState := .frameHeader
  buf : Bytes := []
  failed : Option CodecError := none

structure BNet where
  left : Conn
  right : Conn
  /-- How many bytes of the left connection the transport has carried over. -/
  toRight : Nat
  /-- How many bytes of the right connection the transport has carried over. -/
  toLeft : Nat
  /-- Where the right connection reads. -/
  atRight : Reader
  /-- Where the left connection reads. -/
  atLeft : Reader

inductive BStep where
  /-- Anything but reading happens on the left. -/
  | left (st : CStep)
  | right (st : CStep)
  /-- The transport carries up to `n` more bytes to the right. -/
  | carryRight (n : Nat)
  | carryLeft (n : Nat)
  /-- The right connection asks its codec for a frame. -/
  | readRight
  | readLeft

/-- Some more bytes for the reader. -/
def Reader.fill (r : Reader) (more : Bytes) : Reader := { r with buf := r.buf ++ more }

/-- One call of the codec and what the dispatcher does with the result: a frame is handled by the connection; with an error
the reading ends and the control service is told. -/
def Reader.read (r : Reader) (c : Conn) : Reader × Conn :=
  match r.failed with
  | some _ => (r, c)
  | none =>
    match codecDecode AmqpFrame.decode r.max r.state r.buf with
    | (.pending, st, buf) => ({ r with state := st, buf := buf }, c)
    | (.ready f, st, buf) => ({ r with state := st, buf := buf }, c.step (.recv f.channel f.performative))
    | (.error e, st, buf) => ({ r with state := st, buf := buf, failed := some e }, c.step (.stop (some (.codec e))))

namespace BNet

def step (β : BNet) : BStep → BNet
  | .left st => if st.own then { β with left := β.left.step st } else β
  | .right st => if st.own then { β with right := β.right.step st } else β
  | .carryRight n =>
    let more := (β.left.bytes.drop β.toRight).take n
    { β with toRight := β.toRight + more.length, atRight := β.atRight.fill more }
  | .carryLeft n =>
    let more := (β.right.bytes.drop β.toLeft).take n
    { β with toLeft := β.toLeft + more.length, atLeft := β.atLeft.fill more }
  | .readRight =>
    let r := β.atRight.read β.right
    { β with atRight := r.1, right := r.2 }
  | .readLeft =>
    let r := β.atLeft.read β.left
    { β with atLeft := r.1, left := r.2 }

def run (β : BNet) (steps : List BStep) : BNet := steps.foldl step β

/-- Two new connections, with nothing on the way. -/
def Fresh (β : BNet) : Prop :=
  ∃ cfg cfg' max max', β = ⟨Conn.new cfg, Conn.new cfg', 0, 0, { max }, { max := max' }⟩

end BNet
end Amqp.Rt
