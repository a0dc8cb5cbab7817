import Verif.Spec.Message
import Verif.Model.Io
/-! What the frame and stream properties talk about. -/

namespace Amqp

/-- The payload bytes of a transfer. -/
def Transfer.payload (t : Transfer) : Bytes :=
  match t.body with
  | none => []
  | some b => b.tenc

/-- What the receiver of a transfer sees: the same fields and the payload as plain bytes (no payload if it is empty). -/
def Transfer.asReceived (t : Transfer) : Transfer :=
  { t with body := if t.payload = [] then none else some (.data t.payload) }

def Frame.asReceived : Frame → Frame
  | .transfer t => .transfer t.asReceived
  | f => f

def AmqpFrame.asReceived (f : AmqpFrame) : AmqpFrame := { f with performative := f.performative.asReceived }

instance : WF Transfer := ⟨fun t => wf t.head ∧ ∀ b, t.body = some b → b.coherent⟩

instance : WF Frame := ⟨fun f => match f with
  | .open_ v => wf v
  | .begin_ v => wf v
  | .attach v => wf v
  | .flow v => wf v
  | .transfer v => wf v
  | .disposition v => wf v
  | .detach v => wf v
  | .end_ v => wf v
  | .close v => wf v
  | .empty => True⟩

/-- A frame whose parts are well formed and whose length fits the 32-bit length prefix. -/
instance : WF AmqpFrame := ⟨fun f => wf f.performative ∧ f.performative.encode.length + 8 < U32⟩

instance : WF SaslFrame := ⟨fun f => wf f.body ∧ (enc f.body).length + 8 < U32⟩

/-- The size limit `max` (0: none) admits frames of `n` bytes. -/
def admits (max n : Nat) : Prop := max = 0 ∨ n ≤ max

/-- `raw` is one complete frame of the stream: its first four bytes are its length, which is more than 4 and within
the limit. -/
def RawFrame (max : Nat) (raw : Bytes) : Prop :=
  4 < raw.length ∧ beNat (raw.take 4) = raw.length ∧ admits max raw.length

/-- What follows the last complete frame when the reader wants more bytes: fewer than 8 of them, or the beginning of
an admissible frame. -/
def Awaiting (max : Nat) (rest : Bytes) : Prop :=
  rest.length < 8 ∨ (rest.length < beNat (rest.take 4) ∧ admits max (beNat (rest.take 4)))

/-- What follows the last good frame when the reader stops with an error. -/
def Refused (decode : Bytes → Except Err (α × Bytes)) (max : Nat) (rest : Bytes) : CodecError → Prop
  | .maxSizeExceeded => 8 ≤ rest.length ∧ max ≠ 0 ∧ max < beNat (rest.take 4)
  | .invalidFrameSize => 8 ≤ rest.length ∧ beNat (rest.take 4) ≤ 4
  | .parse e => ∃ raw tl, rest = raw ++ tl ∧ RawFrame max raw ∧ 8 ≤ rest.length ∧ decode (raw.drop 4) = .error e
  | .unparsedBytesLeft => ∃ raw tl a left, rest = raw ++ tl ∧ RawFrame max raw ∧ 8 ≤ rest.length ∧
      decode (raw.drop 4) = .ok (a, left) ∧ left ≠ []

/-- What follows the last good frame, given how reading ended. -/
def Ending (decode : Bytes → Except Err (α × Bytes)) (max : Nat) (rest : Bytes) : Option CodecError → Prop
  | none => Awaiting max rest
  | some e => Refused decode max rest e

end Amqp
