import Verif.Model.Stream
import Verif.Spec.Posted
/-! What is asked of two connections connected by bytes. -/

namespace Amqp.Rt

/-- The frames a connection has posted can be read by a codec with this limit: the messages have honest sizes, the peer has
not forbidden frames altogether, and no frame is longer than the codec accepts. -/
structure Conn.Legible (c : Conn) (max : Nat) : Prop where
  honest : c.Honest
  some : c.maxFrameSize ≠ 0
  short : ∀ f ∈ c.out, max = 0 ∨ f.encode.length ≤ max

/-- Both connections can be read by the other's codec. -/
def BNet.Legible (β : BNet) : Prop := β.left.Legible β.atRight.max ∧ β.right.Legible β.atLeft.max

/-- The two connections, with no frame arrived yet. -/
def BNet.frames (β : BNet) : Net := ⟨β.left, β.right, 0, 0⟩

/-- All bytes have been carried over, and neither codec has another frame. -/
structure BNet.Drained (β : BNet) : Prop where
  toRight : β.toRight = β.left.bytes.length
  toLeft : β.toLeft = β.right.bytes.length
  atRight : (codecDecode AmqpFrame.decode β.atRight.max β.atRight.state β.atRight.buf).1 = .pending
  atLeft : (codecDecode AmqpFrame.decode β.atLeft.max β.atLeft.state β.atLeft.buf).1 = .pending

/-- What the two applications put in is `Fit`. -/
def BStep.Fit : BStep → Prop
  | .left st | .right st => st.Fit
  | _ => True

end Amqp.Rt
