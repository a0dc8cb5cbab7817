import Verif.Model.Net
/-!
# Two connections: what is meant by an undisturbed exchange and by sessions joined to each other
-/

namespace Amqp.Rt

def _root_.Amqp.Frame.isBegin : Frame → Bool
  | .begin_ _ => true
  | _ => false

/-- No connection has failed, no session has been ended, and neither side has begun more sessions than there are channels. -/
structure Net.Undisturbed (σ : Net) : Prop where
  leftError : σ.left.error = none
  rightError : σ.right.error = none
  leftEnd : ∀ ch e, (ch, Frame.end_ e) ∉ σ.left.wire
  rightEnd : ∀ ch e, (ch, Frame.end_ e) ∉ σ.right.wire
  leftFew : (σ.left.wire.filter fun p => p.2.isBegin).length ≤ 65536
  rightFew : (σ.right.wire.filter fun p => p.2.isBegin).length ≤ 65536

/-- Each session addresses the other: its remote channel is the channel the other posts on. -/
def Joined (x y : Session) : Prop := x.remoteChannelId = UInt16.ofNat y.id ∧ y.remoteChannelId = UInt16.ofNat x.id

/-- How many of the first `n` frames of a connection are frames of the session on channel `ch`. -/
def framesOn (c : Conn) (n : Nat) (ch : UInt16) : Nat :=
  ((c.wire.take n).filter fun p => decide (p.1 = ch) && match p.2 with
    | .begin_ _ | .close _ | .empty => false
    | _ => true).length

end Amqp.Rt
