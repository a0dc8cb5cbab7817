import Verif.Spec.Session
import Verif.Model.Pair
/-!
# What the theorems about the window between two sessions speak about
-/

namespace Amqp.Rt

/-- A session that has done nothing, begun by a `Begin` frame of this library (connection.rs:269-278, 596-605): the first
transfer will be number 1 and the incoming window is the largest there is. -/
def Session.FromLibrary (s : Session) : Prop :=
  ∃ id isLocal mfs ch b, s = Session.new id isLocal mfs ch b ∧ b.nextOutgoingId = 1 ∧ b.incomingWindow = 0xffffffff

/-- Two sessions of the library, nothing has happened yet. -/
structure Pair.FromLibrary (σ : Pair) : Prop where
  left : σ.left.FromLibrary
  right : σ.right.FromLibrary
  toRight : σ.toRight = 0
  toLeft : σ.toLeft = 0

/-- `d` deliveries had begun when the session posted one of its flow frames, or `d` is 0. -/
def StatedCount (log : List Ev) (d : Nat) : Prop :=
  d = 0 ∨ ∃ pre f post, log = pre ++ .frame (.flow f) :: post ∧ d = begun pre

end Amqp.Rt
