import Verif.Spec.Claims
import Verif.Spec.Frame
/-! The byte patterns that can make a decoder panic. -/

namespace Amqp

/-- The format codes of maps. -/
def isMapCode (b : UInt8) : Bool := b == 0xc1 || b == 0xd1

/-- The input contains somewhere
* the header of an 8-bit list, map or array announcing a size of 0 (it has to be at least 1 for the count), or
* the header of a 32-bit list, map or array announcing a size below 4 (it has to be at least 4 for the count), or
* the codes of two maps (a map used inside the key of another). -/
def Hazard (s : Bytes) : Prop :=
  (∃ c ∈ ([0xc0, 0xc1, 0xe0] : Bytes), [c, 0] <:+: s) ∨
  (∃ c ∈ ([0xd0, 0xd1, 0xf0] : Bytes), ∃ b : UInt8, b < 4 ∧ [c, 0, 0, 0, b] <:+: s) ∨
  2 ≤ s.countP isMapCode

/-- A decoder panics only on hazardous input. -/
def PanicsOnlyOnHazard (d : Dec α) : Prop := ∀ s : Bytes, d s = .error .panic → Hazard s

end Amqp
