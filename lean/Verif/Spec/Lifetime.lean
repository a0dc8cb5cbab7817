import Verif.Model.SessionStep
/-!
# When a link is attached

AMQP 1.0 §2.6.1: a handle names a link from the attach frame that this side sends until the detach frame that this side sends.
-/

namespace Amqp.Rt

/-- This side has attached a link under the handle and has not detached it since. -/
def AttachedHere (h : UInt32) (log : List Ev) : Prop :=
  ∃ l₁ a l₂, log = l₁ ++ .frame (.attach a) :: l₂ ∧ a.handle = h ∧ ∀ d : Detach, .frame (.detach d) ∈ l₂ → d.handle ≠ h

/-- The handles of the session fit in the 32 bits that the wire has for them. -/
structure Session.Fits (s : Session) : Prop where
  slots : ∀ k x, s.links.get k = some x → k < 2 ^ 32
  ids : ∀ r l, s.snd? r = some l → l.id < 2 ^ 32

/-- A service that accepts a link leaves the handle of the answer alone. -/
def Step.KeepsHandle : Step → Prop
  | .complete _ edit _ => ∀ a, (edit a).handle = a.handle
  | _ => True

end Amqp.Rt
