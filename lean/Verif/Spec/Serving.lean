import Verif.Spec.Accepting
import Verif.Spec.Receiving
import Verif.Model.Router
/-!
# When the router can be expected to serve a link
-/

namespace Amqp.Rt

/-- Nothing gets in the way of the router by this step: the connection is open, the application does not take messages
from link `r` itself nor disturbs links being attached, handler services are ready for messages, and no call is dropped. -/
def Router.Orderly (σ : Router) (r : Ref) : RStep → Prop
  | .sess st opened => opened = true ∧ st ≠ .take r ∧ st ≠ .recv r ∧ ¬ σ.sess.Disturbs st
  | .readied _ e => e = none
  | .cancelled _ => False
  | _ => True

/-- An execution of such steps, with fewer than 2^32 slots. -/
def Router.OrderlyRun (σ₀ : Router) (r : Ref) (steps : List RStep) : Prop :=
  ∀ pre st post, steps = pre ++ st :: post →
    (σ₀.run pre).Orderly r st ∧ ∀ k x, ((σ₀.run pre).step st).sess.links.get k = some x → k < 2 ^ 32

/-- No grant overflows the credit of link `r`. -/
def CreditFits (r : Ref) (log : List Ev) : Prop :=
  ∀ pre n post, log = pre ++ .granted r n :: post → (creditLeft r pre).toNat + n.toNat < 2 ^ 32

/-- The router has nothing more to do for link `r`. -/
def Router.IdleFor (σ : Router) (r : Ref) : Prop := ∀ c ∈ σ.calls,
  c ≠ .transfer r ∧ (∀ srv d t att, c ≠ .readying r srv d t att) ∧ ∀ srv d t att, c ≠ .serving r srv d t att

end Amqp.Rt
