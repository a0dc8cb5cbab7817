import Verif.Model.SessionStep
/-!
# When a receiver link the peer attaches may be used

The control service is asked about the link first, then the publish service; when both have accepted it, it is
established.
-/

namespace Amqp.Rt

/-- The slot is that of receiver link `r`, which the peer attached and the services have not both answered for. -/
def Link.Opening (x : Link) (r : Ref) : Prop := ∃ src, x = .rcv (.opening (some (r, src)))

/-- The call in flight is about attaching receiver link `r`. -/
def Todo.asksAbout (r : Ref) : Todo → Bool
  | .ctl (.attachReceiver r' _ _) | .attached r' _ => r' == r
  | _ => false

/-- The services have not both answered for receiver link `r` yet. -/
def Session.Asking (s : Session) (r : Ref) : Prop := ∃ t ∈ s.todo, t.asksAbout r = true

/-- The control service accepts receiver link `r` by this step. -/
def Session.ControlAccepts (s : Session) (r : Ref) (st : Step) : Prop :=
  ∃ i edit a g, st = .complete i edit none ∧ s.todo[i]? = some (.ctl (.attachReceiver r a g))

/-- The publish service accepts receiver link `r` by this step. -/
def Session.PublishAccepts (s : Session) (r : Ref) (st : Step) : Prop :=
  ∃ i edit g, st = .complete i edit none ∧ s.todo[i]? = some (.attached r g)

/-- The peer answers the attach of receiver link `r`, which this side made. -/
def Session.PeerAnswers (s : Session) (r : Ref) (st : Step) : Prop :=
  ∃ a k op, st = .peer (.attach a) ∧ s.links.get k = some (.rcv (.openingLocal (some (r, op))))

/-- The step of the execution `steps` from `s₀` at which `P` holds. -/
def At (s₀ : Session) (steps : List Step) (P : Session → Step → Prop) : Prop :=
  ∃ pre st post, steps = pre ++ st :: post ∧ P (s₀.run pre) st

/-- The step takes the slot of a receiver link that is being attached away from it: the application closes or detaches
that link, or another one that had the slot before; or the control service answers for a sender link that had it before. -/
def Session.Disturbs (s : Session) (st : Step) : Prop :=
  ∃ k x r', s.links.get k = some x ∧ x.Opening r' ∧
    match st with
    | .detachReceiver h _ => h.toNat = k
    | .closeReceiver r _ => ∃ l, s.rcv? r = some l ∧ l.closed = false ∧ l.handle.toNat = k
    | .complete i _ _ => ∃ r a g l, s.todo[i]? = some (.ctl (.attachSender r a g)) ∧ s.snd? r = some l ∧ l.id = k
    | _ => False

/-- An execution without such steps and with fewer than 2^32 slots. -/
def Undisturbed (s₀ : Session) (steps : List Step) : Prop :=
  ∀ pre st post, steps = pre ++ st :: post →
    ¬ (s₀.run pre).Disturbs st ∧ ∀ k x, ((s₀.run pre).step st).links.get k = some x → k < 2 ^ 32

end Amqp.Rt
