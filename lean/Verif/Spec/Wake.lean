import Verif.Model.Wake
/-!
# Spec: sleeping readers
-/

namespace Amqp.Rt

/-- There is something for the reader of a link: a complete message, or the news that the link is closed. -/
def Rcv.Readable (l : Rcv) : Prop := l.closed = true ∨ (l.queue ≠ [] ∧ ¬ (l.partialBody.isSome ∧ l.queue.length = 1))

/-- No link is read by two tasks. -/
def OneReader (steps : List (Nat × Step)) : Prop :=
  ∀ k k' r, (k, Step.recv r) ∈ steps → (k', Step.recv r) ∈ steps → k = k'

/-- The step takes the established receiver link `r` out of the table without being about that link: the application
detaches it by its handle (`Session::detach_receiver_link`), or a late answer about another link hits its slot. -/
def Session.Orphans (s : Session) (st : Step) (r : Ref) : Prop :=
  ∃ k, s.links.get k = some (.rcv (.established r)) ∧
    ((∃ h e, st = .detachReceiver h e ∧ h.toNat = k) ∨
     (∃ i edit e r' a g l, st = .complete i edit e ∧ s.todo[i]? = some (.ctl (.attachSender r' a g)) ∧
       s.snd? r' = some l ∧ l.id = k) ∨
     (∃ r' l, r' ≠ r ∧ r' ∈ s.wakes st ∧ s.rcv? r' = some l ∧ l.handle.toNat = k))

/-- The application has the link: it exists, and if this side asked for it the peer has answered. -/
def Session.Handed (s : Session) (r : Ref) : Prop :=
  (s.rcv? r).isSome ∧ ∀ k op, s.links.get k ≠ some (.rcv (.openingLocal (some (r, op))))

/-- Only links the application has are read. -/
def ReadsHanded (s : Session) : List (Nat × Step) → Prop
  | [] => True
  | x :: xs => (∀ r, x.2 = .recv r → s.Handed r) ∧ ReadsHanded (s.step x.2) xs

/-- No step of the execution orphans a link. -/
def NoOrphans (s : Session) : List (Nat × Step) → Prop
  | [] => True
  | x :: xs => (∀ r, ¬ s.Orphans x.2 r) ∧ NoOrphans (s.step x.2) xs

end Amqp.Rt
