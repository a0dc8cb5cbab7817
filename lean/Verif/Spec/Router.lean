import Verif.Model.Router
import Verif.Spec.Session
/-!
# What a router may do, said over its events
-/

namespace Amqp.Rt

/-- The state a message is settled with when its handler is done. -/
def settledAs : Handled → DeliveryState
  | .ok .accept | .err (.ok .accept) => .accepted {}
  | .ok .reject | .err (.ok .reject) => .rejected { error := none }
  | .ok (.error e) | .err (.ok (.error e)) | .err (.error e) => .rejected { error := some e }

/-- What was sent about delivery object `d`, oldest first: settled or not, and the state. -/
def disposalsOf (d : Ref) (log : List Ev) : List (Bool × DeliveryState) :=
  (disposals log).filterMap fun p => if p.1 = d then some p.2 else none

/-- The disposition frame that settles an incoming delivery. -/
def settling (id : UInt32) (st : DeliveryState) : Disposition :=
  { role := .receiver, first := id, last := none, settled := true, state := some st, batchable := false }

/-- The rejection of a message that nobody answered for. -/
def nobodyAnswered : DeliveryState :=
  .rejected { error := some { condition := .custom (sym "Internal error"), description := none, info := none } }

/-- No handler is registered for the address the peer attaches to. -/
def NoHandler (route : Str → Option Nat) (frame : Attach) : Prop :=
  ∀ path, frame.target.bind Target.address = some path → route path = none

/-- The frames posted, oldest first. -/
def postedFrames (log : List Ev) : List Frame := log.filterMap fun
  | .frame f => some f
  | _ => none

/-- `srv` is the handler of the link, going by what happened so far: it was made for the link, and the link was not
released since. -/
def HandlerNow (evs : List REv) (r srv : Ref) : Prop :=
  ∃ pre n post, evs = pre ++ .created r srv n :: post ∧ .released r ∉ post

/-- What has to have happened, and not to have happened, before a router does something. -/
def MayHappen (route : Str → Option Nat) (before : List REv) : REv → Prop
  /- a link is offered once -/
  | .asked r _ => ∀ f, .asked r f ∉ before
  /- a handler is made for a link that was offered, from the factory its target address is routed to; no link gets two
  handlers and no two links share one -/
  | .created r srv n =>
    (∃ f path, .asked r f ∈ before ∧ f.target.bind Target.address = some path ∧ route path = some n) ∧
    (∀ srv' n', .created r srv' n' ∉ before) ∧ ∀ r' n', .created r' srv n' ∉ before
  /- a message is taken from a link that has a handler, once -/
  | .fetched r d _ => (∃ srv, HandlerNow before r srv) ∧ ∀ r' t', .fetched r' d t' ∉ before
  /- it is given to the handler made for the link it was taken from, once -/
  | .invoked r srv d t live =>
    (∃ n, .created r srv n ∈ before) ∧ .fetched r d t ∈ before ∧ (∀ r' srv' t' l, .invoked r' srv' d t' l ∉ before) ∧
    (live = true ↔ HandlerNow before r srv)
  /- a handler answers what it was given, once -/
  | .answered r srv d t _ => (∃ l, .invoked r srv d t l ∈ before) ∧ ∀ r' srv' t' h, .answered r' srv' d t' h ∉ before
  | .released _ => True

end Amqp.Rt
