import Verif.Model.SessionStep
/-!
# The router service (src/router.rs) on top of a session

The publish service of a server is a `RouterService`: it makes a handler service for every receiver link whose target
address one of the registered patterns matches, and gives each message to the handler of its link.  It is driven by the
dispatcher (dispatcher.rs:186-262, 335-353), which calls it once per message from the session.  Each call is a future; it
stops at every `await` and goes on whenever it is polled, so calls may interleave in any order.

Simplifications.
* Pattern matching (`ntex_router`) is an arbitrary function from addresses to registered handlers.
* A router serves all sessions of a connection.  Its table is keyed by link objects, so entries of different sessions do
  not interact, and one session is modelled.
* `service_call` keeps a reference into the table across `await` (router.rs:202-219, the cell is an `UnsafeCell`).  If the
  entry is removed or the table reallocated meanwhile, the reference dangles, which is undefined behaviour; the model lets
  it denote the service still.  `Router.invoked` events with no table entry mark such uses.
* A handler that gets hold of its link may use it like any application: those are steps of the session.
-/

namespace Amqp.Rt
open Session

/-- `Outcome` (types.rs:114-119). -/
inductive Outcome where
  | accept
  | reject
  | error (e : Error)

/-- `Outcome::into_delivery_state` (types.rs:121-129). -/
def Outcome.deliveryState : Outcome → DeliveryState
  | .accept => .accepted {}
  | .reject => .rejected { error := none }
  | .error e => .rejected { error := some e }

/-- What the handler's own service returns.  For an error of the handler, `converted` is what the application's
`Outcome::try_from` makes of it. -/
inductive Handled where
  | ok (o : Outcome)
  | err (converted : Except Error Outcome)

/-- `ResourceService::call` (router.rs:286-297). -/
def Handled.result : Handled → Except Error Outcome
  | .ok o => .ok o
  | .err r => r

/-- The state `service_call` settles the delivery with (router.rs:216-225). -/
def Handled.state (h : Handled) : DeliveryState :=
  match h.result with
  | .ok o => o.deliveryState
  | .error e => .rejected { error := some e }

/-- `LinkError::force_detach().description(…)` (error.rs:183-212). -/
def forceDetach (description : Str) : Error :=
  { condition := .linkError .detachForced, description := some description, info := none }

/-- A call of the router service, at the `await` where it is. -/
inductive RCall where
  /-- `Message::Attached`, not polled yet. -/
  | attached (link : Ref) (frame : Attach)
  /-- Waiting for `hnd.create(link)` (router.rs:97); `n` is the handler the address matched. -/
  | creating (link : Ref) (n : Nat)
  /-- Waiting for `srv.ready()` (router.rs:204); `att` if on behalf of `Message::Attached`. -/
  | readying (link srv d : Ref) (t : Transfer) (att : Bool)
  /-- Waiting for `srv.call(tr)` (router.rs:216). -/
  | serving (link srv d : Ref) (t : Transfer) (att : Bool)
  /-- `Message::Transfer`, not polled yet. -/
  | transfer (link : Ref)
  /-- `Message::Detached`, not polled yet. -/
  | detached (link : Ref)
  /-- `Message::DetachedAll`, not polled yet. -/
  | detachedAll (links : List Ref)
  | done

/-- The delivery a call holds. -/
def RCall.holds : RCall → Option Ref
  | .readying _ _ d _ _ | .serving _ _ d _ _ => some d
  | _ => none

/-- What the router did, oldest first. -/
inductive REv where
  /-- A link was offered to the router. -/
  | asked (link : Ref) (frame : Attach)
  /-- A handler service was made for a link, from the `n`-th registered factory. -/
  | created (link srv : Ref) (n : Nat)
  /-- A message was taken from a link. -/
  | fetched (link d : Ref) (t : Transfer)
  /-- A message was given to a handler; `live` if the table has that handler for the link. -/
  | invoked (link srv d : Ref) (t : Transfer) (live : Bool)
  /-- The handler was done with it. -/
  | answered (link srv d : Ref) (t : Transfer) (h : Handled)
  /-- The entry of a link was removed. -/
  | released (link : Ref)

/-- `RouterServiceInner` (router.rs:74-78), the session it works on, and the calls in flight. -/
structure Router where
  /-- `router.recognize`. -/
  route : Str → Option Nat
  sess : Session
  handlers : Map Ref (Option Ref)
  /-- How many handler services were made; a service is named by its number. -/
  srvs : Nat
  calls : List RCall
  log : List REv

/-- What the dispatcher does when a call on behalf of `Message::Attached` is finished (dispatcher.rs:343-351). -/
def Session.finishAttach (s : Session) (r : Ref) (e : Option Error) : Session :=
  match s.todo.findIdx? fun | .attached r' _ => r' == r | _ => false with
  | some i => s.step (.complete i (fun a => a) e)
  | none => s

/-- The action a frame leads to (connection.rs:405-470). -/
def Session.peerAction (s : Session) (f : Frame) : Action :=
  let s := s.note (.peer f)
  match f with
  | .attach _ => .none
  | .end_ e => if s.error.isSome then .none else (s.remoteEnd e.error).2
  | f => match (s.handleFrame f).2 with
    | .ok a => a
    | .error _ => .none

/-- The calls of the publish service a step of the session leads to (dispatcher.rs:187-251, 335-342); `opened` is
`self.sink.is_opened()`. -/
def Session.messages (s : Session) (opened : Bool) : Step → List RCall
  | .peer f =>
    match s.peerAction f with
    | .transfer r => if opened then [.transfer r] else []
    | .detachReceiver r _ => [.detached r]
    | .sessionEnded links => [.detachedAll (links.filterMap fun | .inr r => some r | .inl _ => none)]
    | _ => []
  | .complete i _ none =>
    match s.todo[i]? with
    | some (.ctl (.attachReceiver r frame _)) => [.attached r frame]
    | _ => []
  | _ => []

inductive RStep where
  /-- A step of the session that is not the router's own. -/
  | sess (st : Step) (opened : Bool)
  /-- The `i`-th call is polled for the first time. -/
  | start (i : Nat)
  /-- `hnd.create` finished. -/
  | created (i : Nat) (e : Option Error)
  /-- `srv.ready` finished; `e` is the text of the error. -/
  | readied (i : Nat) (e : Option Str)
  /-- `srv.call` finished. -/
  | answered (i : Nat) (h : Handled)
  /-- The future of the call is dropped. -/
  | cancelled (i : Nat)

namespace Router

def note (σ : Router) (e : REv) : Router := { σ with log := σ.log ++ [e] }

def setCall (σ : Router) (i : Nat) (c : RCall) : Router := { σ with calls := σ.calls.set i c }

def onSess (σ : Router) (st : Step) : Router := { σ with sess := σ.sess.step st }

/-- A delivery that waits in a link's queue or is held by a call: nobody else has it. -/
def owns (σ : Router) (d : Ref) : Bool :=
  (σ.sess.rcvs.any fun l => l.queue.any fun q => q.1 == d) || σ.calls.any fun c => c.holds == some d

/-- The steps of the session that are the application's or the peer's: the outcome of `Message::Attached` is the
router's, and so are the deliveries it holds. -/
def allowed (σ : Router) : Step → Bool
  | .complete i _ _ => match σ.sess.todo[i]? with
    | some (.attached ..) => false
    | _ => true
  | .settle d _ | .update d _ | .dropDelivery d | .wait d => !σ.owns d
  | _ => true

/-- The end of a call on behalf of `Message::Attached`, or of another (dispatcher.rs:190-196: `service_call` never
fails). -/
def finish (σ : Router) (i : Nat) (r : Ref) (att : Bool) : Router :=
  { σ.setCall i .done with sess := if att then σ.sess.finishAttach r none else σ.sess }

/-- `get_delivery` and, if there is one, `service_call` up to its first `await` (router.rs:106-110, 182-184, 202-204).
The handler is there: the caller has just looked it up or put it in. -/
def fetch (σ : Router) (i : Nat) (r srv : Ref) (att : Bool) : Router :=
  match (σ.sess.getDelivery r).2 with
  | some (d, t) => ((σ.onSess (.take r)).note (.fetched r d t)).setCall i (.readying r srv d t att)
  | none => σ.finish i r att

/-- The removal of one entry (router.rs:140, 155-158); the service is shut down by a task of its own. -/
def release (σ : Router) (r : Ref) : Router := { σ.note (.released r) with handlers := σ.handlers.erase r }

/-- `RouterService::call` up to its first `await` (router.rs:84-189). -/
def start (σ : Router) (i : Nat) : RCall → Router
  | .attached r frame =>
    let σ := σ.note (.asked r frame)
    match frame.target.bind Target.address with
    | some path =>
      match σ.route path with
      | some n => { σ with handlers := σ.handlers.insert r none }.setCall i (.creating r n)
      | none =>
        { σ.setCall i .done with
          sess := σ.sess.finishAttach r (some (forceDetach ⟨ascii "Target address is not supported: " ++ path.bytes⟩)) }
    | none => { σ.setCall i .done with sess := σ.sess.finishAttach r (some (forceDetach (text "Target address is required"))) }
  | .transfer r =>
    match σ.handlers.get r with
    | some (some srv) => σ.fetch i r srv false
    | _ => σ.setCall i .done
  | .detached r => (σ.release r).setCall i .done
  | .detachedAll rs => (rs.foldl release σ).setCall i .done
  | _ => σ

/-- After `hnd.create` (router.rs:97-121). -/
def created (σ : Router) (i : Nat) (e : Option Error) : RCall → Router
  | .creating r n =>
    match e with
    | some e => { σ.setCall i .done with sess := σ.sess.finishAttach r (some e) }
    | none =>
      { σ.note (.created r σ.srvs n) with handlers := σ.handlers.insert r (some σ.srvs), srvs := σ.srvs + 1 }.fetch i r
        σ.srvs true
  | _ => σ

/-- After `srv.ready` (router.rs:204-216). -/
def readied (σ : Router) (i : Nat) (e : Option Str) : RCall → Router
  | .readying r srv d t att =>
    match e with
    | some e =>
      ((σ.onSess (.closeReceiver r (some (forceDetach ⟨ascii "error: " ++ e.bytes⟩)))).onSess (.dropDelivery d)).finish i r att
    | none =>
      let σ := match σ.sess.rcv? r with
        | some l => if l.credit = 0 then σ.onSess (.grant r 50) else σ
        | none => σ
      (σ.note (.invoked r srv d t (σ.handlers.get r == some (some srv)))).setCall i (.serving r srv d t att)
  | _ => σ

/-- After `srv.call` (router.rs:216-228). -/
def answered (σ : Router) (i : Nat) (h : Handled) : RCall → Router
  | .serving r srv d t att =>
    (((σ.note (.answered r srv d t h)).onSess (.settle d h.state)).onSess (.dropDelivery d)).finish i r att
  | _ => σ

/-- A future that is dropped drops the delivery it holds. -/
def cancelled (σ : Router) (i : Nat) (c : RCall) : Router :=
  match c.holds with
  | some d => (σ.onSess (.dropDelivery d)).setCall i .done
  | none => σ.setCall i .done

def step (σ : Router) : RStep → Router
  | .sess st opened =>
    if σ.allowed st then { σ.onSess st with calls := σ.calls ++ σ.sess.messages opened st } else σ
  | .start i => match σ.calls[i]? with
    | some c => σ.start i c
    | none => σ
  | .created i e => match σ.calls[i]? with
    | some c => σ.created i e c
    | none => σ
  | .readied i e => match σ.calls[i]? with
    | some c => σ.readied i e c
    | none => σ
  | .answered i h => match σ.calls[i]? with
    | some c => σ.answered i h c
    | none => σ
  | .cancelled i => match σ.calls[i]? with
    | some c => σ.cancelled i c
    | none => σ

def run (σ : Router) (steps : List RStep) : Router := steps.foldl step σ

/-- `Router::build` (router.rs:48-70), with a session just begun. -/
def Fresh (σ : Router) : Prop := σ.sess.Fresh ∧ σ.handlers = .empty ∧ σ.srvs = 0 ∧ σ.calls = [] ∧ σ.log = []

/-- A state some execution reaches. -/
def Reachable (σ : Router) : Prop := ∃ (σ₀ : Router) (steps : List RStep), σ₀.Fresh ∧ σ = σ₀.run steps

end Router
end Amqp.Rt
