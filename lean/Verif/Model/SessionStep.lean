import Verif.Model.Session
/-!
# Executions of a session

A session is driven by the peer's frames (through `ConnectionInner::handle_frame`, connection.rs:405-470), by the
dispatcher finishing control-service and application-service calls in any order (dispatcher.rs:107-154, 299-376), by the
application's calls and its futures being polled, and by the failure of the connection.  Any sequence of these is an
execution.  That includes every real one: which future is polled when, and what the application does, is unconstrained.

Over-approximations, all harmless for statements about every execution: a frame may still reach a session that asked to
end; a step naming an object that does not exist does nothing; deliveries may be settled or dropped before the
application has taken them from the link's queue.  What the borrow checker excludes (dropping or settling a delivery while
a `wait` on it is in progress) is excluded here too.
-/

namespace Amqp.Rt

inductive Step where
  /-- The connection hands the session a frame. -/
  | peer (f : Frame)
  /-- The connection hands the session, which it knows to be closing, the answering `End` (connection.rs:459-467). -/
  | endConfirmed (e : End)
  /-- The `i`-th call in flight is answered; the control service may have edited the response. -/
  | complete (i : Nat) (edit : Attach → Attach) (e : Option Error)
  | attachSender (a : Attach)
  | attachReceiver (a : Attach)
  | send (req : SendReq)
  | resumeSend (t : Ref)
  | cancelSend (t : Ref)
  | closeSender (r : Ref) (e : Option Error)
  /-- `Session::detach_sender_link`. -/
  | detachSender (handle : UInt32) (e : Option Error)
  | closeReceiver (r : Ref) (e : Option Error)
  /-- `Session::detach_receiver_link`. -/
  | detachReceiver (handle : UInt32) (e : Option Error)
  /-- `ReceiverLink::set_link_credit`. -/
  | grant (r : Ref) (credit : UInt32)
  /-- `ReceiverLink::poll_recv`. -/
  | recv (r : Ref)
  /-- `ReceiverLink::get_delivery`. -/
  | take (r : Ref)
  /-- `SenderLink::set_max_message_size`. -/
  | limitSender (r : Ref) (n : UInt32)
  /-- `ReceiverLink::set_max_message_size`. -/
  | limitReceiver (r : Ref) (n : UInt64)
  | settle (d : Ref) (state : DeliveryState)
  | update (d : Ref) (state : DeliveryState)
  | dropDelivery (d : Ref)
  | wait (d : Ref)
  | resumeWait (w : Ref)
  | cancelWait (w : Ref)
  /-- `Session::end`. -/
  | endSession
  /-- `ConnectionInner::set_error` reaches the session. -/
  | fail (e : PErr)

namespace Session

/-- Actions become calls to the control service (dispatcher.rs:186-262); `Transfer` goes to the application service, whose
doings are steps of their own. -/
def enqueue (s : Session) : Action → Session
  | .none | .transfer _ => s
  | a => { s with todo := s.todo ++ [.ctl a] }

/-- The dispatcher's reaction to the result of a frame (dispatcher.rs:177-186). -/
def finishFrame : Session × Except PErr Action → Session
  | (s, .ok act) => s.enqueue act
  | (s, .error e) => s.note (.refused e)

/-- The frames `ConnectionInner::handle_frame` passes on (connection.rs:416-457).  An ended session is not registered
with the connection any more, so it receives no attach. -/
def onPeer (s : Session) (f : Frame) : Session :=
  let s := s.note (.peer f)
  match f with
  | .attach a =>
    if s.error.isSome then s else
    let (s, act) := s.onAttach a
    s.enqueue act
  | .end_ e =>
    if s.error.isSome then s else
    let (s, act) := s.remoteEnd e.error
    (s.enqueue act).post (.end_ { error := none })
  | f => finishFrame (s.handleFrame f)

/-- `handle_control_frame` (dispatcher.rs:299-376). -/
def onComplete (s : Session) (edit : Attach → Attach) (e : Option Error) : Todo → Session
  | .ctl (.attachReceiver r _ response) =>
    match e with
    | some e => s.closeReceiver r (some e)
    | none => { s with todo := s.todo ++ [.attached r (edit response)] }
  | .attached r response =>
    match e with
    | some e => s.closeReceiver r (some e)
    | none => (s.confirmReceiver r response).setLinkCredit r 50
  | .ctl (.attachSender r a response) =>
    match e with
    | some e => s.refuseSender a r e
    | none => s.confirmSender a (edit response) r
  | .ctl (.flow r f) =>
    match e with
    | some e => s.closeSender r (some e)
    | none => s.handleFlow f (some r)
  | .ctl (.detachSender r _) =>
    match e with
    | some e => s.closeSender r (some e)
    | none => s
  | .ctl (.detachReceiver r _) =>
    match e with
    | some e => s.closeReceiver r (some e)
    | none => s
  | .ctl _ => s

/-- A delivery the application still holds. -/
def held (s : Session) (d : Ref) : Bool :=
  match s.dlv? d with
  | some x => !x.dropped
  | none => false

/-- A delivery the application holds while no `wait` future borrows it: `settle` and `update_state` need `&mut`, and a
borrowed value cannot be dropped. -/
def free (s : Session) (d : Ref) : Bool :=
  s.held d && s.waits.all fun w => match w.st with
    | .waiting _ => w.dlv != d
    | _ => true

def step (s : Session) : Step → Session
  | .peer f => s.onPeer f
  | .endConfirmed e => if s.error.isSome then s else (s.remoteEnd e.error).1
  | .complete i edit e =>
    match s.todo[i]? with
    | some t => let s := s.onComplete edit e t; { s with todo := s.todo.eraseIdx i }
    | none => s
  | .attachSender a => s.attachLocalSender a
  | .attachReceiver a => s.attachLocalReceiver a
  | .send req => s.sendStart req
  | .resumeSend t => s.sendResume t
  | .cancelSend t => s.sendCancel t
  | .closeSender r e => s.closeSender r e
  | .detachSender h e => s.detachSender h false e
  | .closeReceiver r e => s.closeReceiver r e
  | .detachReceiver h e => s.detachReceiver h false e
  | .grant r n => s.setLinkCredit r n
  | .recv r => (s.pollRecv r).1
  | .take r => (s.getDelivery r).1
  | .limitSender r n => s.modSnd r fun l => { l with maxMessageSize := some n }
  | .limitReceiver r n => s.modRcv r fun l => { l with maxMessageSize := n }
  | .settle d st => if s.free d then s.settle d st else s
  | .update d st => if s.free d then s.updateState d st else s
  | .dropDelivery d => if s.free d then s.dropDelivery d else s
  | .wait d => if s.held d then s.waitStart d else s
  | .resumeWait w => s.waitResume w
  | .cancelWait w => s.modWait w fun t => { t with st := match t.st with | .done r => .done r | _ => .cancelled }
  | .endSession => s.endLocal
  | .fail e => s.setError e

def run (s : Session) (steps : List Step) : Session := steps.foldl step s

/-- A session as `SessionInner::new` makes it. -/
def Fresh (s : Session) : Prop := ∃ id isLocal mfs ch b, s = Session.new id isLocal mfs ch b

/-- A state some execution reaches. -/
def Reachable (s : Session) : Prop := ∃ s₀ steps, Fresh s₀ ∧ s = s₀.run steps

end Session
end Amqp.Rt
