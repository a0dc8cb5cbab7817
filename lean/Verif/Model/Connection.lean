import Verif.Model.SessionStep
/-!
# Connections

Models `ConnectionInner` (`src/connection.rs`) and, as far as it drives connections and sessions, the dispatcher
(`src/dispatcher.rs`) with its control queue (`src/control.rs`).

The sessions a connection has ever created live in `objs`; the slab and the channel map refer to them by index.  A session
object is advanced by the steps of `Model/SessionStep.lean`, so everything proved about reachable sessions holds for the
sessions of a reachable connection (`Lemmas/ConnectionInv.lean`).

Simplifications: encoding into the output buffer cannot fail (see `Model/Session.lean`); the `io` object is not modelled, so
closing it is only noted; keep-alive frames are not modelled.
-/

namespace Amqp.Rt

/-- `ConnectionState` (connection.rs:48-54). -/
inductive ConnState where
  | normal
  | closing
  | remoteClose
  | drop
deriving DecidableEq

/-- `SessionState` (connection.rs:36-40). -/
inductive SesState where
  /-- Waiting for the peer's `Begin`; the channel of the `open_session` future. -/
  | opening (op : Ref)
  | established (s : Ref)
  | closing (s : Ref)

/-- A frame for the control service: queued by a session, or made from the dispatcher's action. -/
inductive CtlFrame where
  /-- `LocalDetachSender`, `LocalDetachReceiver`, `LocalSessionEnded`, queued by a session (session.rs:519, 741, 113). -/
  | queued (s : Ref) (k : Control)
  /-- The control frames of dispatcher.rs:195-246, called at once. -/
  | action (s : Ref) (t : Todo)
  /-- `ProtocolError` (dispatcher.rs:247-251, 258-275). -/
  | protocolError (e : PErr)
  /-- `Disconnected` (dispatcher.rs:276-281). -/
  | disconnected
  /-- `Closed`, called by `shutdown` (dispatcher.rs:156-165). -/
  | closed

/-- What happened on a connection, oldest first. -/
inductive CEv where
  /-- An event of a session's log. -/
  | ses (s : Ref) (e : Ev)
  /-- A frame the connection itself posted. -/
  | frame (channel : UInt16) (f : Frame)
  /-- A frame came in. -/
  | peer (channel : UInt16) (f : Frame)
  /-- A session came into being for the peer's channel. -/
  | begun (channel : UInt16) (s : Ref)
  /-- A frame was refused: the dispatcher stops with this error. -/
  | refused (e : PErr)
  /-- An `open_session` future completed with a session. -/
  | opened (op s : Ref)
  /-- An `open_session` future fails at once. -/
  | openFailed (op : Ref) (e : PErr)
  /-- The channel of an `open_session` future was dropped: it resolves to `Disconnected`. -/
  | openDropped (op : Ref)
  /-- The control service was called. -/
  | called (c : CtlFrame)
  /-- `set_error` ran. -/
  | failed (e : PErr)
  /-- `io.close()` or `io.force_close()`. -/
  | ioClosed

/-- `ConnectionInner` (connection.rs:22-34) and the part of the dispatcher's state that concerns control frames. -/
structure Conn where
  state : ConnState
  sessions : Slab SesState
  sessionsMap : Map UInt16 Nat
  error : Option PErr
  channelMax : UInt16
  maxFrameSize : UInt32
  /-- Every session object made so far. -/
  objs : List Session
  /-- One-shot channels of `open_session`. -/
  ops : Nat
  /-- `ControlQueue::pending`. -/
  queue : List (Ref × Control)
  log : List CEv

/-- What `Connection::new` takes from the two configurations (connection.rs:57-74).  The remote `channel_max` is there
but is not looked at. -/
structure ConnCfg where
  localChannelMax : UInt16
  remoteChannelMax : UInt16
  remoteMaxFrameSize : UInt32

/-- `Connection::new` (connection.rs:57-74). -/
def Conn.new (cfg : ConnCfg) : Conn :=
  { state := .normal, sessions := .empty, sessionsMap := .empty, error := none, channelMax := cfg.localChannelMax,
    maxFrameSize := cfg.remoteMaxFrameSize, objs := [], ops := 0, queue := [], log := [] }

namespace Conn

def note (c : Conn) (e : CEv) : Conn := { c with log := c.log ++ [e] }

/-- `post_frame` (connection.rs:238-245). -/
def post (c : Conn) (channel : UInt16) (f : Frame) : Conn := c.note (.frame channel f)

def obj? (c : Conn) (s : Ref) : Option Session := c.objs[s]?

/-- `close_session` (connection.rs:179-185). -/
def closeSession (c : Conn) (id : Nat) : Conn :=
  match c.sessions.get id with
  | some (.established s) => { c with sessions := c.sessions.set id (.closing s) }
  | _ => c

/-- What a session did that concerns the connection: it called `close_session`, or it queued a control frame. -/
def absorb (s : Ref) (c : Conn) (e : Ev) : Conn :=
  let c := c.note (.ses s e)
  match e with
  | .closeSession id => c.closeSession id
  | .control k => { c with queue := c.queue ++ [(s, k)] }
  | _ => c

/-- A step of a session object, and what the connection sees of it. -/
def onSession (c : Conn) (s : Ref) (st : Step) : Conn :=
  match c.obj? s with
  | some x =>
    let x' := x.step st
    (x'.log.drop x.log.length).foldl (absorb s) { c with objs := c.objs.set s x' }
  | none => c

/-- The dispatcher passes what a frame gave rise to on to the control service (dispatcher.rs:195-246). -/
def callService (c : Conn) (s : Ref) (before : Nat) : Conn :=
  match c.obj? s with
  | some x => { c with log := c.log ++ (x.todo.drop before).map fun t => .called (.action s t) }
  | none => c

/-- A frame for a session (connection.rs:416-457): `Session.onPeer` is what becomes of it. -/
def giveFrame (c : Conn) (s : Ref) (f : Frame) : Conn :=
  match c.obj? s with
  | some x => (c.onSession s (.peer f)).callService s x.todo.length
  | none => c

/-- The loop of `set_error` (connection.rs:221-228). -/
def failSession (e : PErr) (c : Conn) : SesState → Conn
  | .established s => c.onSession s (.fail e)
  | _ => c

/-- What `self.sessions.clear()` drops: the channels of the sessions being opened. -/
def dropState (c : Conn) : SesState → Conn
  | .opening op => c.note (.openDropped op)
  | _ => c

/-- `ConnectionInner::set_error` (connection.rs:219-236). -/
def setError (c : Conn) (e : PErr) : Conn :=
  let l := c.sessions.values
  let c := l.foldl (failSession e) (c.note (.failed e))
  let c := l.foldl dropState { c with sessions := .empty, sessionsMap := .empty }
  { c with error := if c.error.isNone then some e else c.error }

/-- The `Begin` the code sends; the constants are those of connection.rs:269-278 and 596-605. -/
def beginFrame (remote : Option UInt16) (outgoingWindow : UInt32) (off des : Option (Multiple Symbol))
    (props : Option (HMap Symbol Variant)) : Frame :=
  .begin_ { remoteChannel := remote, nextOutgoingId := 1, incomingWindow := 0xffffffff, outgoingWindow,
            handleMax := 0xffffffff, offeredCapabilities := off, desiredCapabilities := des, properties := props }

/-- `register_remote_session` (connection.rs:247-290). -/
def registerRemote (c : Conn) (channel : UInt16) (b : Begin) : Conn :=
  let token := c.sessions.vacantKey
  let s := c.objs.length
  { c.note (.begun channel s) with
    objs := c.objs ++ [Session.new token false c.maxFrameSize channel b]
    sessions := c.sessions.insert (.established s)
    sessionsMap := c.sessionsMap.insert channel token }.post (UInt16.ofNat token)
      (beginFrame (some channel) b.incomingWindow none none none)

/-- `complete_session_creation` (connection.rs:292-349). -/
def completeLocal (c : Conn) (token : Nat) (channel : UInt16) (b : Begin) : Conn :=
  match c.sessions.get token with
  | some (.opening op) =>
    let s := c.objs.length
    ({ c.note (.begun channel s) with
      objs := c.objs ++ [Session.new token true c.maxFrameSize channel b]
      sessions := c.sessions.set token (.established s)
      sessionsMap := c.sessionsMap.insert channel token }).note (.opened op s)
  | _ => c

/-- `self.sessions_map.remove(&channel_id)` and `self.sessions.remove(token)` (connection.rs:450-452, 464-466). -/
def unregister (c : Conn) (channel : UInt16) : Conn :=
  match c.sessionsMap.get channel with
  | some token => { c with sessionsMap := c.sessionsMap.erase channel, sessions := c.sessions.remove token }
  | none => c

/-- The session arms of `handle_frame` (connection.rs:391-480). -/
def sessionFrame (c : Conn) (channel : UInt16) (f : Frame) : Conn :=
  match (c.sessionsMap.get channel).bind c.sessions.get with
  | none => c.note (.refused (.unknownSession f))
  | some (.opening _) => c.note (.refused (.unexpectedOpeningState f))
  | some (.established s) =>
    match f with
    | .end_ _ => (c.giveFrame s f).unregister channel
    | f => c.giveFrame s f
  | some (.closing s) =>
    match f with
    | .end_ e => (c.onSession s (.endConfirmed e)).unregister channel
    | _ => c

/-- `ConnectionInner::handle_frame` (connection.rs:351-481) and the dispatcher's reaction (dispatcher.rs:172-253).
`ConnectionState::Closing` is never assigned in the code. -/
def handleFrame (c : Conn) (channel : UInt16) (f : Frame) : Conn :=
  let c := c.note (.peer channel f)
  match f with
  | .empty => c
  | .close close =>
    if c.state = .closing then c.setError .disconnected
    else
      let c := (c.setError (.closed close.error)).post 0 (.close { error := none })
      { c with state := .remoteClose }.note (.called (.protocolError (.closed close.error)))
  | .begin_ b =>
    match b.remoteChannel with
    | some l => c.completeLocal l.toNat channel b
    | none => c.registerRemote channel b
  | f => if c.error.isSome then c else c.sessionFrame channel f

/-- `open_session` (connection.rs:573-612), up to the answer. -/
def openSession (c : Conn) (off des : Option (Multiple Symbol)) (props : Option (HMap Symbol Variant)) : Conn :=
  let op := c.ops
  let c := { c with ops := c.ops + 1 }
  match c.error with
  | some e => c.note (.openFailed op e)
  | none =>
    let token := c.sessions.vacantKey
    if token ≥ c.channelMax.toNat then c.note (.openFailed op .tooManyChannels)
    else { c with sessions := c.sessions.insert (.opening op) }.post (UInt16.ofNat token)
      (beginFrame none 0xffffffff off des props)

/-- `force_close` (connection.rs:113-120). -/
def forceClose (c : Conn) : Conn := ({ c with state := .drop }.note .ioClosed).setError .connectionDropped

/-- `close`, `close_with_error` (connection.rs:151-176). -/
def close (c : Conn) (e : Option Error) : Conn := (c.post 0 (.close { error := e })).note .ioClosed

/-- `Dispatcher::poll` takes the queued control frames to the control service, in order (dispatcher.rs:113-117). -/
def poll (c : Conn) : Conn :=
  { c with log := c.log ++ c.queue.map fun q => .called (.queued q.1 q.2), queue := [] }

end Conn

/-- The steps an application, its services and its futures can make on a session, as opposed to what the connection does
to it. -/
def Step.isLocal : Step → Bool
  | .peer _ | .endConfirmed _ | .fail _ => false
  | _ => true

inductive CStep where
  /-- A frame arrives. -/
  | recv (channel : UInt16) (f : Frame)
  /-- The application, one of its services or one of its futures acts on a session. -/
  | local (s : Ref) (st : Step)
  | openSession (off des : Option (Multiple Symbol)) (props : Option (HMap Symbol Variant))
  | forceClose
  | close (e : Option Error)
  | poll
  /-- The transport stops, with an error or because the peer is gone (dispatcher.rs:258-281): the control service is told. -/
  | stop (e : Option PErr)
  /-- `set_error` from the dispatcher: a `ProtocolError`, `Disconnected` or `Closed` control frame was answered, or
  `shutdown` (dispatcher.rs:156-160, 322-328, 362-368). -/
  | fail (e : PErr)

namespace Conn

def step (c : Conn) : CStep → Conn
  | .recv ch f => c.handleFrame ch f
  | .local s st => if st.isLocal then c.onSession s st else c
  | .openSession off des props => c.openSession off des props
  | .forceClose => c.forceClose
  | .close e => c.close e
  | .poll => c.poll
  | .stop (some e) => c.note (.called (.protocolError e))
  | .stop none => c.note (.called .disconnected)
  | .fail e => c.setError e

def run (c : Conn) (steps : List CStep) : Conn := steps.foldl step c

/-- A state some execution of a connection reaches. -/
def Reachable (c : Conn) : Prop := ∃ cfg steps, c = (Conn.new cfg).run steps

end Conn
end Amqp.Rt
