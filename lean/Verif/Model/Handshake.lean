import Verif.Model.Io
import Verif.Model.Connection
/-!
# Connection handshake

Models `connect_sasl_inner` and `connect_plain_inner` (`src/client/connector.rs:162-293`), `handshake`
(`src/server/service.rs:264-319`), `Sasl`, `SaslInit`, `SaslResponse`, `SaslSuccess` (`src/server/sasl.rs`) and
`HandshakeAmqp`, `HandshakeAmqpOpened` (`src/server/handshake.rs`).

A handshake is a program that sends and receives whole items.  The peer is nothing but bytes: a run feeds the program
whatever arrived, chunk by chunk, through the decoders of `codec/src/io.rs`, and a receive that has no complete item
waits.  `send` is taken to succeed; an i/o error on writing ends the attempt like a disconnect does.

A handshake service (user code) is a plan: what it answers to each message it is given.  The Rust API is by value, each
stage consumes the previous one, so a plan can only go through the stages in order, or give up with an error of its own.
Not modelled: a service reading or writing the socket behind the API's back (`io()`), logging, and exchanging the acks
of two connections.
-/

namespace Amqp.Hs

/-- What travels: protocol headers, SASL frames, AMQP frames. -/
inductive Item where
  | proto (p : ProtocolId)
  | sasl (f : SaslFrameBody)
  | amqp (f : AmqpFrame)

/-- Bytes of an item (io.rs:104-120,155-166). -/
def Item.encode : Item → Bytes
  | .proto p => protocolIdEncode p
  | .sasl b => codecEncode SaslFrame.encode { body := b } []
  | .amqp f => codecEncode AmqpFrame.encode f []

/-- `ConnectError` (src/error.rs) and `HandshakeError` (src/server/error.rs), with the service's own error and the
timeout around the whole handshake. -/
inductive Err where
  | disconnected
  | timeout
  | proto (e : ProtocolIdError)
  | unexpectedProto (exp got : ProtocolId)
  | codec (e : CodecError)
  | sasl (code : SaslCode)
  | expectOpenFrame (f : AmqpFrame)
  | unexpectedSaslBody (b : SaslFrameBody)
  | unexpected (f : Frame)
  | service

/-- A handshake in progress: finished, about to send, or waiting for an item. -/
inductive Prog (ρ : Type) where
  | done (r : Except Err ρ)
  | send (x : Item) (k : Prog ρ)
  | recvProto (k : ProtocolId → Prog ρ)
  | recvSasl (k : SaslFrameBody → Prog ρ)
  | recvAmqp (maxSize : Nat) (k : AmqpFrame → Prog ρ)

/-- What happened, in order. -/
inductive Ev where
  | sent (x : Item)
  | got (x : Item)

/-- `io.send(..)` and `io.recv(..)` until the buffer has no complete item: the events, the program that remains, the
codec's state and what is left in the buffer.  Every codec starts in `FrameHeader` and is back there after each frame, so
one state serves all of them. -/
def Prog.run : Prog ρ → DecodeState → Bytes → List Ev × Prog ρ × DecodeState × Bytes
  | .done r, st, buf => ([], .done r, st, buf)
  | .send x k, st, buf =>
    let (l, o) := k.run st buf
    (.sent x :: l, o)
  | .recvProto k, st, buf =>
    match protocolIdDecode buf with
    | (.pending, buf) => ([], .recvProto k, st, buf)
    | (.error e, buf) => ([], .done (.error (.proto e)), st, buf)
    | (.ready p, buf) =>
      let (l, o) := (k p).run st buf
      (.got (.proto p) :: l, o)
  | .recvSasl k, st, buf =>
    match codecDecode SaslFrame.decode 0 st buf with
    | (.pending, st, buf) => ([], .recvSasl k, st, buf)
    | (.error e, st, buf) => ([], .done (.error (.codec e)), st, buf)
    | (.ready f, st, buf) =>
      let (l, o) := (k f.body).run st buf
      (.got (.sasl f.body) :: l, o)
  | .recvAmqp max k, st, buf =>
    match codecDecode AmqpFrame.decode max st buf with
    | (.pending, st, buf) => ([], .recvAmqp max k, st, buf)
    | (.error e, st, buf) => ([], .done (.error (.codec e)), st, buf)
    | (.ready f, st, buf) =>
      let (l, o) := (k f).run st buf
      (.got (.amqp f) :: l, o)

/-- A handshake with its connection: what happened, the rest of the program, the codec and the read buffer. -/
structure Run (ρ : Type) where
  log : List Ev
  prog : Prog ρ
  st : DecodeState
  buf : Bytes

/-- The handshake begins: everything up to the first wait. -/
def Run.start (p : Prog ρ) : Run ρ :=
  let (l, p, st, buf) := p.run .frameHeader []
  { log := l, prog := p, st, buf }

/-- What can happen to it. -/
inductive Step where
  /-- Bytes arrive. -/
  | bytes (b : Bytes)
  /-- The peer closes the stream. -/
  | eof
  /-- The handshake timeout fires (service.rs, connector.rs: `timeout_checked`). -/
  | timeout

/-- Giving up while waiting. -/
def Prog.stop (e : Err) : Prog ρ → Prog ρ
  | .done r => .done r
  | _ => .done (.error e)

def Run.step (r : Run ρ) : Step → Run ρ
  | .bytes b =>
    let (l, p, st, buf) := r.prog.run r.st (r.buf ++ b)
    { log := r.log ++ l, prog := p, st, buf }
  | .eof => { r with prog := r.prog.stop .disconnected }
  | .timeout => { r with prog := r.prog.stop .timeout }

def Run.exec (r : Run ρ) (steps : List Step) : Run ρ := steps.foldl Run.step r

/-- Everything sent so far. -/
def Run.sent (r : Run ρ) : List Item :=
  r.log.filterMap fun e => match e with
    | .sent x => some x
    | .got _ => none

/-! ## Configuration -/

/-- `AmqpServiceConfig` (lib.rs:60-71); the handshake timeout is a step, `config` is for logging. -/
structure Cfg where
  maxFrameSize : UInt32
  channelMax : UInt16
  idleTimeOut : UInt32
  hostname : Option Str
  offeredCapabilities : Option (Multiple Symbol)
  desiredCapabilities : Option (Multiple Symbol)
  maxSize : Nat

/-- `AmqpServiceConfig::to_open` (lib.rs:206-226); the container id is a fresh uuid. -/
def Cfg.toOpen (c : Cfg) (id : Str) : Open :=
  { containerId := id, hostname := c.hostname, maxFrameSize := c.maxFrameSize, channelMax := c.channelMax,
    idleTimeOut := if c.idleTimeOut > 0 then some c.idleTimeOut else none,
    outgoingLocales := none, incomingLocales := none,
    offeredCapabilities := c.offeredCapabilities, desiredCapabilities := c.desiredCapabilities, properties := none }

/-- What `Connection::new(io, &local, &RemoteServiceConfig::new(&open))` takes from both sides
(lib.rs:231-240, connection.rs:57-74). -/
def Cfg.connCfg (c : Cfg) (remote : Open) : Rt.ConnCfg :=
  { localChannelMax := c.channelMax, remoteChannelMax := remote.channelMax, remoteMaxFrameSize := remote.maxFrameSize }

/-- The result of a handshake: the connection, the frame size limit of the codec and the peer's open. -/
structure Opened where
  conn : Rt.Conn
  codecMax : Nat
  remote : Open

/-! ## Client -/

/-- `SaslAuth` (client/mod.rs). -/
structure Auth where
  authzId : Str
  authnId : Str
  password : Str

/-- `SaslInit::prepare_response` (codec/src/protocol/mod.rs:199-201). -/
def Auth.response (a : Auth) : Bytes := a.authzId.bytes ++ [0] ++ a.authnId.bytes ++ [0] ++ a.password.bytes

/-- `connect_plain_inner` (connector.rs:235-293). -/
def clientPlain (cfg : Cfg) (id : Str) (hostname : Option Str) : Prog Opened :=
  .send (.proto .amqp) <|
  .recvProto fun proto =>
    if proto ≠ .amqp then .done (.error (.unexpectedProto .amqp proto))
    else
      let own := cfg.toOpen id
      let own := match hostname with
        | some h => { own with hostname := some h }
        | none => own
      .send (.amqp { channel := 0, performative := .open_ own }) <|
      .recvAmqp cfg.maxFrameSize.toNat fun frame =>
        match frame.performative with
        | .open_ remote => .done (.ok { conn := .new (cfg.connCfg remote), codecMax := cfg.maxFrameSize.toNat, remote })
        | _ => .done (.error (.expectOpenFrame frame))

/-- `connect_sasl_inner` (connector.rs:162-233).  The first SASL frame is received and dropped, whatever it is. -/
def clientSasl (cfg : Cfg) (auth : Auth) (id : Str) (hostname : Option Str) : Prog Opened :=
  .send (.proto .amqpSasl) <|
  .recvProto fun proto =>
    if proto ≠ .amqpSasl then .done (.error (.unexpectedProto .amqpSasl proto))
    else
      .recvSasl fun _ =>
      .send (.sasl (.saslInit { mechanism := sym "PLAIN", initialResponse := some auth.response, hostname := cfg.hostname })) <|
      .recvSasl fun frame =>
        match frame with
        | .saslOutcome outcome =>
          if outcome.code ≠ .ok then .done (.error (.sasl outcome.code))
          else clientPlain cfg id hostname
        | _ => .done (.error .disconnected)

/-! ## Server -/

/-- What the service does with a SASL response: an error of its own, or an outcome, after which it either goes on to
`SaslSuccess::open` or returns an error. -/
inductive RespPlan where
  | refuse
  | outcome (code : SaslCode) (goOn : Bool)

/-- What the service does with the client's init. -/
inductive InitPlan where
  | refuse
  | outcome (code : SaslCode) (goOn : Bool)
  | challenge (b : Bytes) (onResponse : SaslResponse → RespPlan)

/-- A handshake service. -/
structure Service where
  /-- Go on with a plain AMQP handshake. -/
  plain : Bool
  /-- Go on with a SASL handshake. -/
  sasl : Bool
  mechanisms : Multiple Symbol
  onInit : SaslInit → InitPlan
  /-- `HandshakeAmqpOpened::ack` or an error. -/
  ack : Open → Bool

/-- The end of `handshake` (service.rs:300-310): confirm the peer's open. -/
def serverAck (cfg : Cfg) (id : Str) (svc : Service) (remote : Open) : Prog Opened :=
  if svc.ack remote then
    .send (.amqp { channel := 0, performative := .open_ (cfg.toOpen id) }) <|
    .done (.ok { conn := .new (cfg.connCfg remote), codecMax := cfg.maxSize, remote })
  else .done (.error .service)

/-- `HandshakeAmqp::open` (handshake.rs:52-81), and the second half of `SaslSuccess::open` (sasl.rs:254-279). -/
def serverOpen (cfg : Cfg) (id : Str) (svc : Service) : Prog Opened :=
  .recvAmqp 0 fun frame =>
    match frame.performative with
    | .open_ remote => serverAck cfg id svc remote
    | f => .done (.error (.unexpected f))

/-- `SaslSuccess::open` (sasl.rs:238-287). -/
def serverSuccess (cfg : Cfg) (id : Str) (svc : Service) : Prog Opened :=
  .recvProto fun proto =>
    match proto with
    | .amqp => .send (.proto .amqp) (serverOpen cfg id svc)
    | proto => .done (.error (.unexpectedProto .amqp proto))

/-- After `SaslInit::outcome` (sasl.rs:151-170) the service has a `SaslSuccess`, whatever the code. -/
def initOutcome (cfg : Cfg) (id : Str) (svc : Service) (code : SaslCode) (goOn : Bool) : Prog Opened :=
  .send (.sasl (.saslOutcome { code, additionalData := none })) <|
    if goOn then serverSuccess cfg id svc else .done (.error .service)

/-- `SaslResponse::outcome` (sasl.rs:200-223): it receives one more SASL frame before it hands out the `SaslSuccess`. -/
def respOutcome (cfg : Cfg) (id : Str) (svc : Service) (code : SaslCode) (goOn : Bool) : Prog Opened :=
  .send (.sasl (.saslOutcome { code, additionalData := none })) <|
  .recvSasl fun _ =>
    if goOn then serverSuccess cfg id svc else .done (.error .service)

/-- `SaslInit::challenge_with` (sasl.rs:124-148) and what follows. -/
def serverChallenge (cfg : Cfg) (id : Str) (svc : Service) (b : Bytes) (onResponse : SaslResponse → RespPlan) :
    Prog Opened :=
  .send (.sasl (.saslChallenge { challenge := b })) <|
  .recvSasl fun frame =>
    match frame with
    | .saslResponse r =>
      match onResponse r with
      | .refuse => .done (.error .service)
      | .outcome code goOn => respOutcome cfg id svc code goOn
    | body => .done (.error (.unexpectedSaslBody body))

/-- `Sasl::init` (sasl.rs:46-78) and what follows. -/
def serverSasl (cfg : Cfg) (id : Str) (svc : Service) : Prog Opened :=
  .send (.sasl (.saslMechanisms { saslServerMechanisms := svc.mechanisms })) <|
  .recvSasl fun frame =>
    match frame with
    | .saslInit i =>
      match svc.onInit i with
      | .refuse => .done (.error .service)
      | .outcome code goOn => initOutcome cfg id svc code goOn
      | .challenge b onResponse => serverChallenge cfg id svc b onResponse
    | body => .done (.error (.unexpectedSaslBody body))

/-- `handshake` (service.rs:264-319). -/
def server (cfg : Cfg) (id : Str) (svc : Service) : Prog Opened :=
  .recvProto fun proto =>
    match proto with
    | .amqp =>
      .send (.proto .amqp) <| if svc.plain then serverOpen cfg id svc else .done (.error .service)
    | .amqpSasl =>
      .send (.proto .amqpSasl) <| if svc.sasl then serverSasl cfg id svc else .done (.error .service)
    | .amqpTls => .done (.error (.unexpectedProto .amqp .amqpTls))

end Amqp.Hs
