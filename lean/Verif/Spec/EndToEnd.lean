import Verif.Model.EndToEnd
import Verif.Spec.Frame
import Verif.Spec.Handshake
import Verif.Spec.Stream
/-! A client and a server that accept each other. -/

namespace Amqp.Hs

/-- The open of a client. -/
def clientOpen (cfg : Cfg) (id : Str) (host : Option Str) : Open := { cfg.toOpen id with hostname := host.or cfg.hostname }

/-- The init of a client with these credentials. -/
def saslInit (cfg : Cfg) (a : Auth) : SaslInit :=
  ⟨⟨[0x50, 0x4c, 0x41, 0x49, 0x4e]⟩, some (a.authzId.bytes ++ 0 :: a.authnId.bytes ++ 0 :: a.password.bytes), cfg.hostname⟩

/-- The server's service accepts the credentials and the open of the client, the values configured are well formed, and the
server's open is not longer than the client's limit. -/
structure SaslAccepted (ccfg scfg : Cfg) (auth : Auth) (cid sid : Str) (host : Option Str) (svc : Service) : Prop where
  sasl : svc.sasl = true
  accepts : svc.onInit (saslInit ccfg auth) = .outcome .ok true
  ack : svc.ack (clientOpen ccfg cid host) = true
  mechanisms : wf (SaslFrame.mk (.saslMechanisms ⟨svc.mechanisms⟩))
  init : wf (SaslFrame.mk (.saslInit (saslInit ccfg auth)))
  open_ : wf (AmqpFrame.mk 0 (.open_ (clientOpen ccfg cid host)))
  serverOpen : wf (AmqpFrame.mk 0 (.open_ (scfg.toOpen sid)))
  fits : admits ccfg.maxFrameSize.toNat (AmqpFrame.mk 0 (.open_ (scfg.toOpen sid))).encode.length

/-- The same without SASL. -/
structure PlainAccepted (ccfg scfg : Cfg) (cid sid : Str) (host : Option Str) (svc : Service) : Prop where
  plain : svc.plain = true
  ack : svc.ack (clientOpen ccfg cid host) = true
  open_ : wf (AmqpFrame.mk 0 (.open_ (clientOpen ccfg cid host)))
  serverOpen : wf (AmqpFrame.mk 0 (.open_ (scfg.toOpen sid)))
  fits : admits ccfg.maxFrameSize.toNat (AmqpFrame.mk 0 (.open_ (scfg.toOpen sid))).encode.length

/-- A client and a server of the library that accept each other, and the connections they are to have: each is made from the
own configuration and the other's open. -/
inductive Meet : Prog Opened → Prog Opened → Opened → Opened → Prop
  | sasl (ccfg scfg auth cid sid host svc) (h : SaslAccepted ccfg scfg auth cid sid host svc) :
    Meet (clientSasl ccfg auth cid host) (server scfg sid svc)
      ⟨.new (ccfg.connCfg (scfg.toOpen sid)), ccfg.maxFrameSize.toNat, scfg.toOpen sid⟩
      ⟨.new (scfg.connCfg (clientOpen ccfg cid host)), scfg.maxSize, clientOpen ccfg cid host⟩
  | plain (ccfg scfg cid sid host svc) (h : PlainAccepted ccfg scfg cid sid host svc) :
    Meet (clientPlain ccfg cid host) (server scfg sid svc)
      ⟨.new (ccfg.connCfg (scfg.toOpen sid)), ccfg.maxFrameSize.toNat, scfg.toOpen sid⟩
      ⟨.new (scfg.connCfg (clientOpen ccfg cid host)), scfg.maxSize, clientOpen ccfg cid host⟩

end Amqp.Hs

namespace Amqp.Rt

/-- What the two applications put in is `Fit`. -/
def XStep.Fit : XStep → Prop
  | .client st | .server st => st.Fit
  | _ => True

/-- Neither handshake runs out of time. -/
def XStep.patient : XStep → Prop
  | .serverQuits | .clientQuits => False
  | _ => True

/-- The network of bytes of the two connections, as the handshakes make them. -/
def bothOpened (oc os : Hs.Opened) : BNet := ⟨oc.conn, os.conn, 0, 0, { max := os.codecMax }, { max := oc.codecMax }⟩

/-- All bytes have been carried over. -/
def Duplex.Carried (φ : Duplex) : Prop := φ.toServer = φ.client.bytes.length ∧ φ.toClient = φ.server.bytes.length

/-- The codec has no further frame. -/
def Reader.Idle (r : Reader) : Prop := (codecDecode AmqpFrame.decode r.max r.state r.buf).1 = .pending

end Amqp.Rt
