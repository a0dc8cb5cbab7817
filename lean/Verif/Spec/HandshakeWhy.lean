import Verif.Spec.Handshake
/-!
# Spec: the error a failed handshake reports
-/

namespace Amqp.Hs

/-- All bytes that arrived. -/
def wire (steps : List Step) : Bytes := steps.flatMap fun
  | .bytes b => b
  | _ => []

/-- Something outside the conversation ended it: the peer closed the stream, the timeout fired, or some of the
bytes that arrived were no header, no frame. -/
inductive Cut (steps : List Step) : Err → Prop
  | closed (h : Step.eof ∈ steps) : Cut steps .disconnected
  | timeout (h : Step.timeout ∈ steps) : Cut steps .timeout
  | header (e buf buf') (hb : buf <:+: wire steps) (h : protocolIdDecode buf = (.error e, buf')) : Cut steps (.proto e)
  | saslFrame (e st buf st' buf') (hb : buf <:+: wire steps)
      (h : codecDecode SaslFrame.decode 0 st buf = (.error e, st', buf')) : Cut steps (.codec e)
  | amqpFrame (e m st buf st' buf') (hb : buf <:+: wire steps)
      (h : codecDecode AmqpFrame.decode m st buf = (.error e, st', buf')) : Cut steps (.codec e)

/-- What the server says about an item that does not belong where it came: which header, which SASL frame, which AMQP
frame it was. -/
def serverComplaint : Item → Err
  | .proto p => .unexpectedProto .amqp p
  | .sasl b => .unexpectedSaslBody b
  | .amqp f => .unexpected f.performative

/-- What the client says: which header came for which (the SASL header is wanted first, the AMQP header later), the code
of an outcome, the frame that came instead of an open. -/
def clientComplaint (first : ProtocolId) (seen : List Item) : Item → Err
  | .proto p => .unexpectedProto (if seen = [] then first else .amqp) p
  | .sasl (.saslOutcome o) => .sasl o.code
  | .sasl _ => .disconnected
  | .amqp f => .expectOpenFrame f

/-- The service declines at some point of the handshake. -/
inductive Service.Declines (svc : Service) : Prop
  | plain (h : svc.plain = false)
  | sasl (h : svc.sasl = false)
  | ack (o) (h : svc.ack o = false)
  | init (i) (h : svc.onInit i = .refuse)
  | outcome (i code) (h : svc.onInit i = .outcome code false)
  | response (i b k r) (h : svc.onInit i = .challenge b k) (hr : k r = .refuse)
  | lastOutcome (i b k r code) (h : svc.onInit i = .challenge b k) (hr : k r = .outcome code false)

end Amqp.Hs
