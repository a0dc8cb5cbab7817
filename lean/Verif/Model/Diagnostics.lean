import Verif.Model.Handshake
/-!
# How a client classifies a failed connection

`ErrorDiagnostic for ConnectError` (src/client/error.rs:65-88).  Of the variants of `Err`, `unexpectedSaslBody`, `unexpected`
and `service` are of the server only; they get the last case.  `Connect` and `Io`, which stand for failures below AMQP, have
no counterpart in the model of the handshake.
-/

namespace Amqp.Hs

/-- `ResultType`, as far as it is used. -/
inductive Blame where
  | clientError
  | serviceError
deriving DecidableEq, Repr

/-- `typ` (client/error.rs:66-74). -/
def Err.typ : Err → Blame
  | .sasl .auth => .clientError
  | .sasl .sysPerm => .clientError
  | _ => .serviceError

/-- `signature` (client/error.rs:76-87). -/
def Err.signature : Err → String
  | .codec _ => "amqp-client-Codec"
  | .timeout => "amqp-client-HandshakeTimeout"
  | .proto _ => "amqp-client-ProtocolNegotiation"
  | .unexpectedProto _ _ => "amqp-client-ProtocolNegotiation"
  | .expectOpenFrame _ => "amqp-client-ExpectOpenFrame"
  | .sasl _ => "amqp-client-Sasl"
  | .disconnected => "amqp-client-Disconnected"
  | _ => ""

end Amqp.Hs
