-- Written by tools/gen_structs.py from the tables there.
import Verif.Model.Composite
/-!
# Restricted types with named choices

`codec/src/protocol/definitions.rs:393-935` and the hand-written choices of `codec/src/protocol/mod.rs:46-196`.
-/

namespace Amqp
open Dec

/-- `Role` (definitions.rs:393-436). -/
inductive Role where
  | sender
  | receiver
deriving DecidableEq, Repr

/-- The wire value of each choice (definitions.rs:393-436, `encode`). -/
def Role.toBase : Role → Bool
  | .sender => false
  | .receiver => true

/-- `Role::try_from` (definitions.rs:393-436). -/
def Role.ofBase (v : Bool) : Except Err Role :=
  if v = false then .ok .sender
  else if v = true then .ok .receiver
  else .error (.unknownEnumOption "Role")

instance : Wire Role where
  enc x := enc x.toBase
  size x := size x.toBase
  decF fmt := do liftE (Role.ofBase (← decF fmt))

/-- `SenderSettleMode` (definitions.rs:439-492). -/
inductive SenderSettleMode where
  | unsettled
  | settled
  | mixed
deriving DecidableEq, Repr

/-- The wire value of each choice (definitions.rs:439-492, `encode`). -/
def SenderSettleMode.toBase : SenderSettleMode → UInt8
  | .unsettled => 0
  | .settled => 1
  | .mixed => 2

/-- `SenderSettleMode::try_from` (definitions.rs:439-492). -/
def SenderSettleMode.ofBase (v : UInt8) : Except Err SenderSettleMode :=
  if v = 0 then .ok .unsettled
  else if v = 1 then .ok .settled
  else if v = 2 then .ok .mixed
  else .error (.unknownEnumOption "SenderSettleMode")

instance : Wire SenderSettleMode where
  enc x := enc x.toBase
  size x := size x.toBase
  decF fmt := do liftE (SenderSettleMode.ofBase (← decF fmt))

/-- `ReceiverSettleMode` (definitions.rs:495-538). -/
inductive ReceiverSettleMode where
  | first
  | second
deriving DecidableEq, Repr

/-- The wire value of each choice (definitions.rs:495-538, `encode`). -/
def ReceiverSettleMode.toBase : ReceiverSettleMode → UInt8
  | .first => 0
  | .second => 1

/-- `ReceiverSettleMode::try_from` (definitions.rs:495-538). -/
def ReceiverSettleMode.ofBase (v : UInt8) : Except Err ReceiverSettleMode :=
  if v = 0 then .ok .first
  else if v = 1 then .ok .second
  else .error (.unknownEnumOption "ReceiverSettleMode")

instance : Wire ReceiverSettleMode where
  enc x := enc x.toBase
  size x := size x.toBase
  decF fmt := do liftE (ReceiverSettleMode.ofBase (← decF fmt))

/-- `AmqpError` (definitions.rs:541-618). -/
inductive AmqpError where
  | internalError
  | notFound
  | unauthorizedAccess
  | decodeError
  | resourceLimitExceeded
  | notAllowed
  | invalidField
  | notImplemented
  | resourceLocked
  | preconditionFailed
  | resourceDeleted
  | illegalState
  | frameSizeTooSmall
deriving DecidableEq, Repr

/-- The wire value of each choice (definitions.rs:541-618, `encode`). -/
def AmqpError.toBase : AmqpError → Symbol
  | .internalError => sym "amqp:internal-error"
  | .notFound => sym "amqp:not-found"
  | .unauthorizedAccess => sym "amqp:unauthorized-access"
  | .decodeError => sym "amqp:decode-error"
  | .resourceLimitExceeded => sym "amqp:resource-limit-exceeded"
  | .notAllowed => sym "amqp:not-allowed"
  | .invalidField => sym "amqp:invalid-field"
  | .notImplemented => sym "amqp:not-implemented"
  | .resourceLocked => sym "amqp:resource-locked"
  | .preconditionFailed => sym "amqp:precondition-failed"
  | .resourceDeleted => sym "amqp:resource-deleted"
  | .illegalState => sym "amqp:illegal-state"
  | .frameSizeTooSmall => sym "amqp:frame-size-too-small"

/-- `AmqpError::try_from` (definitions.rs:541-618). -/
def AmqpError.ofBase (v : Symbol) : Except Err AmqpError :=
  if v = sym "amqp:internal-error" then .ok .internalError
  else if v = sym "amqp:not-found" then .ok .notFound
  else if v = sym "amqp:unauthorized-access" then .ok .unauthorizedAccess
  else if v = sym "amqp:decode-error" then .ok .decodeError
  else if v = sym "amqp:resource-limit-exceeded" then .ok .resourceLimitExceeded
  else if v = sym "amqp:not-allowed" then .ok .notAllowed
  else if v = sym "amqp:invalid-field" then .ok .invalidField
  else if v = sym "amqp:not-implemented" then .ok .notImplemented
  else if v = sym "amqp:resource-locked" then .ok .resourceLocked
  else if v = sym "amqp:precondition-failed" then .ok .preconditionFailed
  else if v = sym "amqp:resource-deleted" then .ok .resourceDeleted
  else if v = sym "amqp:illegal-state" then .ok .illegalState
  else if v = sym "amqp:frame-size-too-small" then .ok .frameSizeTooSmall
  else .error (.unknownEnumOption "AmqpError")

instance : Wire AmqpError where
  enc x := enc x.toBase
  size x := match x with
    | .internalError => 19 + 2
    | .notFound => 14 + 2
    | .unauthorizedAccess => 24 + 2
    | .decodeError => 17 + 2
    | .resourceLimitExceeded => 28 + 2
    | .notAllowed => 16 + 2
    | .invalidField => 18 + 2
    | .notImplemented => 20 + 2
    | .resourceLocked => 20 + 2
    | .preconditionFailed => 24 + 2
    | .resourceDeleted => 21 + 2
    | .illegalState => 18 + 2
    | .frameSizeTooSmall => 25 + 2
  decF fmt := do liftE (AmqpError.ofBase (← decF fmt))

/-- `ConnectionError` (definitions.rs:621-658). -/
inductive ConnectionError where
  | connectionForced
  | framingError
  | redirect
deriving DecidableEq, Repr

/-- The wire value of each choice (definitions.rs:621-658, `encode`). -/
def ConnectionError.toBase : ConnectionError → Symbol
  | .connectionForced => sym "amqp:connection:forced"
  | .framingError => sym "amqp:connection:framing-error"
  | .redirect => sym "amqp:connection:redirect"

/-- `ConnectionError::try_from` (definitions.rs:621-658). -/
def ConnectionError.ofBase (v : Symbol) : Except Err ConnectionError :=
  if v = sym "amqp:connection:forced" then .ok .connectionForced
  else if v = sym "amqp:connection:framing-error" then .ok .framingError
  else if v = sym "amqp:connection:redirect" then .ok .redirect
  else .error (.unknownEnumOption "ConnectionError")

instance : Wire ConnectionError where
  enc x := enc x.toBase
  size x := match x with
    | .connectionForced => 22 + 2
    | .framingError => 29 + 2
    | .redirect => 24 + 2
  decF fmt := do liftE (ConnectionError.ofBase (← decF fmt))

/-- `SessionError` (definitions.rs:661-704). -/
inductive SessionError where
  | windowViolation
  | errantLink
  | handleInUse
  | unattachedHandle
deriving DecidableEq, Repr

/-- The wire value of each choice (definitions.rs:661-704, `encode`). -/
def SessionError.toBase : SessionError → Symbol
  | .windowViolation => sym "amqp:session:window-violation"
  | .errantLink => sym "amqp:session:errant-link"
  | .handleInUse => sym "amqp:session:handle-in-use"
  | .unattachedHandle => sym "amqp:session:unattached-handle"

/-- `SessionError::try_from` (definitions.rs:661-704). -/
def SessionError.ofBase (v : Symbol) : Except Err SessionError :=
  if v = sym "amqp:session:window-violation" then .ok .windowViolation
  else if v = sym "amqp:session:errant-link" then .ok .errantLink
  else if v = sym "amqp:session:handle-in-use" then .ok .handleInUse
  else if v = sym "amqp:session:unattached-handle" then .ok .unattachedHandle
  else .error (.unknownEnumOption "SessionError")

instance : Wire SessionError where
  enc x := enc x.toBase
  size x := match x with
    | .windowViolation => 29 + 2
    | .errantLink => 24 + 2
    | .handleInUse => 26 + 2
    | .unattachedHandle => 30 + 2
  decF fmt := do liftE (SessionError.ofBase (← decF fmt))

/-- `LinkError` (definitions.rs:707-754). -/
inductive LinkError where
  | detachForced
  | transferLimitExceeded
  | messageSizeExceeded
  | redirect
  | stolen
deriving DecidableEq, Repr

/-- The wire value of each choice (definitions.rs:707-754, `encode`). -/
def LinkError.toBase : LinkError → Symbol
  | .detachForced => sym "amqp:link:detach-forced"
  | .transferLimitExceeded => sym "amqp:link:transfer-limit-exceeded"
  | .messageSizeExceeded => sym "amqp:link:message-size-exceeded"
  | .redirect => sym "amqp:link:redirect"
  | .stolen => sym "amqp:link:stolen"

/-- `LinkError::try_from` (definitions.rs:707-754). -/
def LinkError.ofBase (v : Symbol) : Except Err LinkError :=
  if v = sym "amqp:link:detach-forced" then .ok .detachForced
  else if v = sym "amqp:link:transfer-limit-exceeded" then .ok .transferLimitExceeded
  else if v = sym "amqp:link:message-size-exceeded" then .ok .messageSizeExceeded
  else if v = sym "amqp:link:redirect" then .ok .redirect
  else if v = sym "amqp:link:stolen" then .ok .stolen
  else .error (.unknownEnumOption "LinkError")

instance : Wire LinkError where
  enc x := enc x.toBase
  size x := match x with
    | .detachForced => 23 + 2
    | .transferLimitExceeded => 33 + 2
    | .messageSizeExceeded => 31 + 2
    | .redirect => 18 + 2
    | .stolen => 16 + 2
  decF fmt := do liftE (LinkError.ofBase (← decF fmt))

/-- `SaslCode` (definitions.rs:757-830). -/
inductive SaslCode where
  | ok
  | auth
  | sys
  | sysPerm
  | sysTemp
deriving DecidableEq, Repr

/-- The wire value of each choice (definitions.rs:757-830, `encode`). -/
def SaslCode.toBase : SaslCode → UInt8
  | .ok => 0
  | .auth => 1
  | .sys => 2
  | .sysPerm => 3
  | .sysTemp => 4

/-- `SaslCode::try_from` (definitions.rs:757-830). -/
def SaslCode.ofBase (v : UInt8) : Except Err SaslCode :=
  if v = 0 then .ok .ok
  else if v = 1 then .ok .auth
  else if v = 2 then .ok .sys
  else if v = 3 then .ok .sysPerm
  else if v = 4 then .ok .sysTemp
  else .error (.unknownEnumOption "SaslCode")

instance : Wire SaslCode where
  enc x := enc x.toBase
  size x := size x.toBase
  decF fmt := do liftE (SaslCode.ofBase (← decF fmt))

/-- `TerminusDurability` (definitions.rs:833-886). -/
inductive TerminusDurability where
  | none
  | configuration
  | unsettledState
deriving DecidableEq, Repr

/-- The wire value of each choice (definitions.rs:833-886, `encode`). -/
def TerminusDurability.toBase : TerminusDurability → UInt32
  | .none => 0
  | .configuration => 1
  | .unsettledState => 2

/-- `TerminusDurability::try_from` (definitions.rs:833-886). -/
def TerminusDurability.ofBase (v : UInt32) : Except Err TerminusDurability :=
  if v = 0 then .ok .none
  else if v = 1 then .ok .configuration
  else if v = 2 then .ok .unsettledState
  else .error (.unknownEnumOption "TerminusDurability")

instance : Wire TerminusDurability where
  enc x := enc x.toBase
  size x := size x.toBase
  decF fmt := do liftE (TerminusDurability.ofBase (← decF fmt))

/-- `TerminusExpiryPolicy` (definitions.rs:889-935). -/
inductive TerminusExpiryPolicy where
  | linkDetach
  | sessionEnd
  | connectionClose
  | never
deriving DecidableEq, Repr

/-- The wire value of each choice (definitions.rs:889-935, `encode`). -/
def TerminusExpiryPolicy.toBase : TerminusExpiryPolicy → Symbol
  | .linkDetach => sym "link-detach"
  | .sessionEnd => sym "session-end"
  | .connectionClose => sym "connection-close"
  | .never => sym "never"

/-- `TerminusExpiryPolicy::try_from` (definitions.rs:889-935). -/
def TerminusExpiryPolicy.ofBase (v : Symbol) : Except Err TerminusExpiryPolicy :=
  if v = sym "link-detach" then .ok .linkDetach
  else if v = sym "session-end" then .ok .sessionEnd
  else if v = sym "connection-close" then .ok .connectionClose
  else if v = sym "never" then .ok .never
  else .error (.unknownEnumOption "TerminusExpiryPolicy")

instance : Wire TerminusExpiryPolicy where
  enc x := enc x.toBase
  size x := match x with
    | .linkDetach => 11 + 2
    | .sessionEnd => 11 + 2
    | .connectionClose => 16 + 2
    | .never => 5 + 2
  decF fmt := do liftE (TerminusExpiryPolicy.ofBase (← decF fmt))

/-- `ErrorCondition` (protocol/mod.rs:104-111). -/
inductive ErrorCondition where
  | amqpError (e : AmqpError)
  | connectionError (e : ConnectionError)
  | sessionError (e : SessionError)
  | linkError (e : LinkError)
  | custom (s : Symbol)
deriving DecidableEq, Repr

/-- protocol/mod.rs:119-137: the first table that knows the symbol wins, else it is custom. -/
def ErrorCondition.ofSymbol (s : Symbol) : ErrorCondition :=
  match AmqpError.ofBase s with
  | .ok r => .amqpError r
  | .error _ => match ConnectionError.ofBase s with
    | .ok r => .connectionError r
    | .error _ => match SessionError.ofBase s with
      | .ok r => .sessionError r
      | .error _ => match LinkError.ofBase s with
        | .ok r => .linkError r
        | .error _ => .custom s

/-- protocol/mod.rs:119-159. -/
instance : Wire ErrorCondition where
  enc x := match x with
    | .amqpError v => enc v
    | .connectionError v => enc v
    | .sessionError v => enc v
    | .linkError v => enc v
    | .custom v => enc v
  size x := match x with
    | .amqpError v => size v
    | .connectionError v => size v
    | .sessionError v => size v
    | .linkError v => size v
    | .custom v => size v
  decF fmt := do return ErrorCondition.ofSymbol (← decF fmt)

/-- `DistributionMode` (protocol/mod.rs:161-166). -/
inductive DistributionMode where
  | move
  | copy
  | custom (s : Symbol)
deriving DecidableEq, Repr

/-- protocol/mod.rs:168-178. -/
def DistributionMode.ofSymbol (s : Symbol) : DistributionMode :=
  if s = sym "move" then .move else if s = sym "copy" then .copy else .custom s

/-- protocol/mod.rs:168-196. -/
instance : Wire DistributionMode where
  enc x := match x with
    | .move => enc (sym "move")
    | .copy => enc (sym "copy")
    | .custom v => enc v
  size x := match x with
    | .move => 6
    | .copy => 6
    | .custom v => size v
  decF fmt := do return DistributionMode.ofSymbol (← decF fmt)

/-- `MessageId` (protocol/mod.rs:46-52). -/
inductive MessageId where
  | ulong (v : UInt64)
  | uuid (v : Uuid)
  | binary (v : Bytes)
  | string (v : Str)
deriving DecidableEq

/-- protocol/mod.rs:66-102. -/
instance : Wire MessageId where
  enc x := match x with
    | .ulong v => enc v
    | .uuid v => enc v
    | .binary v => enc v
    | .string v => enc v
  size x := match x with
    | .ulong v => size v
    | .uuid v => size v
    | .binary v => size v
    | .string v => size v
  decF fmt :=
    if fmt = FC.smallulong ∨ fmt = FC.ulong ∨ fmt = FC.ulong0 then do return .ulong (← decF fmt)
    else if fmt = FC.uuid then do return .uuid (← decF fmt)
    else if fmt = FC.binary8 ∨ fmt = FC.binary32 then do return .binary (← decF fmt)
    else if fmt = FC.string8 ∨ fmt = FC.string32 then do return .string (← decF fmt)
    else fail (.invalidFormatCode fmt)

end Amqp
