import Verif.Model.Structs
/-!
# The errors applications make

`src/error.rs` (`AmqpError`, `LinkError` and their conversions) and the constants of `src/error_code.rs`.
-/

namespace Amqp.Rt

/-- `AmqpError` and `LinkError` (error.rs:74-82, 165-171): they have the same shape. -/
structure AppError (α : Type) where
  err : α ⊕ ErrorCondition
  description : Option Str
  info : Option VecSymbolMap

namespace AppError

/-- `AmqpError::new` (error.rs:85-91). -/
def amqp (e : AmqpError) : AppError AmqpError := { err := .inl e, description := none, info := none }

/-- `AmqpError::with_error` (error.rs:93-99). -/
def withError (c : ErrorCondition) : AppError AmqpError := { err := .inr c, description := none, info := none }

/-- error.rs:101-127. -/
def internalError : AppError AmqpError := amqp .internalError
def notFound : AppError AmqpError := amqp .notFound
def unauthorizedAccess : AppError AmqpError := amqp .unauthorizedAccess
def decodeError : AppError AmqpError := amqp .decodeError
def invalidField : AppError AmqpError := amqp .invalidField
def notAllowed : AppError AmqpError := amqp .notAllowed
def notImplemented : AppError AmqpError := amqp .notImplemented

/-- `LinkError::new` (error.rs:174-180). -/
def link (c : ErrorCondition) : AppError LinkError := { err := .inr c, description := none, info := none }

/-- `LinkError::force_detach`, `LinkError::redirect` (error.rs:182-196). -/
def forceDetach : AppError LinkError := { err := .inl .detachForced, description := none, info := none }
def redirect : AppError LinkError := { err := .inl .redirect, description := none, info := none }

/-- `text`, `description` (error.rs:129-142, 198-211). -/
def describe (e : AppError α) (t : Str) : AppError α := { e with description := some t }

/-- `LinkError::fields` (error.rs:213-217). -/
def fields (e : AppError LinkError) (f : VecSymbolMap) : AppError LinkError := { e with info := some f }

/-- `From<AmqpError> for protocol::Error`, `From<LinkError> for protocol::Error` (error.rs:145-157, 220-233); `into` wraps
the enumeration. -/
def toError (into : α → ErrorCondition) (e : AppError α) : Error :=
  { condition := match e.err with | .inl err => into err | .inr c => c
    description := e.description
    info := e.info }

end AppError

/-- The constants of error_code.rs. -/
inductive ErrorCode where
  | internalError | notFound | unauthorizedAccess | decodeError | resourceLimitExceeded | notAllowed | invalidField
  | notImplemented | resourceLocked | preconditionFailed | resourceDeleted | illegalState | frameSizeTooSmall
  | connectionForced | framingError | connectionRedirect
  | windowViolation | errantLink | handleInUse | unattachedHandle
  | detachForced | transferLimitExceeded | messageSizeExceeded | linkRedirect | stolen
  | transactionUnknownId | transactionRollback | transactionTimeout
deriving DecidableEq

/-- error_code.rs:7-43. -/
def ErrorCode.symbol : ErrorCode → Symbol
  | .internalError => sym "amqp:internal-error"
  | .notFound => sym "amqp:not-found"
  | .unauthorizedAccess => sym "amqp:unauthorized-access"
  | .decodeError => sym "amqp:decode-error"
  | .resourceLimitExceeded => sym "amqp:resource-limit-exceeded"
  | .notAllowed => sym "amqp:not-allowed"
  | .invalidField => sym "amqp:invalid-field"
  | .notImplemented => sym "amqp:not-implemented"
  | .resourceLocked => sym "amqp:resource-locked"
  | .preconditionFailed => sym "amqp:precondition-failed"
  | .resourceDeleted => sym "amqp:resource-deleted"
  | .illegalState => sym "amqp:illegal-state"
  | .frameSizeTooSmall => sym "amqp:frame-size-too-small"
  | .connectionForced => sym "amqp:connection:forced"
  | .framingError => sym "amqp:connection:framing-error"
  | .connectionRedirect => sym "amqp:connection:redirect"
  | .windowViolation => sym "amqp:session:window-violation"
  | .errantLink => sym "amqp:session-errant-link"
  | .handleInUse => sym "amqp:session:handle-in-use"
  | .unattachedHandle => sym "amqp:session:unattached-handle"
  | .detachForced => sym "amqp:link:detach-forced"
  | .transferLimitExceeded => sym "amqp:link:transfer-limit-exceeded"
  | .messageSizeExceeded => sym "amqp:link:message-size-exceeded"
  | .linkRedirect => sym "amqp:link:redirect"
  | .stolen => sym "amqp:link:stolen"
  | .transactionUnknownId => sym "amqp:transaction:unknown-id"
  | .transactionRollback => sym "amqp:transaction:rollback"
  | .transactionTimeout => sym "amqp:transaction:timeout"

end Amqp.Rt
