import Verif.Model.Errors
import Verif.Spec.StandardTypes
import Verif.Spec.Structs
/-! What the errors applications make are to mean. -/

namespace Amqp

/-- The symbol that stands for a condition on the wire. -/
def ErrorCondition.symbol : ErrorCondition → Symbol
  | .custom s => s
  | c => sym ((Standard.conditionName c).getD "")

/-- Two conditions with one symbol are the same to the peer; it takes a symbol the specification defines for that. -/
def ErrorCondition.Same (a b : ErrorCondition) : Prop :=
  a.symbol = b.symbol ∧ ∀ s n, b = .custom s → Standard.conditionName n ≠ none → s ≠ n.symbol

namespace Rt

/-- The conditions of the specification (2.8.15-2.8.18) that the constants are named after; those for transactions (4.5.8)
are not among the enumerations of the library. -/
def ErrorCode.means : ErrorCode → Option ErrorCondition
  | .internalError => some (.amqpError .internalError)
  | .notFound => some (.amqpError .notFound)
  | .unauthorizedAccess => some (.amqpError .unauthorizedAccess)
  | .decodeError => some (.amqpError .decodeError)
  | .resourceLimitExceeded => some (.amqpError .resourceLimitExceeded)
  | .notAllowed => some (.amqpError .notAllowed)
  | .invalidField => some (.amqpError .invalidField)
  | .notImplemented => some (.amqpError .notImplemented)
  | .resourceLocked => some (.amqpError .resourceLocked)
  | .preconditionFailed => some (.amqpError .preconditionFailed)
  | .resourceDeleted => some (.amqpError .resourceDeleted)
  | .illegalState => some (.amqpError .illegalState)
  | .frameSizeTooSmall => some (.amqpError .frameSizeTooSmall)
  | .connectionForced => some (.connectionError .connectionForced)
  | .framingError => some (.connectionError .framingError)
  | .connectionRedirect => some (.connectionError .redirect)
  | .windowViolation => some (.sessionError .windowViolation)
  | .errantLink => some (.sessionError .errantLink)
  | .handleInUse => some (.sessionError .handleInUse)
  | .unattachedHandle => some (.sessionError .unattachedHandle)
  | .detachForced => some (.linkError .detachForced)
  | .transferLimitExceeded => some (.linkError .transferLimitExceeded)
  | .messageSizeExceeded => some (.linkError .messageSizeExceeded)
  | .linkRedirect => some (.linkError .redirect)
  | .stolen => some (.linkError .stolen)
  | _ => none

/-- The transaction errors of the specification (4.5.8). -/
def ErrorCode.transactionName : ErrorCode → Option String
  | .transactionUnknownId => some "amqp:transaction:unknown-id"
  | .transactionRollback => some "amqp:transaction:rollback"
  | .transactionTimeout => some "amqp:transaction:timeout"
  | _ => none

/-- What an application does with an error it makes. -/
inductive Adorn where
  | describe (t : Str)
  | fields (f : VecSymbolMap)

def AppError.adorn (e : AppError LinkError) : Adorn → AppError LinkError
  | .describe t => e.describe t
  | .fields f => e.fields f

/-- The description and the fields given last. -/
def lastText (l : List Adorn) : Option Str := (l.filterMap fun | .describe t => some t | _ => none).getLast?
def lastFields (l : List Adorn) : Option VecSymbolMap := (l.filterMap fun | .fields f => some f | _ => none).getLast?

end Rt
end Amqp
