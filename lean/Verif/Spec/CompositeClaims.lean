import Verif.Spec.Structs
import Verif.Spec.Message
import Verif.Spec.Frame
/-! The shapes of the claims about composite types, sums of them and enumerations. -/

namespace Amqp

/-- A list that announces `k` fields, carries the first `k` of them (each optional one possibly as null), and possibly
further bytes, is read as the value with the missing fields defaulted.  `k` may exceed the number of fields of the
type: then the list has extra fields, and they are skipped.  What follows the list is not touched. -/
def AcceptsAnyFieldCount (α : Type) [Wire α] [WF α] [Layout α] : Prop :=
  ∀ (x : α) (keep : Nat → Bool) (k : Nat) (form hdr extra rest : Bytes), wf x → Introduces α form →
    (∀ m ∈ Layout.mandatory α, m.1 < k ∧ keep m.1 = true) →
    ListHdr hdr (((sentFields keep 0 (Layout.fieldBytes x)).take k).flatten ++ extra).length k →
    (dec : Dec α) (form ++ hdr ++ (((sentFields keep 0 (Layout.fieldBytes x)).take k).flatten ++ extra) ++ rest) =
      .ok (Layout.keepFields (fun i => i < k && keep i) x, rest)

/-- A list too short to contain a mandatory field is refused, and the error names the first missing one. -/
def RejectsMissingField (α : Type) [Wire α] [WF α] [Layout α] : Prop :=
  ∀ (x : α) (keep : Nat → Bool) (k : Nat) (m : Nat × String) (form hdr extra rest : Bytes), wf x → Introduces α form →
    (∀ m ∈ Layout.mandatory α, m.1 < k → keep m.1 = true) →
    (Layout.mandatory α).find? (fun m => k ≤ m.1) = some m →
    ListHdr hdr (((sentFields keep 0 (Layout.fieldBytes x)).take k).flatten ++ extra).length k →
    (dec : Dec α) (form ++ hdr ++ (((sentFields keep 0 (Layout.fieldBytes x)).take k).flatten ++ extra) ++ rest) =
      .error (.requiredFieldOmitted m.2)

/-- Any two ways of writing the descriptor lead to the same result, on any continuation. -/
def DescriptorsInterchangeable (α : Type) [Wire α] [Layout α] : Prop :=
  ∀ f g : Bytes, Introduces α f → Introduces α g → ∀ s : Bytes, (dec : Dec α) (f ++ s) = (dec : Dec α) (g ++ s)

/-- Any other descriptor is refused. -/
def RejectsUnknownDescriptor (α : Type) [Wire α] [Layout α] : Prop :=
  ∀ d : Descriptor, wf d → d ≠ .ulong (Layout.descriptorCode α) → d ≠ .symbol (sym (Layout.descriptorName α)) →
    ∀ s : Bytes, (dec : Dec α) (enc d ++ s) = .error (.invalidDescriptor d)

/-- Applying a constructor to a decoder's result. -/
def mapResult (f : α → β) : Except Err (α × Bytes) → Except Err (β × Bytes)
  | .ok (a, r) => .ok (f a, r)
  | .error e => .error e

/-- Every way of writing the descriptor of `α` makes the sum type decode as `α`, under the constructor `f`. -/
def Selects (α : Type) [Wire α] [Layout α] (decSum : Bytes → Except Err (σ × Bytes)) (f : α → σ) : Prop :=
  ∀ form : Bytes, Introduces α form → ∀ s : Bytes, decSum (form ++ s) = mapResult f ((dec : Dec α) (form ++ s))

/-- The same for a section that is not a list: the descriptor is followed by a plain value of type `α`. -/
def SelectsPlain (α : Type) [Wire α] (code : UInt64) (name : String) (f : α → Section) : Prop :=
  ∀ form : Bytes, DescriptorForm code name form → ∀ s : Bytes,
    (dec : Dec Section) (form ++ s) = mapResult f ((dec : Dec α) s)

/-- A descriptor that is none of the listed ones is refused by the sum type. -/
def RejectsOthers (decSum : Bytes → Except Err (σ × Bytes)) (known : List (UInt64 × String)) : Prop :=
  ∀ d : Descriptor, wf d → (∀ k ∈ known, d ≠ .ulong k.1 ∧ d ≠ .symbol (sym k.2)) →
    ∀ s : Bytes, decSum (enc d ++ s) = .error (.invalidDescriptor d)

/-- An enumeration is exactly its table: every listed wire value decodes to its choice, every other value of the base
type is refused, whatever is not a value of the base type is refused as such, and every choice is written as its
wire value. -/
def IsEnumeration (E B : Type) [Wire E] [Wire B] [BEq B] (name : String) (table : List (B × E)) : Prop :=
  (∀ s : Bytes, (dec : Dec E) s = match (dec : Dec B) s with
    | .error e => .error e
    | .ok (b, r) => match table.lookup b with
      | some e => .ok (e, r)
      | none => .error (.unknownEnumOption name)) ∧
  (∀ p ∈ table, enc p.2 = enc p.1) ∧ (∀ e : E, ∃ b, (b, e) ∈ table)

/-- An open enumeration of symbols: like `IsEnumeration`, but unknown symbols are kept. -/
def IsOpenEnumeration (E : Type) [Wire E] (table : List (Symbol × E)) (custom : Symbol → E) : Prop :=
  (∀ s : Bytes, (dec : Dec E) s = match (dec : Dec Symbol) s with
    | .error e => .error e
    | .ok (b, r) => .ok ((table.lookup b).getD (custom b), r)) ∧
  (∀ p ∈ table, enc p.2 = enc p.1) ∧ (∀ b, enc (custom b) = enc b)

/-! The tables of the AMQP 1.0 specification (part 2 §2.8, part 3 §3.5, part 5 §5.3.3). -/

def roleTable : List (Bool × Role) := [(false, .sender), (true, .receiver)]
def senderSettleModeTable : List (UInt8 × SenderSettleMode) := [(0, .unsettled), (1, .settled), (2, .mixed)]
def receiverSettleModeTable : List (UInt8 × ReceiverSettleMode) := [(0, .first), (1, .second)]
def saslCodeTable : List (UInt8 × SaslCode) := [(0, .ok), (1, .auth), (2, .sys), (3, .sysPerm), (4, .sysTemp)]
def durabilityTable : List (UInt32 × TerminusDurability) := [(0, .none), (1, .configuration), (2, .unsettledState)]
def expiryTable : List (Symbol × TerminusExpiryPolicy) :=
  [(sym "link-detach", .linkDetach), (sym "session-end", .sessionEnd), (sym "connection-close", .connectionClose),
    (sym "never", .never)]
def amqpErrorTable : List (Symbol × AmqpError) :=
  [(sym "amqp:internal-error", .internalError), (sym "amqp:not-found", .notFound),
    (sym "amqp:unauthorized-access", .unauthorizedAccess), (sym "amqp:decode-error", .decodeError),
    (sym "amqp:resource-limit-exceeded", .resourceLimitExceeded), (sym "amqp:not-allowed", .notAllowed),
    (sym "amqp:invalid-field", .invalidField), (sym "amqp:not-implemented", .notImplemented),
    (sym "amqp:resource-locked", .resourceLocked), (sym "amqp:precondition-failed", .preconditionFailed),
    (sym "amqp:resource-deleted", .resourceDeleted), (sym "amqp:illegal-state", .illegalState),
    (sym "amqp:frame-size-too-small", .frameSizeTooSmall)]
def connectionErrorTable : List (Symbol × ConnectionError) :=
  [(sym "amqp:connection:forced", .connectionForced), (sym "amqp:connection:framing-error", .framingError),
    (sym "amqp:connection:redirect", .redirect)]
def sessionErrorTable : List (Symbol × SessionError) :=
  [(sym "amqp:session:window-violation", .windowViolation), (sym "amqp:session:errant-link", .errantLink),
    (sym "amqp:session:handle-in-use", .handleInUse), (sym "amqp:session:unattached-handle", .unattachedHandle)]
def linkErrorTable : List (Symbol × LinkError) :=
  [(sym "amqp:link:detach-forced", .detachForced), (sym "amqp:link:transfer-limit-exceeded", .transferLimitExceeded),
    (sym "amqp:link:message-size-exceeded", .messageSizeExceeded), (sym "amqp:link:redirect", .redirect),
    (sym "amqp:link:stolen", .stolen)]
def errorConditionTable : List (Symbol × ErrorCondition) :=
  amqpErrorTable.map (fun p => (p.1, .amqpError p.2)) ++ connectionErrorTable.map (fun p => (p.1, .connectionError p.2)) ++
    sessionErrorTable.map (fun p => (p.1, .sessionError p.2)) ++ linkErrorTable.map (fun p => (p.1, .linkError p.2))
def distributionModeTable : List (Symbol × DistributionMode) := [(sym "move", .move), (sym "copy", .copy)]

end Amqp
