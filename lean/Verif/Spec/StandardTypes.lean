import Verif.Spec.Standard
import Verif.Model.Frame
/-!
# The types and frames defined by AMQP 1.0

The composite types of the AMQP 1.0 specification as tables of fields (parts 2, 3 and 5), the rules for encoding them (part
1, section 1.4: a described list whose trailing fields may be left out and whose absent fields are null), the restricted types
with named choices, and the layout of frames (part 2, section 2.3).  Nothing here refers to the encoder or the decoder.
-/

namespace Amqp.Standard

/-! ## Restricted types -/

instance : Form Role where
  form c w v := form c w (match v with | .sender => false | .receiver => true)

instance : Form SenderSettleMode where
  form c w v := form c w (match v with | .unsettled => 0 | .settled => 1 | .mixed => 2 : UInt8)

instance : Form ReceiverSettleMode where
  form c w v := form c w (match v with | .first => 0 | .second => 1 : UInt8)

instance : Form SaslCode where
  form c w v := form c w (match v with | .ok => 0 | .auth => 1 | .sys => 2 | .sysPerm => 3 | .sysTemp => 4 : UInt8)

instance : Form TerminusDurability where
  form c w v := form c w (match v with | .none => 0 | .configuration => 1 | .unsettledState => 2 : UInt32)

instance : Form TerminusExpiryPolicy where
  form c w v := form c w (sym (match v with
    | .linkDetach => "link-detach"
    | .sessionEnd => "session-end"
    | .connectionClose => "connection-close"
    | .never => "never"))

/-- The symbols of the error conditions in the specification. -/
def conditionName : ErrorCondition → Option String
  | .amqpError .internalError => "amqp:internal-error"
  | .amqpError .notFound => "amqp:not-found"
  | .amqpError .unauthorizedAccess => "amqp:unauthorized-access"
  | .amqpError .decodeError => "amqp:decode-error"
  | .amqpError .resourceLimitExceeded => "amqp:resource-limit-exceeded"
  | .amqpError .notAllowed => "amqp:not-allowed"
  | .amqpError .invalidField => "amqp:invalid-field"
  | .amqpError .notImplemented => "amqp:not-implemented"
  | .amqpError .resourceLocked => "amqp:resource-locked"
  | .amqpError .preconditionFailed => "amqp:precondition-failed"
  | .amqpError .resourceDeleted => "amqp:resource-deleted"
  | .amqpError .illegalState => "amqp:illegal-state"
  | .amqpError .frameSizeTooSmall => "amqp:frame-size-too-small"
  | .connectionError .connectionForced => "amqp:connection:forced"
  | .connectionError .framingError => "amqp:connection:framing-error"
  | .connectionError .redirect => "amqp:connection:redirect"
  | .sessionError .windowViolation => "amqp:session:window-violation"
  | .sessionError .errantLink => "amqp:session:errant-link"
  | .sessionError .handleInUse => "amqp:session:handle-in-use"
  | .sessionError .unattachedHandle => "amqp:session:unattached-handle"
  | .linkError .detachForced => "amqp:link:detach-forced"
  | .linkError .transferLimitExceeded => "amqp:link:transfer-limit-exceeded"
  | .linkError .messageSizeExceeded => "amqp:link:message-size-exceeded"
  | .linkError .redirect => "amqp:link:redirect"
  | .linkError .stolen => "amqp:link:stolen"
  | .custom _ => none

/-- A condition is a symbol: one of the specification's, or any other. -/
instance : Form ErrorCondition where
  form c w v := match v with
    | .custom s => form c w s ∧ ∀ e n, conditionName e = some n → s ≠ sym n
    | v => ∃ n, conditionName v = some n ∧ form c w (sym n)

instance : Form DistributionMode where
  form c w v := match v with
    | .move => form c w (sym "move")
    | .copy => form c w (sym "copy")
    | .custom s => form c w s ∧ s ≠ sym "move" ∧ s ≠ sym "copy"

instance : Form MessageId where
  form c w v := match v with
    | .ulong v => form c w v
    | .uuid v => form c w v
    | .binary v => form c w v
    | .string v => form c w v

/-! ## Maps and arrays -/

instance : Form Variant where form := Tree

/-- Nullable values. -/
instance [Form α] : Form (Option α) where
  form c w v := match v with
    | none => c = 0x40 ∧ w = []
    | some v => form c w v

/-- Keys and values alternating. -/
inductive Entries [Form κ] [Form ν] : Bytes → List (κ × ν) → Prop
  | nil : Entries [] []
  | cons {c w k c' w' v rest m} : form c w k → form c' w' v → Entries rest m →
      Entries (c :: w ++ (c' :: w' ++ rest)) ((k, v) :: m)

/-- Maps.  The keys are distinct; those that are value trees contain no map. -/
instance [Form κ] [Form ν] [Key κ] : Form (HMap κ ν) where
  form c w m := ∃ body, compounds 0xc1 0xd1 (2 * m.entries.length) c w body ∧ Entries body m.entries ∧
    m.entries.Pairwise (fun a b => keq a.1 b.1 = false) ∧ ∀ e ∈ m.entries, hashOk e.1 = true

/-- Maps kept in the order they arrived in. -/
instance [Form κ] : Form (VecMap κ) where
  form c w m := ∃ body, compounds 0xc1 0xd1 (2 * m.entries.length) c w body ∧ Entries body m.entries

/-- The elements of an array, all with the constructor `e`. -/
inductive Items [Form α] (e : UInt8) : Bytes → List α → Prop
  | nil : Items e [] []
  | cons {w v rest l} : form e w v → Items e rest l → Items e (w ++ rest) (v :: l)

/-- A field that may occur several times: an array, or a single value as such. -/
instance : Form (Multiple Symbol) where
  form c w m := (∃ s, m.items = [s] ∧ form c w s) ∨
    ∃ e payload, (e = 0xa3 ∨ e = 0xb3) ∧ compounds 0xe0 0xf0 m.items.length c w (e :: payload) ∧
      Items e payload m.items

/-! ## Composite types -/

/-- The encoded fields of a composite type: constructor and data of each. -/
abbrev Elems := List (UInt8 × Bytes)

def Elems.bytes (es : Elems) : Bytes := es.flatMap fun e => e.1 :: e.2

/-- Field `i` is present and denotes `v`. -/
def mandatory [Form α] (es : Elems) (i : Nat) (v : α) : Prop := ∃ c w, es[i]? = some (c, w) ∧ form c w v

/-- Field `i` is left out at the end, or null. -/
def absent (es : Elems) (i : Nat) : Prop := es[i]? = none ∨ es[i]? = some (0x40, [])

/-- Field `i` may be absent. -/
def optional [Form α] (es : Elems) (i : Nat) : Option α → Prop
  | none => absent es i
  | some v => mandatory es i v

/-- Field `i` may be absent and then means `d`. -/
def defaulted [Form α] (es : Elems) (i : Nat) (d v : α) : Prop := mandatory es i v ∨ absent es i ∧ v = d

/-- A composite type: its descriptor, the number of its fields, and what they denote. -/
class Listed (α : Type) where
  code : UInt64
  name : String
  arity : Nat
  fields : Elems → α → Prop

/-- What follows the descriptor of a composite value: a list of at most `arity` fields. -/
def fieldList [Listed α] (b : Bytes) (v : α) : Prop :=
  ∃ es : Elems, es.length ≤ Listed.arity α ∧ Listed.fields es v ∧
    ((es = [] ∧ b = [0x45]) ∨ ∃ c w, b = c :: w ∧ compounds 0xc0 0xd0 es.length c w es.bytes)

/-- The descriptor of a composite type, numeric or symbolic. -/
def descriptorOf (α : Type) [Listed α] (c : UInt8) (w : Bytes) : Prop :=
  form c w (Descriptor.ulong (Listed.code α)) ∨ form c w (Descriptor.symbol (sym (Listed.name α)))

/-- A described list. -/
def composite [Listed α] (c : UInt8) (w : Bytes) (v : α) : Prop :=
  c = 0 ∧ ∃ dc dw b, w = dc :: dw ++ b ∧ descriptorOf α dc dw ∧ fieldList b v

instance : Listed Error where
  code := 0x1d
  name := "amqp:error:list"
  arity := 3
  fields es v := mandatory es 0 v.condition ∧ optional es 1 v.description ∧ optional es 2 v.info
instance : Form Error := ⟨composite⟩

instance : Listed Open where
  code := 0x10
  name := "amqp:open:list"
  arity := 10
  fields es v := mandatory es 0 v.containerId ∧ optional es 1 v.hostname ∧ defaulted es 2 4294967295 v.maxFrameSize ∧
    defaulted es 3 65535 v.channelMax ∧ optional es 4 v.idleTimeOut ∧ optional es 5 v.outgoingLocales ∧
    optional es 6 v.incomingLocales ∧ optional es 7 v.offeredCapabilities ∧ optional es 8 v.desiredCapabilities ∧
    optional es 9 v.properties
instance : Form Open := ⟨composite⟩

instance : Listed Begin where
  code := 0x11
  name := "amqp:begin:list"
  arity := 8
  fields es v := optional es 0 v.remoteChannel ∧ mandatory es 1 v.nextOutgoingId ∧ mandatory es 2 v.incomingWindow ∧
    mandatory es 3 v.outgoingWindow ∧ defaulted es 4 4294967295 v.handleMax ∧ optional es 5 v.offeredCapabilities ∧
    optional es 6 v.desiredCapabilities ∧ optional es 7 v.properties
instance : Form Begin := ⟨composite⟩

instance : Listed Flow where
  code := 0x13
  name := "amqp:flow:list"
  arity := 11
  fields es v := optional es 0 v.nextIncomingId ∧ mandatory es 1 v.incomingWindow ∧ mandatory es 2 v.nextOutgoingId ∧
    mandatory es 3 v.outgoingWindow ∧ optional es 4 v.handle ∧ optional es 5 v.deliveryCount ∧ optional es 6 v.linkCredit ∧
    optional es 7 v.available ∧ defaulted es 8 false v.drain ∧ defaulted es 9 false v.echo ∧ optional es 10 v.properties
instance : Form Flow := ⟨composite⟩

instance : Listed Detach where
  code := 0x16
  name := "amqp:detach:list"
  arity := 3
  fields es v := mandatory es 0 v.handle ∧ defaulted es 1 false v.closed ∧ optional es 2 v.error
instance : Form Detach := ⟨composite⟩

instance : Listed End where
  code := 0x17
  name := "amqp:end:list"
  arity := 1
  fields es v := optional es 0 v.error
instance : Form End := ⟨composite⟩

instance : Listed Close where
  code := 0x18
  name := "amqp:close:list"
  arity := 1
  fields es v := optional es 0 v.error
instance : Form Close := ⟨composite⟩

instance : Listed SaslMechanisms where
  code := 0x40
  name := "amqp:sasl-mechanisms:list"
  arity := 1
  fields es v := mandatory es 0 v.saslServerMechanisms
instance : Form SaslMechanisms := ⟨composite⟩

instance : Listed SaslInit where
  code := 0x41
  name := "amqp:sasl-init:list"
  arity := 3
  fields es v := mandatory es 0 v.mechanism ∧ optional es 1 v.initialResponse ∧ optional es 2 v.hostname
instance : Form SaslInit := ⟨composite⟩

instance : Listed SaslChallenge where
  code := 0x42
  name := "amqp:sasl-challenge:list"
  arity := 1
  fields es v := mandatory es 0 v.challenge
instance : Form SaslChallenge := ⟨composite⟩

instance : Listed SaslResponse where
  code := 0x43
  name := "amqp:sasl-response:list"
  arity := 1
  fields es v := mandatory es 0 v.response
instance : Form SaslResponse := ⟨composite⟩

instance : Listed SaslOutcome where
  code := 0x44
  name := "amqp:sasl-outcome:list"
  arity := 2
  fields es v := mandatory es 0 v.code ∧ optional es 1 v.additionalData
instance : Form SaslOutcome := ⟨composite⟩

/-- Addresses are strings here; the specification leaves their type open. -/
instance : Listed Target where
  code := 0x29
  name := "amqp:target:list"
  arity := 7
  fields es v := optional es 0 v.address ∧ defaulted es 1 .none v.durable ∧ defaulted es 2 .sessionEnd v.expiryPolicy ∧
    defaulted es 3 0 v.timeout ∧ defaulted es 4 false v.dynamic ∧ optional es 5 v.dynamicNodeProperties ∧
    optional es 6 v.capabilities
instance : Form Target := ⟨composite⟩

instance : Listed Header where
  code := 0x70
  name := "amqp:header:list"
  arity := 5
  fields es v := defaulted es 0 false v.durable ∧ defaulted es 1 4 v.priority ∧ optional es 2 v.ttl ∧
    defaulted es 3 false v.firstAcquirer ∧ defaulted es 4 0 v.deliveryCount
instance : Form Header := ⟨composite⟩

/-- Times this library reads: from the epoch on, and before it those more than a second away and not on a whole second. -/
def readableTime : Option Timestamp → Prop
  | none => True
  | some t => 0 ≤ t.secs ∨ t.secs ≤ -2 ∧ t.nanos ≠ 0

instance : Listed Properties where
  code := 0x73
  name := "amqp:properties:list"
  arity := 13
  fields es v := optional es 0 v.messageId ∧ optional es 1 v.userId ∧ optional es 2 v.to ∧ optional es 3 v.subject ∧
    optional es 4 v.replyTo ∧ optional es 5 v.correlationId ∧ optional es 6 v.contentType ∧
    optional es 7 v.contentEncoding ∧ (optional es 8 v.absoluteExpiryTime ∧ readableTime v.absoluteExpiryTime) ∧
    (optional es 9 v.creationTime ∧ readableTime v.creationTime) ∧ optional es 10 v.groupId ∧
    optional es 11 v.groupSequence ∧ optional es 12 v.replyToGroupId
instance : Form Properties := ⟨composite⟩

instance : Listed Received where
  code := 0x23
  name := "amqp:received:list"
  arity := 2
  fields es v := mandatory es 0 v.sectionNumber ∧ mandatory es 1 v.sectionOffset
instance : Form Received := ⟨composite⟩

instance : Listed Accepted where
  code := 0x24
  name := "amqp:accepted:list"
  arity := 0
  fields _ _ := True
instance : Form Accepted := ⟨composite⟩

instance : Listed Rejected where
  code := 0x25
  name := "amqp:rejected:list"
  arity := 1
  fields es v := optional es 0 v.error
instance : Form Rejected := ⟨composite⟩

instance : Listed Released where
  code := 0x26
  name := "amqp:released:list"
  arity := 0
  fields _ _ := True
instance : Form Released := ⟨composite⟩

instance : Listed Modified where
  code := 0x27
  name := "amqp:modified:list"
  arity := 3
  fields es v := optional es 0 v.deliveryFailed ∧ optional es 1 v.undeliverableHere ∧ optional es 2 v.messageAnnotations
instance : Form Modified := ⟨composite⟩

/-- One of several composite types. -/
instance : Form Outcome where
  form c w v := match v with
    | .accepted v => form c w v
    | .rejected v => form c w v
    | .released v => form c w v
    | .modified v => form c w v

instance : Form DeliveryState where
  form c w v := match v with
    | .received v => form c w v
    | .accepted v => form c w v
    | .rejected v => form c w v
    | .released v => form c w v
    | .modified v => form c w v

/-- The values of a filter set are null or strings in this library.  The specification has described values here. -/
instance : Listed Source where
  code := 0x28
  name := "amqp:source:list"
  arity := 11
  fields es v := optional es 0 v.address ∧ defaulted es 1 .none v.durable ∧ defaulted es 2 .sessionEnd v.expiryPolicy ∧
    defaulted es 3 0 v.timeout ∧ defaulted es 4 false v.dynamic ∧ optional es 5 v.dynamicNodeProperties ∧
    optional es 6 v.distributionMode ∧ optional es 7 v.filter ∧ optional es 8 v.defaultOutcome ∧ optional es 9 v.outcomes ∧
    optional es 10 v.capabilities
instance : Form Source := ⟨composite⟩

instance : Listed Attach where
  code := 0x12
  name := "amqp:attach:list"
  arity := 14
  fields es v := mandatory es 0 v.name ∧ mandatory es 1 v.handle ∧ mandatory es 2 v.role ∧
    defaulted es 3 .mixed v.sndSettleMode ∧ defaulted es 4 .first v.rcvSettleMode ∧ optional es 5 v.source ∧
    optional es 6 v.target ∧ optional es 7 v.unsettled ∧ defaulted es 8 false v.incompleteUnsettled ∧
    optional es 9 v.initialDeliveryCount ∧ optional es 10 v.maxMessageSize ∧ optional es 11 v.offeredCapabilities ∧
    optional es 12 v.desiredCapabilities ∧ optional es 13 v.properties
instance : Form Attach := ⟨composite⟩

instance : Listed Disposition where
  code := 0x15
  name := "amqp:disposition:list"
  arity := 6
  fields es v := mandatory es 0 v.role ∧ mandatory es 1 v.first ∧ optional es 2 v.last ∧ defaulted es 3 false v.settled ∧
    optional es 4 v.state ∧ defaulted es 5 false v.batchable
instance : Form Disposition := ⟨composite⟩

instance : Listed TransferHead where
  code := 0x14
  name := "amqp:transfer:list"
  arity := 11
  fields es v := mandatory es 0 v.handle ∧ optional es 1 v.deliveryId ∧ optional es 2 v.deliveryTag ∧
    optional es 3 v.messageFormat ∧ optional es 4 v.settled ∧ defaulted es 5 false v.more ∧ optional es 6 v.rcvSettleMode ∧
    optional es 7 v.state ∧ defaulted es 8 false v.resume ∧ defaulted es 9 false v.aborted ∧
    defaulted es 10 false v.batchable
instance : Form TransferHead := ⟨composite⟩

instance : Form SaslFrameBody where
  form c w v := match v with
    | .saslMechanisms v => form c w v
    | .saslInit v => form c w v
    | .saslChallenge v => form c w v
    | .saslResponse v => form c w v
    | .saslOutcome v => form c w v

/-! ## Frames -/

/-- `Value b v`: the bytes `b`, constructor included, denote `v`. -/
def Value [Form α] (b : Bytes) (v : α) : Prop := ∃ c w, b = c :: w ∧ form c w v

/-- The body of an AMQP frame: nothing, or a performative; after a transfer comes the payload. -/
def performative (b : Bytes) : Frame → Prop
  | .open_ v => Value b v
  | .begin_ v => Value b v
  | .attach v => Value b v
  | .flow v => Value b v
  | .transfer t => ∃ head payload, b = head ++ payload ∧ Value head t.head ∧
      t.body = if payload = [] then none else some (.data payload)
  | .disposition v => Value b v
  | .detach v => Value b v
  | .end_ v => Value b v
  | .close v => Value b v
  | .empty => b = []

/-- A frame: its size, the data offset in four-byte words, the type, two bytes specific to the type, the extended header,
the body. -/
def frame (type : UInt8) (channel : Nat) (b body : Bytes) : Prop :=
  ∃ size doff ch ext, b = size ++ doff :: type :: ch ++ ext ++ body ∧ size.length = 4 ∧ unsigned size = b.length ∧
    ch.length = 2 ∧ unsigned ch = channel ∧ 8 + ext.length = 4 * doff.toNat

/-- The encodings of an AMQP frame. -/
def amqpFrame (b : Bytes) (f : AmqpFrame) : Prop :=
  ∃ body, frame 0 f.channel.toNat b body ∧ performative body f.performative

/-- The encodings of a SASL frame; the bytes in the place of the channel are ignored. -/
def saslFrame (b : Bytes) (f : SaslFrame) : Prop := ∃ body n, frame 1 n b body ∧ Value body f.body

/-! ## Messages -/

/-- Lists of values. -/
instance : Form VList where
  form c w v := (c = 0x45 ∧ w = [] ∧ v.items = []) ∨
    ∃ body, compounds 0xc0 0xd0 v.items.length c w body ∧ Trees body v.items

/-- A section that is not a list: its descriptor, numeric or symbolic, then the value. -/
def section_ [Form α] (code : UInt64) (name : String) (b : Bytes) (v : α) : Prop :=
  ∃ dc dw c w, b = 0 :: dc :: dw ++ c :: w ∧ form c w v ∧
    (form dc dw (Descriptor.ulong code) ∨ form dc dw (Descriptor.symbol (sym name)))

/-- At most one. -/
def maybe (p : Bytes → α → Prop) (b : Bytes) : Option α → Prop
  | none => b = []
  | some v => p b v

/-- One after the other. -/
inductive Many (p : Bytes → α → Prop) : Bytes → List α → Prop
  | nil : Many p [] []
  | cons {b v rest l} : p b v → Many p rest l → Many p (b ++ rest) (v :: l)

/-- The body of a message: data sections, or sequence sections, or one value. -/
def messageBody (b : Bytes) (v : MessageBody) : Prop :=
  v.messages = [] ∧
  ((v.sequence = [] ∧ v.value = none ∧ Many (section_ 0x75 "amqp:data:binary") b v.data) ∨
   (v.data = [] ∧ v.value = none ∧ Many (section_ 0x76 "amqp:amqp-sequence:list") b v.sequence) ∨
   (v.data = [] ∧ v.sequence = [] ∧ ∃ x, v.value = some x ∧ section_ 0x77 "amqp:amqp-value:*" b x))

/-- The encodings of a message (part 3, section 3.2): its sections in order. -/
def message (b : Bytes) (m : Message) : Prop :=
  ∃ h da ma p ap bd f, b = h ++ (da ++ (ma ++ (p ++ (ap ++ (bd ++ f))))) ∧
    maybe Value h m.header ∧
    maybe (section_ 0x71 "amqp:delivery-annotations:map") da m.deliveryAnnotations ∧
    maybe (section_ 0x72 "amqp:message-annotations:map") ma m.messageAnnotations ∧
    maybe Value p m.properties ∧
    maybe (section_ 0x74 "amqp:application-properties:map") ap m.applicationProperties ∧
    messageBody bd m.body ∧
    maybe (section_ 0x78 "amqp:footer:map") f m.footer ∧
    m.messageFormat = none ∧ m.cache = 0

end Amqp.Standard
