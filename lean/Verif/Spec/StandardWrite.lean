import Verif.Spec.StandardTypes
import Verif.Spec.Frame
/-!
# What can be written in standard form

The AMQP specification restricts two things that the Rust types do not: symbols are ASCII, and the data after a descriptor is
a value.  `Plain` says that a value keeps to that.
-/

namespace Amqp.Standard

/-- The symbols in a value are ASCII, and what it holds unparsed is standard. -/
class Plain (α : Type) where
  plain : α → Prop

export Plain (plain)

instance : Plain Bool := ⟨fun _ => True⟩
instance : Plain UInt8 := ⟨fun _ => True⟩
instance : Plain UInt16 := ⟨fun _ => True⟩
instance : Plain UInt32 := ⟨fun _ => True⟩
instance : Plain UInt64 := ⟨fun _ => True⟩
instance : Plain Timestamp := ⟨fun _ => True⟩
instance : Plain Bytes := ⟨fun _ => True⟩
instance : Plain Str := ⟨fun _ => True⟩
instance : Plain Uuid := ⟨fun _ => True⟩
instance : Plain Role := ⟨fun _ => True⟩
instance : Plain SenderSettleMode := ⟨fun _ => True⟩
instance : Plain ReceiverSettleMode := ⟨fun _ => True⟩
instance : Plain SaslCode := ⟨fun _ => True⟩
instance : Plain TerminusDurability := ⟨fun _ => True⟩
instance : Plain TerminusExpiryPolicy := ⟨fun _ => True⟩
instance : Plain MessageId := ⟨fun _ => True⟩

instance : Plain Symbol := ⟨fun s => ∀ b ∈ s.bytes, b < 128⟩
instance : Plain Variant := ⟨writable⟩

instance : Plain ErrorCondition := ⟨fun v => match v with
  | .custom s => plain s
  | _ => True⟩

instance : Plain DistributionMode := ⟨fun v => match v with
  | .custom s => plain s
  | _ => True⟩

instance [Plain α] : Plain (Option α) := ⟨fun v => match v with
  | some v => plain v
  | none => True⟩

instance [Plain κ] [Plain ν] : Plain (HMap κ ν) := ⟨fun m => ∀ e ∈ m.entries, plain e.1 ∧ plain e.2⟩
instance [Plain κ] : Plain (VecMap κ) := ⟨fun m => ∀ e ∈ m.entries, plain e.1 ∧ plain e.2⟩
instance [Plain α] : Plain (Multiple α) := ⟨fun m => ∀ v ∈ m.items, plain v⟩
instance : Plain VList := ⟨fun l => ∀ v ∈ l.items, plain v⟩

instance : Plain Error := ⟨fun v =>
  plain v.condition ∧ plain v.description ∧ plain v.info⟩
instance : Plain Open := ⟨fun v =>
  plain v.containerId ∧ plain v.hostname ∧ plain v.maxFrameSize ∧ plain v.channelMax ∧ plain v.idleTimeOut ∧
  plain v.outgoingLocales ∧ plain v.incomingLocales ∧ plain v.offeredCapabilities ∧ plain v.desiredCapabilities ∧
  plain v.properties⟩
instance : Plain Begin := ⟨fun v =>
  plain v.remoteChannel ∧ plain v.nextOutgoingId ∧ plain v.incomingWindow ∧ plain v.outgoingWindow ∧
  plain v.handleMax ∧ plain v.offeredCapabilities ∧ plain v.desiredCapabilities ∧ plain v.properties⟩
instance : Plain Flow := ⟨fun v =>
  plain v.nextIncomingId ∧ plain v.incomingWindow ∧ plain v.nextOutgoingId ∧ plain v.outgoingWindow ∧
  plain v.handle ∧ plain v.deliveryCount ∧ plain v.linkCredit ∧ plain v.available ∧ plain v.drain ∧ plain v.echo ∧
  plain v.properties⟩
instance : Plain Detach := ⟨fun v =>
  plain v.handle ∧ plain v.closed ∧ plain v.error⟩
instance : Plain End := ⟨fun v =>
  plain v.error⟩
instance : Plain Close := ⟨fun v =>
  plain v.error⟩
instance : Plain SaslMechanisms := ⟨fun v =>
  plain v.saslServerMechanisms⟩
instance : Plain SaslInit := ⟨fun v =>
  plain v.mechanism ∧ plain v.initialResponse ∧ plain v.hostname⟩
instance : Plain SaslChallenge := ⟨fun v =>
  plain v.challenge⟩
instance : Plain SaslResponse := ⟨fun v =>
  plain v.response⟩
instance : Plain SaslOutcome := ⟨fun v =>
  plain v.code ∧ plain v.additionalData⟩
instance : Plain Target := ⟨fun v =>
  plain v.address ∧ plain v.durable ∧ plain v.expiryPolicy ∧ plain v.timeout ∧ plain v.dynamic ∧
  plain v.dynamicNodeProperties ∧ plain v.capabilities⟩
instance : Plain Header := ⟨fun v =>
  plain v.durable ∧ plain v.priority ∧ plain v.ttl ∧ plain v.firstAcquirer ∧ plain v.deliveryCount⟩
instance : Plain Properties := ⟨fun v =>
  plain v.messageId ∧ plain v.userId ∧ plain v.to ∧ plain v.subject ∧ plain v.replyTo ∧ plain v.correlationId ∧
  plain v.contentType ∧ plain v.contentEncoding ∧ plain v.absoluteExpiryTime ∧ plain v.creationTime ∧
  plain v.groupId ∧ plain v.groupSequence ∧ plain v.replyToGroupId⟩
instance : Plain Received := ⟨fun v =>
  plain v.sectionNumber ∧ plain v.sectionOffset⟩
instance : Plain Accepted := ⟨fun _ => True⟩
instance : Plain Rejected := ⟨fun v =>
  plain v.error⟩
instance : Plain Released := ⟨fun _ => True⟩
instance : Plain Modified := ⟨fun v =>
  plain v.deliveryFailed ∧ plain v.undeliverableHere ∧ plain v.messageAnnotations⟩

instance : Plain Outcome := ⟨fun v => match v with
  | .accepted v => plain v
  | .rejected v => plain v
  | .released v => plain v
  | .modified v => plain v⟩

instance : Plain DeliveryState := ⟨fun v => match v with
  | .received v => plain v
  | .accepted v => plain v
  | .rejected v => plain v
  | .released v => plain v
  | .modified v => plain v⟩

instance : Plain Source := ⟨fun v =>
  plain v.address ∧ plain v.durable ∧ plain v.expiryPolicy ∧ plain v.timeout ∧ plain v.dynamic ∧
  plain v.dynamicNodeProperties ∧ plain v.distributionMode ∧ plain v.filter ∧ plain v.defaultOutcome ∧
  plain v.outcomes ∧ plain v.capabilities⟩
instance : Plain Attach := ⟨fun v =>
  plain v.name ∧ plain v.handle ∧ plain v.role ∧ plain v.sndSettleMode ∧ plain v.rcvSettleMode ∧ plain v.source ∧
  plain v.target ∧ plain v.unsettled ∧ plain v.incompleteUnsettled ∧ plain v.initialDeliveryCount ∧
  plain v.maxMessageSize ∧ plain v.offeredCapabilities ∧ plain v.desiredCapabilities ∧ plain v.properties⟩
instance : Plain Disposition := ⟨fun v =>
  plain v.role ∧ plain v.first ∧ plain v.last ∧ plain v.settled ∧ plain v.state ∧ plain v.batchable⟩
instance : Plain TransferHead := ⟨fun v =>
  plain v.handle ∧ plain v.deliveryId ∧ plain v.deliveryTag ∧ plain v.messageFormat ∧ plain v.settled ∧
  plain v.more ∧ plain v.rcvSettleMode ∧ plain v.state ∧ plain v.resume ∧ plain v.aborted ∧ plain v.batchable⟩

instance : Plain SaslFrameBody := ⟨fun v => match v with
  | .saslMechanisms v => plain v
  | .saslInit v => plain v
  | .saslChallenge v => plain v
  | .saslResponse v => plain v
  | .saslOutcome v => plain v⟩

/-- The payload of a transfer is not looked at. -/
instance : Plain Frame := ⟨fun f => match f with
  | .open_ v => plain v
  | .begin_ v => plain v
  | .attach v => plain v
  | .flow v => plain v
  | .transfer v => plain v.head
  | .disposition v => plain v
  | .detach v => plain v
  | .end_ v => plain v
  | .close v => plain v
  | .empty => True⟩

/-- Every part of a message is plain; messages inside it are not looked at. -/
structure plainMessage (m : Message) : Prop where
  header : plain m.header
  deliveryAnnotations : plain m.deliveryAnnotations
  messageAnnotations : plain m.messageAnnotations
  properties : plain m.properties
  applicationProperties : plain m.applicationProperties
  footer : plain m.footer
  sequence : ∀ s ∈ m.body.sequence, plain s
  value : plain m.body.value

/-- Every well-formed plain value of the type is written as a standard encoding of it. -/
def AlwaysWrites (α : Type) [Wire α] [WF α] [Plain α] [Form α] : Prop :=
  ∀ v : α, wf v → plain v → Value (enc v) v

end Amqp.Standard
