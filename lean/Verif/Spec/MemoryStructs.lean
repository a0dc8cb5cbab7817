import Verif.Spec.Memory
import Verif.Model.Frame
/-!
# What decoded performatives, sections, frames and messages hold

`weight` of the protocol types: one for the value itself, plus what its fields hold.  Numbers, flags and the choices of
restricted types live in the value itself and add nothing.
-/

namespace Amqp
open Weigh (weight)

instance : Weigh Bool := ⟨fun _ => 0⟩
instance : Weigh UInt8 := ⟨fun _ => 0⟩
instance : Weigh UInt16 := ⟨fun _ => 0⟩
instance : Weigh UInt32 := ⟨fun _ => 0⟩
instance : Weigh UInt64 := ⟨fun _ => 0⟩
instance : Weigh Timestamp := ⟨fun _ => 0⟩
instance : Weigh Uuid := ⟨fun _ => 0⟩
instance : Weigh Role := ⟨fun _ => 0⟩
instance : Weigh SenderSettleMode := ⟨fun _ => 0⟩
instance : Weigh ReceiverSettleMode := ⟨fun _ => 0⟩
instance : Weigh SaslCode := ⟨fun _ => 0⟩
instance : Weigh TerminusDurability := ⟨fun _ => 0⟩
instance : Weigh TerminusExpiryPolicy := ⟨fun _ => 0⟩
instance : Weigh Bytes := ⟨fun b => 1 + b.length⟩
instance [Weigh α] : Weigh (Option α) := ⟨fun o => match o with | some a => weight a | none => 0⟩
instance : Weigh ErrorCondition := ⟨fun c => match c with | .custom s => weight s | _ => 0⟩
instance : Weigh DistributionMode := ⟨fun c => match c with | .custom s => weight s | _ => 0⟩
instance : Weigh MessageId := ⟨fun c => match c with | .binary b => weight b | .string s => weight s | _ => 0⟩

instance : Weigh Error := ⟨fun x => 1 + weight x.condition + weight x.description + weight x.info⟩
instance : Weigh Open := ⟨fun x =>
  1 + weight x.containerId + weight x.hostname + weight x.maxFrameSize + weight x.channelMax + weight x.idleTimeOut + weight x.outgoingLocales + weight x.incomingLocales + weight x.offeredCapabilities + weight x.desiredCapabilities + weight x.properties⟩
instance : Weigh Begin := ⟨fun x =>
  1 + weight x.remoteChannel + weight x.nextOutgoingId + weight x.incomingWindow + weight x.outgoingWindow + weight x.handleMax + weight x.offeredCapabilities + weight x.desiredCapabilities + weight x.properties⟩
instance : Weigh Flow := ⟨fun x =>
  1 + weight x.nextIncomingId + weight x.incomingWindow + weight x.nextOutgoingId + weight x.outgoingWindow + weight x.handle + weight x.deliveryCount + weight x.linkCredit + weight x.available + weight x.drain + weight x.echo + weight x.properties⟩
instance : Weigh Detach := ⟨fun x => 1 + weight x.handle + weight x.closed + weight x.error⟩
instance : Weigh End := ⟨fun x => 1 + weight x.error⟩
instance : Weigh Close := ⟨fun x => 1 + weight x.error⟩
instance : Weigh SaslMechanisms := ⟨fun x => 1 + weight x.saslServerMechanisms⟩
instance : Weigh SaslInit := ⟨fun x => 1 + weight x.mechanism + weight x.initialResponse + weight x.hostname⟩
instance : Weigh SaslChallenge := ⟨fun x => 1 + weight x.challenge⟩
instance : Weigh SaslResponse := ⟨fun x => 1 + weight x.response⟩
instance : Weigh SaslOutcome := ⟨fun x => 1 + weight x.code + weight x.additionalData⟩
instance : Weigh Target := ⟨fun x =>
  1 + weight x.address + weight x.durable + weight x.expiryPolicy + weight x.timeout + weight x.dynamic + weight x.dynamicNodeProperties + weight x.capabilities⟩
instance : Weigh Header := ⟨fun x =>
  1 + weight x.durable + weight x.priority + weight x.ttl + weight x.firstAcquirer + weight x.deliveryCount⟩
instance : Weigh Properties := ⟨fun x =>
  1 + weight x.messageId + weight x.userId + weight x.to + weight x.subject + weight x.replyTo + weight x.correlationId + weight x.contentType + weight x.contentEncoding + weight x.absoluteExpiryTime + weight x.creationTime + weight x.groupId + weight x.groupSequence + weight x.replyToGroupId⟩
instance : Weigh Received := ⟨fun x => 1 + weight x.sectionNumber + weight x.sectionOffset⟩
instance : Weigh Accepted := ⟨fun x => 1⟩
instance : Weigh Rejected := ⟨fun x => 1 + weight x.error⟩
instance : Weigh Released := ⟨fun x => 1⟩
instance : Weigh Modified := ⟨fun x => 1 + weight x.deliveryFailed + weight x.undeliverableHere + weight x.messageAnnotations⟩
instance : Weigh Outcome := ⟨fun x => match x with
  | .accepted v => weight v
  | .rejected v => weight v
  | .released v => weight v
  | .modified v => weight v⟩
instance : Weigh DeliveryState := ⟨fun x => match x with
  | .received v => weight v
  | .accepted v => weight v
  | .rejected v => weight v
  | .released v => weight v
  | .modified v => weight v⟩
instance : Weigh Source := ⟨fun x =>
  1 + weight x.address + weight x.durable + weight x.expiryPolicy + weight x.timeout + weight x.dynamic + weight x.dynamicNodeProperties + weight x.distributionMode + weight x.filter + weight x.defaultOutcome + weight x.outcomes + weight x.capabilities⟩
instance : Weigh Attach := ⟨fun x =>
  1 + weight x.name + weight x.handle + weight x.role + weight x.sndSettleMode + weight x.rcvSettleMode + weight x.source + weight x.target + weight x.unsettled + weight x.incompleteUnsettled + weight x.initialDeliveryCount + weight x.maxMessageSize + weight x.offeredCapabilities + weight x.desiredCapabilities + weight x.properties⟩
instance : Weigh Disposition := ⟨fun x =>
  1 + weight x.role + weight x.first + weight x.last + weight x.settled + weight x.state + weight x.batchable⟩
instance : Weigh TransferHead := ⟨fun x =>
  1 + weight x.handle + weight x.deliveryId + weight x.deliveryTag + weight x.messageFormat + weight x.settled + weight x.more + weight x.rcvSettleMode + weight x.state + weight x.resume + weight x.aborted + weight x.batchable⟩
instance : Weigh SaslFrameBody := ⟨fun x => match x with
  | .saslMechanisms v => weight v
  | .saslInit v => weight v
  | .saslChallenge v => weight v
  | .saslResponse v => weight v
  | .saslOutcome v => weight v⟩

instance : Weigh Section := ⟨fun x => match x with
  | .header v => weight v
  | .deliveryAnnotations v => weight v
  | .messageAnnotations v => weight v
  | .applicationProperties v => weight v
  | .data v => weight v
  | .amqpSequence v => weight v
  | .amqpValue v => weight v
  | .footer v => weight v
  | .properties v => weight v⟩

mutual
/-- What a transfer body holds, nested messages included. -/
def TransferBody.weight : TransferBody → Nat
  | .data b => 1 + b.length
  | .message m =>
    Weigh.weight m.header + Weigh.weight m.deliveryAnnotations + Weigh.weight m.messageAnnotations + Weigh.weight m.properties +
      Weigh.weight m.applicationProperties + Weigh.weight m.footer + Weigh.weight m.body.data + Weigh.weight m.body.sequence +
      Weigh.weight m.body.value + TransferBody.weights m.body.messages
def TransferBody.weights : List TransferBody → Nat
  | [] => 0
  | t :: l => t.weight + TransferBody.weights l
end

instance : Weigh TransferBody := ⟨TransferBody.weight⟩
instance : Weigh Message := ⟨fun m => TransferBody.weight (.message m)⟩
instance : Weigh Transfer := ⟨fun t => weight t.head + weight t.body⟩
instance : Weigh Frame := ⟨fun x => match x with
  | .open_ v => weight v
  | .begin_ v => weight v
  | .attach v => weight v
  | .flow v => weight v
  | .transfer v => weight v
  | .disposition v => weight v
  | .detach v => weight v
  | .end_ v => weight v
  | .close v => weight v
  | .empty => 0⟩
instance : Weigh AmqpFrame := ⟨fun f => weight f.performative⟩
instance : Weigh SaslFrame := ⟨fun f => weight f.body⟩

end Amqp
