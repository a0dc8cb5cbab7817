-- Written by tools/gen_structs.py from the tables there.
import Verif.Model.Enums
/-!
# Composite types: performatives, delivery states, terminus types, message sections, SASL frames

Instances of the template in `Composite.lean`, one per generated struct of `codec/src/protocol/definitions.rs`.
`TransferHead` is `Transfer` without its body (see `Frame.lean`).
-/

namespace Amqp
open Dec

/-- `Error` (definitions.rs:1021-1175). -/
structure Error where
  condition : ErrorCondition
  description : Option Str
  info : Option VecSymbolMap

/-- definitions.rs:1021-1175. -/
instance : Composite Error where
  code := 29
  name := sym "amqp:error:list"
  fields x := [fld x.condition, fld x.description, fld x.info]
  decFields := do
    let condition ← req "condition"
    let description ← opt
    let info ← opt
    return { condition, description, info }

instance : Wire Error := Composite.wire Error

/-- `Open` (definitions.rs:1177-1515). -/
structure Open where
  containerId : Str
  hostname : Option Str
  maxFrameSize : UInt32
  channelMax : UInt16
  idleTimeOut : Option UInt32
  outgoingLocales : Option (Multiple Symbol)
  incomingLocales : Option (Multiple Symbol)
  offeredCapabilities : Option (Multiple Symbol)
  desiredCapabilities : Option (Multiple Symbol)
  properties : Option (HMap Symbol Variant)

/-- definitions.rs:1177-1515. -/
instance : Composite Open where
  code := 16
  name := sym "amqp:open:list"
  fields x := [fld x.containerId, fld x.hostname, fld x.maxFrameSize, fld x.channelMax, fld x.idleTimeOut, fld x.outgoingLocales, fld x.incomingLocales, fld x.offeredCapabilities, fld x.desiredCapabilities, fld x.properties]
  decFields := do
    let containerId ← req "container_id"
    let hostname ← opt
    let maxFrameSize ← dflt 4294967295
    let channelMax ← dflt 65535
    let idleTimeOut ← opt
    let outgoingLocales ← opt
    let incomingLocales ← opt
    let offeredCapabilities ← opt
    let desiredCapabilities ← opt
    let properties ← opt
    return { containerId, hostname, maxFrameSize, channelMax, idleTimeOut, outgoingLocales, incomingLocales, offeredCapabilities, desiredCapabilities, properties }

instance : Wire Open := Composite.wire Open

/-- `Begin` (definitions.rs:1517-1806). -/
structure Begin where
  remoteChannel : Option UInt16
  nextOutgoingId : UInt32
  incomingWindow : UInt32
  outgoingWindow : UInt32
  handleMax : UInt32
  offeredCapabilities : Option (Multiple Symbol)
  desiredCapabilities : Option (Multiple Symbol)
  properties : Option (HMap Symbol Variant)

/-- definitions.rs:1517-1806. -/
instance : Composite Begin where
  code := 17
  name := sym "amqp:begin:list"
  fields x := [fld x.remoteChannel, fld x.nextOutgoingId, fld x.incomingWindow, fld x.outgoingWindow, fld x.handleMax, fld x.offeredCapabilities, fld x.desiredCapabilities, fld x.properties]
  decFields := do
    let remoteChannel ← opt
    let nextOutgoingId ← req "next_outgoing_id"
    let incomingWindow ← req "incoming_window"
    let outgoingWindow ← req "outgoing_window"
    let handleMax ← dflt 4294967295
    let offeredCapabilities ← opt
    let desiredCapabilities ← opt
    let properties ← opt
    return { remoteChannel, nextOutgoingId, incomingWindow, outgoingWindow, handleMax, offeredCapabilities, desiredCapabilities, properties }

instance : Wire Begin := Composite.wire Begin

/-- `Flow` (definitions.rs:2251-2616). -/
structure Flow where
  nextIncomingId : Option UInt32
  incomingWindow : UInt32
  nextOutgoingId : UInt32
  outgoingWindow : UInt32
  handle : Option UInt32
  deliveryCount : Option UInt32
  linkCredit : Option UInt32
  available : Option UInt32
  drain : Bool
  echo : Bool
  properties : Option (HMap Symbol Variant)

/-- definitions.rs:2251-2616. -/
instance : Composite Flow where
  code := 19
  name := sym "amqp:flow:list"
  fields x := [fld x.nextIncomingId, fld x.incomingWindow, fld x.nextOutgoingId, fld x.outgoingWindow, fld x.handle, fld x.deliveryCount, fld x.linkCredit, fld x.available, fld x.drain, fld x.echo, fld x.properties]
  decFields := do
    let nextIncomingId ← opt
    let incomingWindow ← req "incoming_window"
    let nextOutgoingId ← req "next_outgoing_id"
    let outgoingWindow ← req "outgoing_window"
    let handle ← opt
    let deliveryCount ← opt
    let linkCredit ← opt
    let available ← opt
    let drain ← dflt false
    let echo ← dflt false
    let properties ← opt
    return { nextIncomingId, incomingWindow, nextOutgoingId, outgoingWindow, handle, deliveryCount, linkCredit, available, drain, echo, properties }

instance : Wire Flow := Composite.wire Flow

/-- `Detach` (definitions.rs:3232-3387). -/
structure Detach where
  handle : UInt32
  closed : Bool
  error : Option Error

/-- definitions.rs:3232-3387. -/
instance : Composite Detach where
  code := 22
  name := sym "amqp:detach:list"
  fields x := [fld x.handle, fld x.closed, fld x.error]
  decFields := do
    let handle ← req "handle"
    let closed ← dflt false
    let error ← opt
    return { handle, closed, error }

instance : Wire Detach := Composite.wire Detach

/-- `End` (definitions.rs:3389-3468). -/
structure End where
  error : Option Error

/-- definitions.rs:3389-3468. -/
instance : Composite End where
  code := 23
  name := sym "amqp:end:list"
  fields x := [fld x.error]
  decFields := do
    let error ← opt
    return { error }

instance : Wire End := Composite.wire End

/-- `Close` (definitions.rs:3470-3549). -/
structure Close where
  error : Option Error

/-- definitions.rs:3470-3549. -/
instance : Composite Close where
  code := 24
  name := sym "amqp:close:list"
  fields x := [fld x.error]
  decFields := do
    let error ← opt
    return { error }

instance : Wire Close := Composite.wire Close

/-- `SaslMechanisms` (definitions.rs:3551-3635). -/
structure SaslMechanisms where
  saslServerMechanisms : Multiple Symbol

/-- definitions.rs:3551-3635. -/
instance : Composite SaslMechanisms where
  code := 64
  name := sym "amqp:sasl-mechanisms:list"
  fields x := [fld x.saslServerMechanisms]
  decFields := do
    let saslServerMechanisms ← req "sasl_server_mechanisms"
    return { saslServerMechanisms }

instance : Wire SaslMechanisms := Composite.wire SaslMechanisms

/-- `SaslInit` (definitions.rs:3637-3761). -/
structure SaslInit where
  mechanism : Symbol
  initialResponse : Option Bytes
  hostname : Option Str

/-- definitions.rs:3637-3761. -/
instance : Composite SaslInit where
  code := 65
  name := sym "amqp:sasl-init:list"
  fields x := [fld x.mechanism, fld x.initialResponse, fld x.hostname]
  decFields := do
    let mechanism ← req "mechanism"
    let initialResponse ← opt
    let hostname ← opt
    return { mechanism, initialResponse, hostname }

instance : Wire SaslInit := Composite.wire SaslInit

/-- `SaslChallenge` (definitions.rs:3763-3843). -/
structure SaslChallenge where
  challenge : Bytes

/-- definitions.rs:3763-3843. -/
instance : Composite SaslChallenge where
  code := 66
  name := sym "amqp:sasl-challenge:list"
  fields x := [fld x.challenge]
  decFields := do
    let challenge ← req "challenge"
    return { challenge }

instance : Wire SaslChallenge := Composite.wire SaslChallenge

/-- `SaslResponse` (definitions.rs:3845-3925). -/
structure SaslResponse where
  response : Bytes

/-- definitions.rs:3845-3925. -/
instance : Composite SaslResponse where
  code := 67
  name := sym "amqp:sasl-response:list"
  fields x := [fld x.response]
  decFields := do
    let response ← req "response"
    return { response }

instance : Wire SaslResponse := Composite.wire SaslResponse

/-- `SaslOutcome` (definitions.rs:3927-4027). -/
structure SaslOutcome where
  code : SaslCode
  additionalData : Option Bytes

/-- definitions.rs:3927-4027. -/
instance : Composite SaslOutcome where
  code := 68
  name := sym "amqp:sasl-outcome:list"
  fields x := [fld x.code, fld x.additionalData]
  decFields := do
    let code ← req "code"
    let additionalData ← opt
    return { code, additionalData }

instance : Wire SaslOutcome := Composite.wire SaslOutcome

/-- `Target` (definitions.rs:4318-4525). -/
structure Target where
  address : Option Str
  durable : TerminusDurability
  expiryPolicy : TerminusExpiryPolicy
  timeout : UInt32
  dynamic : Bool
  dynamicNodeProperties : Option (HMap Symbol Variant)
  capabilities : Option (Multiple Symbol)

/-- definitions.rs:4318-4525. -/
instance : Composite Target where
  code := 41
  name := sym "amqp:target:list"
  fields x := [fld x.address, fld x.durable, fld x.expiryPolicy, fld x.timeout, fld x.dynamic, fld x.dynamicNodeProperties, fld x.capabilities]
  decFields := do
    let address ← opt
    let durable ← dflt .none
    let expiryPolicy ← dflt .sessionEnd
    let timeout ← dflt 0
    let dynamic ← dflt false
    let dynamicNodeProperties ← opt
    let capabilities ← opt
    return { address, durable, expiryPolicy, timeout, dynamic, dynamicNodeProperties, capabilities }

instance : Wire Target := Composite.wire Target

/-- `Header` (definitions.rs:4527-4694). -/
structure Header where
  durable : Bool
  priority : UInt8
  ttl : Option UInt32
  firstAcquirer : Bool
  deliveryCount : UInt32

/-- definitions.rs:4527-4694. -/
instance : Composite Header where
  code := 112
  name := sym "amqp:header:list"
  fields x := [fld x.durable, fld x.priority, fld x.ttl, fld x.firstAcquirer, fld x.deliveryCount]
  decFields := do
    let durable ← dflt false
    let priority ← dflt 4
    let ttl ← opt
    let firstAcquirer ← dflt false
    let deliveryCount ← dflt 0
    return { durable, priority, ttl, firstAcquirer, deliveryCount }

instance : Wire Header := Composite.wire Header

/-- `Properties` (definitions.rs:4696-5019). -/
structure Properties where
  messageId : Option MessageId
  userId : Option Bytes
  to : Option Str
  subject : Option Str
  replyTo : Option Str
  correlationId : Option MessageId
  contentType : Option Symbol
  contentEncoding : Option Symbol
  absoluteExpiryTime : Option Timestamp
  creationTime : Option Timestamp
  groupId : Option Str
  groupSequence : Option UInt32
  replyToGroupId : Option Str

/-- definitions.rs:4696-5019. -/
instance : Composite Properties where
  code := 115
  name := sym "amqp:properties:list"
  fields x := [fld x.messageId, fld x.userId, fld x.to, fld x.subject, fld x.replyTo, fld x.correlationId, fld x.contentType, fld x.contentEncoding, fld x.absoluteExpiryTime, fld x.creationTime, fld x.groupId, fld x.groupSequence, fld x.replyToGroupId]
  decFields := do
    let messageId ← opt
    let userId ← opt
    let to ← opt
    let subject ← opt
    let replyTo ← opt
    let correlationId ← opt
    let contentType ← opt
    let contentEncoding ← opt
    let absoluteExpiryTime ← opt
    let creationTime ← opt
    let groupId ← opt
    let groupSequence ← opt
    let replyToGroupId ← opt
    return { messageId, userId, to, subject, replyTo, correlationId, contentType, contentEncoding, absoluteExpiryTime, creationTime, groupId, groupSequence, replyToGroupId }

instance : Wire Properties := Composite.wire Properties

/-- `Received` (definitions.rs:5021-5122). -/
structure Received where
  sectionNumber : UInt32
  sectionOffset : UInt64

/-- definitions.rs:5021-5122. -/
instance : Composite Received where
  code := 35
  name := sym "amqp:received:list"
  fields x := [fld x.sectionNumber, fld x.sectionOffset]
  decFields := do
    let sectionNumber ← req "section_number"
    let sectionOffset ← req "section_offset"
    return { sectionNumber, sectionOffset }

instance : Wire Received := Composite.wire Received

/-- `Accepted` (definitions.rs:5124-5184). -/
structure Accepted where

/-- definitions.rs:5124-5184. -/
instance : Composite Accepted where
  code := 36
  name := sym "amqp:accepted:list"
  fields _ := []
  decFields := do
    return {}

instance : Wire Accepted := Composite.wire Accepted

/-- `Rejected` (definitions.rs:5186-5265). -/
structure Rejected where
  error : Option Error

/-- definitions.rs:5186-5265. -/
instance : Composite Rejected where
  code := 37
  name := sym "amqp:rejected:list"
  fields x := [fld x.error]
  decFields := do
    let error ← opt
    return { error }

instance : Wire Rejected := Composite.wire Rejected

/-- `Released` (definitions.rs:5267-5327). -/
structure Released where

/-- definitions.rs:5267-5327. -/
instance : Composite Released where
  code := 38
  name := sym "amqp:released:list"
  fields _ := []
  decFields := do
    return {}

instance : Wire Released := Composite.wire Released

/-- `Modified` (definitions.rs:5329-5500). -/
structure Modified where
  deliveryFailed : Option Bool
  undeliverableHere : Option Bool
  messageAnnotations : Option VecSymbolMap

/-- definitions.rs:5329-5500. -/
instance : Composite Modified where
  code := 39
  name := sym "amqp:modified:list"
  fields x := [fld x.deliveryFailed, fld x.undeliverableHere, fld x.messageAnnotations]
  decFields := do
    let deliveryFailed ← opt
    let undeliverableHere ← opt
    let messageAnnotations ← opt
    return { deliveryFailed, undeliverableHere, messageAnnotations }

instance : Wire Modified := Composite.wire Modified

/-- `Outcome` (definitions.rs:172-220). -/
inductive Outcome where
  | accepted (v : Accepted)
  | rejected (v : Rejected)
  | released (v : Released)
  | modified (v : Modified)

/-- definitions.rs:172-220: the descriptor, by code or by name, selects the alternative. -/
def Outcome.decodeF (fmt : UInt8) : Dec Outcome :=
  if fmt = FC.described then do
    let d ← (dec : Dec Descriptor)
    if Composite.isMine Accepted d then return .accepted (← Composite.decInner)
    else if Composite.isMine Rejected d then return .rejected (← Composite.decInner)
    else if Composite.isMine Released d then return .released (← Composite.decInner)
    else if Composite.isMine Modified d then return .modified (← Composite.decInner)
    else fail (.invalidDescriptor d)
  else fail (.invalidFormatCode fmt)

instance : Wire Outcome where
  enc x := match x with
    | .accepted v => enc v
    | .rejected v => enc v
    | .released v => enc v
    | .modified v => enc v
  size x := match x with
    | .accepted v => size v
    | .rejected v => size v
    | .released v => size v
    | .modified v => size v
  decF := Outcome.decodeF

/-- `DeliveryState` (definitions.rs:114-170). -/
inductive DeliveryState where
  | received (v : Received)
  | accepted (v : Accepted)
  | rejected (v : Rejected)
  | released (v : Released)
  | modified (v : Modified)

/-- definitions.rs:114-170: the descriptor, by code or by name, selects the alternative. -/
def DeliveryState.decodeF (fmt : UInt8) : Dec DeliveryState :=
  if fmt = FC.described then do
    let d ← (dec : Dec Descriptor)
    if Composite.isMine Received d then return .received (← Composite.decInner)
    else if Composite.isMine Accepted d then return .accepted (← Composite.decInner)
    else if Composite.isMine Rejected d then return .rejected (← Composite.decInner)
    else if Composite.isMine Released d then return .released (← Composite.decInner)
    else if Composite.isMine Modified d then return .modified (← Composite.decInner)
    else fail (.invalidDescriptor d)
  else fail (.invalidFormatCode fmt)

instance : Wire DeliveryState where
  enc x := match x with
    | .received v => enc v
    | .accepted v => enc v
    | .rejected v => enc v
    | .released v => enc v
    | .modified v => enc v
  size x := match x with
    | .received v => size v
    | .accepted v => size v
    | .rejected v => size v
    | .released v => size v
    | .modified v => size v
  decF := DeliveryState.decodeF

/-- `Source` (definitions.rs:4029-4316). -/
structure Source where
  address : Option Str
  durable : TerminusDurability
  expiryPolicy : TerminusExpiryPolicy
  timeout : UInt32
  dynamic : Bool
  dynamicNodeProperties : Option (HMap Symbol Variant)
  distributionMode : Option DistributionMode
  filter : Option (HMap Symbol (Option Str))
  defaultOutcome : Option Outcome
  outcomes : Option (Multiple Symbol)
  capabilities : Option (Multiple Symbol)

/-- definitions.rs:4029-4316. -/
instance : Composite Source where
  code := 40
  name := sym "amqp:source:list"
  fields x := [fld x.address, fld x.durable, fld x.expiryPolicy, fld x.timeout, fld x.dynamic, fld x.dynamicNodeProperties, fld x.distributionMode, fld x.filter, fld x.defaultOutcome, fld x.outcomes, fld x.capabilities]
  decFields := do
    let address ← opt
    let durable ← dflt .none
    let expiryPolicy ← dflt .sessionEnd
    let timeout ← dflt 0
    let dynamic ← dflt false
    let dynamicNodeProperties ← opt
    let distributionMode ← opt
    let filter ← opt
    let defaultOutcome ← opt
    let outcomes ← opt
    let capabilities ← opt
    return { address, durable, expiryPolicy, timeout, dynamic, dynamicNodeProperties, distributionMode, filter, defaultOutcome, outcomes, capabilities }

instance : Wire Source := Composite.wire Source

/-- `Attach` (definitions.rs:1808-2249). -/
structure Attach where
  name : Str
  handle : UInt32
  role : Role
  sndSettleMode : SenderSettleMode
  rcvSettleMode : ReceiverSettleMode
  source : Option Source
  target : Option Target
  unsettled : Option (HMap Variant Variant)
  incompleteUnsettled : Bool
  initialDeliveryCount : Option UInt32
  maxMessageSize : Option UInt64
  offeredCapabilities : Option (Multiple Symbol)
  desiredCapabilities : Option (Multiple Symbol)
  properties : Option (HMap Symbol Variant)

/-- definitions.rs:1808-2249. -/
instance : Composite Attach where
  code := 18
  name := sym "amqp:attach:list"
  fields x := [fld x.name, fld x.handle, fld x.role, fld x.sndSettleMode, fld x.rcvSettleMode, fld x.source, fld x.target, fld x.unsettled, fld x.incompleteUnsettled, fld x.initialDeliveryCount, fld x.maxMessageSize, fld x.offeredCapabilities, fld x.desiredCapabilities, fld x.properties]
  decFields := do
    let name ← req "name"
    let handle ← req "handle"
    let role ← req "role"
    let sndSettleMode ← dflt .mixed
    let rcvSettleMode ← dflt .first
    let source ← opt
    let target ← opt
    let unsettled ← opt
    let incompleteUnsettled ← dflt false
    let initialDeliveryCount ← opt
    let maxMessageSize ← opt
    let offeredCapabilities ← opt
    let desiredCapabilities ← opt
    let properties ← opt
    return { name, handle, role, sndSettleMode, rcvSettleMode, source, target, unsettled, incompleteUnsettled, initialDeliveryCount, maxMessageSize, offeredCapabilities, desiredCapabilities, properties }

instance : Wire Attach := Composite.wire Attach

/-- `Disposition` (definitions.rs:2998-3230). -/
structure Disposition where
  role : Role
  first : UInt32
  last : Option UInt32
  settled : Bool
  state : Option DeliveryState
  batchable : Bool

/-- definitions.rs:2998-3230. -/
instance : Composite Disposition where
  code := 21
  name := sym "amqp:disposition:list"
  fields x := [fld x.role, fld x.first, fld x.last, fld x.settled, fld x.state, fld x.batchable]
  decFields := do
    let role ← req "role"
    let first ← req "first"
    let last ← opt
    let settled ← dflt false
    let state ← opt
    let batchable ← dflt false
    return { role, first, last, settled, state, batchable }

instance : Wire Disposition := Composite.wire Disposition

/-- `TransferHead` (definitions.rs:2618-2996). -/
structure TransferHead where
  handle : UInt32
  deliveryId : Option UInt32
  deliveryTag : Option Bytes
  messageFormat : Option UInt32
  settled : Option Bool
  more : Bool
  rcvSettleMode : Option ReceiverSettleMode
  state : Option DeliveryState
  resume : Bool
  aborted : Bool
  batchable : Bool

/-- definitions.rs:2618-2996. -/
instance : Composite TransferHead where
  code := 20
  name := sym "amqp:transfer:list"
  fields x := [fld x.handle, fld x.deliveryId, fld x.deliveryTag, fld x.messageFormat, fld x.settled, fld x.more, fld x.rcvSettleMode, fld x.state, fld x.resume, fld x.aborted, fld x.batchable]
  decFields := do
    let handle ← req "handle"
    let deliveryId ← opt
    let deliveryTag ← opt
    let messageFormat ← opt
    let settled ← opt
    let more ← dflt false
    let rcvSettleMode ← opt
    let state ← opt
    let resume ← dflt false
    let aborted ← dflt false
    let batchable ← dflt false
    return { handle, deliveryId, deliveryTag, messageFormat, settled, more, rcvSettleMode, state, resume, aborted, batchable }

instance : Wire TransferHead := Composite.wire TransferHead

/-- `SaslFrameBody` (definitions.rs:312-376). -/
inductive SaslFrameBody where
  | saslMechanisms (v : SaslMechanisms)
  | saslInit (v : SaslInit)
  | saslChallenge (v : SaslChallenge)
  | saslResponse (v : SaslResponse)
  | saslOutcome (v : SaslOutcome)

/-- definitions.rs:312-376: the descriptor, by code or by name, selects the alternative. -/
def SaslFrameBody.decodeF (fmt : UInt8) : Dec SaslFrameBody :=
  if fmt = FC.described then do
    let d ← (dec : Dec Descriptor)
    if Composite.isMine SaslMechanisms d then return .saslMechanisms (← Composite.decInner)
    else if Composite.isMine SaslInit d then return .saslInit (← Composite.decInner)
    else if Composite.isMine SaslChallenge d then return .saslChallenge (← Composite.decInner)
    else if Composite.isMine SaslResponse d then return .saslResponse (← Composite.decInner)
    else if Composite.isMine SaslOutcome d then return .saslOutcome (← Composite.decInner)
    else fail (.invalidDescriptor d)
  else fail (.invalidFormatCode fmt)

instance : Wire SaslFrameBody where
  enc x := match x with
    | .saslMechanisms v => enc v
    | .saslInit v => enc v
    | .saslChallenge v => enc v
    | .saslResponse v => enc v
    | .saslOutcome v => enc v
  size x := match x with
    | .saslMechanisms v => size v
    | .saslInit v => size v
    | .saslChallenge v => size v
    | .saslResponse v => size v
    | .saslOutcome v => size v
  decF := SaslFrameBody.decodeF

end Amqp
