-- Written by tools/gen_structs.py from the tables there.
import Verif.Spec.Compound
import Verif.Spec.Composite
import Verif.Model.Structs
/-!
Well-formedness of enumerations and composite types, and what a composite type decodes to when only its first `k`
fields are on the wire.
-/

namespace Amqp

instance : WF Role := ⟨fun _ => True⟩
instance : WF SenderSettleMode := ⟨fun _ => True⟩
instance : WF ReceiverSettleMode := ⟨fun _ => True⟩
instance : WF AmqpError := ⟨fun _ => True⟩
instance : WF ConnectionError := ⟨fun _ => True⟩
instance : WF SessionError := ⟨fun _ => True⟩
instance : WF LinkError := ⟨fun _ => True⟩
instance : WF SaslCode := ⟨fun _ => True⟩
instance : WF TerminusDurability := ⟨fun _ => True⟩
instance : WF TerminusExpiryPolicy := ⟨fun _ => True⟩

/-- A custom condition must not be one of the well-known ones (those are their own values). -/
instance : WF ErrorCondition := ⟨fun x => match x with
  | .custom s => wf s ∧ (∀ e : AmqpError, s ≠ e.toBase) ∧ (∀ e : ConnectionError, s ≠ e.toBase) ∧
      (∀ e : SessionError, s ≠ e.toBase) ∧ (∀ e : LinkError, s ≠ e.toBase)
  | _ => True⟩

instance : WF DistributionMode := ⟨fun x => match x with
  | .custom s => wf s ∧ s ≠ sym "move" ∧ s ≠ sym "copy"
  | _ => True⟩

instance : WF MessageId := ⟨fun x => match x with
  | .binary b => wf b
  | .string s => wf s
  | _ => True⟩

instance : WF Error := ⟨fun x =>
  wf x.condition ∧ wf x.description ∧ wf x.info ∧ (Composite.content x).length + 4 < U32⟩

instance : Layout Error where
  descriptorCode := 29
  descriptorName := "amqp:error:list"
  fieldBytes x := [enc x.condition, enc x.description, enc x.info]
  mandatory := [(0, "condition")]
  keepFields keep x :=
    { condition := x.condition,
      description := if keep 1 then x.description else none,
      info := if keep 2 then x.info else none }

instance : WF Open := ⟨fun x =>
  wf x.containerId ∧ wf x.hostname ∧ wf x.maxFrameSize ∧ wf x.channelMax ∧ wf x.idleTimeOut ∧ wf x.outgoingLocales ∧ wf x.incomingLocales ∧ wf x.offeredCapabilities ∧ wf x.desiredCapabilities ∧ wf x.properties ∧ (Composite.content x).length + 4 < U32⟩

instance : Layout Open where
  descriptorCode := 16
  descriptorName := "amqp:open:list"
  fieldBytes x := [enc x.containerId, enc x.hostname, enc x.maxFrameSize, enc x.channelMax, enc x.idleTimeOut, enc x.outgoingLocales, enc x.incomingLocales, enc x.offeredCapabilities, enc x.desiredCapabilities, enc x.properties]
  mandatory := [(0, "container_id")]
  keepFields keep x :=
    { containerId := x.containerId,
      hostname := if keep 1 then x.hostname else none,
      maxFrameSize := if keep 2 then x.maxFrameSize else 4294967295,
      channelMax := if keep 3 then x.channelMax else 65535,
      idleTimeOut := if keep 4 then x.idleTimeOut else none,
      outgoingLocales := if keep 5 then x.outgoingLocales else none,
      incomingLocales := if keep 6 then x.incomingLocales else none,
      offeredCapabilities := if keep 7 then x.offeredCapabilities else none,
      desiredCapabilities := if keep 8 then x.desiredCapabilities else none,
      properties := if keep 9 then x.properties else none }

instance : WF Begin := ⟨fun x =>
  wf x.remoteChannel ∧ wf x.nextOutgoingId ∧ wf x.incomingWindow ∧ wf x.outgoingWindow ∧ wf x.handleMax ∧ wf x.offeredCapabilities ∧ wf x.desiredCapabilities ∧ wf x.properties ∧ (Composite.content x).length + 4 < U32⟩

instance : Layout Begin where
  descriptorCode := 17
  descriptorName := "amqp:begin:list"
  fieldBytes x := [enc x.remoteChannel, enc x.nextOutgoingId, enc x.incomingWindow, enc x.outgoingWindow, enc x.handleMax, enc x.offeredCapabilities, enc x.desiredCapabilities, enc x.properties]
  mandatory := [(1, "next_outgoing_id"), (2, "incoming_window"), (3, "outgoing_window")]
  keepFields keep x :=
    { remoteChannel := if keep 0 then x.remoteChannel else none,
      nextOutgoingId := x.nextOutgoingId,
      incomingWindow := x.incomingWindow,
      outgoingWindow := x.outgoingWindow,
      handleMax := if keep 4 then x.handleMax else 4294967295,
      offeredCapabilities := if keep 5 then x.offeredCapabilities else none,
      desiredCapabilities := if keep 6 then x.desiredCapabilities else none,
      properties := if keep 7 then x.properties else none }

instance : WF Flow := ⟨fun x =>
  wf x.nextIncomingId ∧ wf x.incomingWindow ∧ wf x.nextOutgoingId ∧ wf x.outgoingWindow ∧ wf x.handle ∧ wf x.deliveryCount ∧ wf x.linkCredit ∧ wf x.available ∧ wf x.drain ∧ wf x.echo ∧ wf x.properties ∧ (Composite.content x).length + 4 < U32⟩

instance : Layout Flow where
  descriptorCode := 19
  descriptorName := "amqp:flow:list"
  fieldBytes x := [enc x.nextIncomingId, enc x.incomingWindow, enc x.nextOutgoingId, enc x.outgoingWindow, enc x.handle, enc x.deliveryCount, enc x.linkCredit, enc x.available, enc x.drain, enc x.echo, enc x.properties]
  mandatory := [(1, "incoming_window"), (2, "next_outgoing_id"), (3, "outgoing_window")]
  keepFields keep x :=
    { nextIncomingId := if keep 0 then x.nextIncomingId else none,
      incomingWindow := x.incomingWindow,
      nextOutgoingId := x.nextOutgoingId,
      outgoingWindow := x.outgoingWindow,
      handle := if keep 4 then x.handle else none,
      deliveryCount := if keep 5 then x.deliveryCount else none,
      linkCredit := if keep 6 then x.linkCredit else none,
      available := if keep 7 then x.available else none,
      drain := if keep 8 then x.drain else false,
      echo := if keep 9 then x.echo else false,
      properties := if keep 10 then x.properties else none }

instance : WF Detach := ⟨fun x =>
  wf x.handle ∧ wf x.closed ∧ wf x.error ∧ (Composite.content x).length + 4 < U32⟩

instance : Layout Detach where
  descriptorCode := 22
  descriptorName := "amqp:detach:list"
  fieldBytes x := [enc x.handle, enc x.closed, enc x.error]
  mandatory := [(0, "handle")]
  keepFields keep x :=
    { handle := x.handle,
      closed := if keep 1 then x.closed else false,
      error := if keep 2 then x.error else none }

instance : WF End := ⟨fun x =>
  wf x.error ∧ (Composite.content x).length + 4 < U32⟩

instance : Layout End where
  descriptorCode := 23
  descriptorName := "amqp:end:list"
  fieldBytes x := [enc x.error]
  mandatory := []
  keepFields keep x :=
    { error := if keep 0 then x.error else none }

instance : WF Close := ⟨fun x =>
  wf x.error ∧ (Composite.content x).length + 4 < U32⟩

instance : Layout Close where
  descriptorCode := 24
  descriptorName := "amqp:close:list"
  fieldBytes x := [enc x.error]
  mandatory := []
  keepFields keep x :=
    { error := if keep 0 then x.error else none }

instance : WF SaslMechanisms := ⟨fun x =>
  wf x.saslServerMechanisms ∧ (Composite.content x).length + 4 < U32⟩

instance : Layout SaslMechanisms where
  descriptorCode := 64
  descriptorName := "amqp:sasl-mechanisms:list"
  fieldBytes x := [enc x.saslServerMechanisms]
  mandatory := [(0, "sasl_server_mechanisms")]
  keepFields _ x := x

instance : WF SaslInit := ⟨fun x =>
  wf x.mechanism ∧ wf x.initialResponse ∧ wf x.hostname ∧ (Composite.content x).length + 4 < U32⟩

instance : Layout SaslInit where
  descriptorCode := 65
  descriptorName := "amqp:sasl-init:list"
  fieldBytes x := [enc x.mechanism, enc x.initialResponse, enc x.hostname]
  mandatory := [(0, "mechanism")]
  keepFields keep x :=
    { mechanism := x.mechanism,
      initialResponse := if keep 1 then x.initialResponse else none,
      hostname := if keep 2 then x.hostname else none }

instance : WF SaslChallenge := ⟨fun x =>
  wf x.challenge ∧ (Composite.content x).length + 4 < U32⟩

instance : Layout SaslChallenge where
  descriptorCode := 66
  descriptorName := "amqp:sasl-challenge:list"
  fieldBytes x := [enc x.challenge]
  mandatory := [(0, "challenge")]
  keepFields _ x := x

instance : WF SaslResponse := ⟨fun x =>
  wf x.response ∧ (Composite.content x).length + 4 < U32⟩

instance : Layout SaslResponse where
  descriptorCode := 67
  descriptorName := "amqp:sasl-response:list"
  fieldBytes x := [enc x.response]
  mandatory := [(0, "response")]
  keepFields _ x := x

instance : WF SaslOutcome := ⟨fun x =>
  wf x.code ∧ wf x.additionalData ∧ (Composite.content x).length + 4 < U32⟩

instance : Layout SaslOutcome where
  descriptorCode := 68
  descriptorName := "amqp:sasl-outcome:list"
  fieldBytes x := [enc x.code, enc x.additionalData]
  mandatory := [(0, "code")]
  keepFields keep x :=
    { code := x.code,
      additionalData := if keep 1 then x.additionalData else none }

instance : WF Target := ⟨fun x =>
  wf x.address ∧ wf x.durable ∧ wf x.expiryPolicy ∧ wf x.timeout ∧ wf x.dynamic ∧ wf x.dynamicNodeProperties ∧ wf x.capabilities ∧ (Composite.content x).length + 4 < U32⟩

instance : Layout Target where
  descriptorCode := 41
  descriptorName := "amqp:target:list"
  fieldBytes x := [enc x.address, enc x.durable, enc x.expiryPolicy, enc x.timeout, enc x.dynamic, enc x.dynamicNodeProperties, enc x.capabilities]
  mandatory := []
  keepFields keep x :=
    { address := if keep 0 then x.address else none,
      durable := if keep 1 then x.durable else .none,
      expiryPolicy := if keep 2 then x.expiryPolicy else .sessionEnd,
      timeout := if keep 3 then x.timeout else 0,
      dynamic := if keep 4 then x.dynamic else false,
      dynamicNodeProperties := if keep 5 then x.dynamicNodeProperties else none,
      capabilities := if keep 6 then x.capabilities else none }

instance : WF Header := ⟨fun x =>
  wf x.durable ∧ wf x.priority ∧ wf x.ttl ∧ wf x.firstAcquirer ∧ wf x.deliveryCount ∧ (Composite.content x).length + 4 < U32⟩

instance : Layout Header where
  descriptorCode := 112
  descriptorName := "amqp:header:list"
  fieldBytes x := [enc x.durable, enc x.priority, enc x.ttl, enc x.firstAcquirer, enc x.deliveryCount]
  mandatory := []
  keepFields keep x :=
    { durable := if keep 0 then x.durable else false,
      priority := if keep 1 then x.priority else 4,
      ttl := if keep 2 then x.ttl else none,
      firstAcquirer := if keep 3 then x.firstAcquirer else false,
      deliveryCount := if keep 4 then x.deliveryCount else 0 }

instance : WF Properties := ⟨fun x =>
  wf x.messageId ∧ wf x.userId ∧ wf x.to ∧ wf x.subject ∧ wf x.replyTo ∧ wf x.correlationId ∧ wf x.contentType ∧ wf x.contentEncoding ∧ wf x.absoluteExpiryTime ∧ wf x.creationTime ∧ wf x.groupId ∧ wf x.groupSequence ∧ wf x.replyToGroupId ∧ (Composite.content x).length + 4 < U32⟩

instance : Layout Properties where
  descriptorCode := 115
  descriptorName := "amqp:properties:list"
  fieldBytes x := [enc x.messageId, enc x.userId, enc x.to, enc x.subject, enc x.replyTo, enc x.correlationId, enc x.contentType, enc x.contentEncoding, enc x.absoluteExpiryTime, enc x.creationTime, enc x.groupId, enc x.groupSequence, enc x.replyToGroupId]
  mandatory := []
  keepFields keep x :=
    { messageId := if keep 0 then x.messageId else none,
      userId := if keep 1 then x.userId else none,
      to := if keep 2 then x.to else none,
      subject := if keep 3 then x.subject else none,
      replyTo := if keep 4 then x.replyTo else none,
      correlationId := if keep 5 then x.correlationId else none,
      contentType := if keep 6 then x.contentType else none,
      contentEncoding := if keep 7 then x.contentEncoding else none,
      absoluteExpiryTime := if keep 8 then x.absoluteExpiryTime else none,
      creationTime := if keep 9 then x.creationTime else none,
      groupId := if keep 10 then x.groupId else none,
      groupSequence := if keep 11 then x.groupSequence else none,
      replyToGroupId := if keep 12 then x.replyToGroupId else none }

instance : WF Received := ⟨fun x =>
  wf x.sectionNumber ∧ wf x.sectionOffset ∧ (Composite.content x).length + 4 < U32⟩

instance : Layout Received where
  descriptorCode := 35
  descriptorName := "amqp:received:list"
  fieldBytes x := [enc x.sectionNumber, enc x.sectionOffset]
  mandatory := [(0, "section_number"), (1, "section_offset")]
  keepFields _ x := x

instance : WF Accepted := ⟨fun x =>
  (Composite.content x).length + 4 < U32⟩

instance : Layout Accepted where
  descriptorCode := 36
  descriptorName := "amqp:accepted:list"
  fieldBytes _ := []
  mandatory := []
  keepFields _ x := x

instance : WF Rejected := ⟨fun x =>
  wf x.error ∧ (Composite.content x).length + 4 < U32⟩

instance : Layout Rejected where
  descriptorCode := 37
  descriptorName := "amqp:rejected:list"
  fieldBytes x := [enc x.error]
  mandatory := []
  keepFields keep x :=
    { error := if keep 0 then x.error else none }

instance : WF Released := ⟨fun x =>
  (Composite.content x).length + 4 < U32⟩

instance : Layout Released where
  descriptorCode := 38
  descriptorName := "amqp:released:list"
  fieldBytes _ := []
  mandatory := []
  keepFields _ x := x

instance : WF Modified := ⟨fun x =>
  wf x.deliveryFailed ∧ wf x.undeliverableHere ∧ wf x.messageAnnotations ∧ (Composite.content x).length + 4 < U32⟩

instance : Layout Modified where
  descriptorCode := 39
  descriptorName := "amqp:modified:list"
  fieldBytes x := [enc x.deliveryFailed, enc x.undeliverableHere, enc x.messageAnnotations]
  mandatory := []
  keepFields keep x :=
    { deliveryFailed := if keep 0 then x.deliveryFailed else none,
      undeliverableHere := if keep 1 then x.undeliverableHere else none,
      messageAnnotations := if keep 2 then x.messageAnnotations else none }

instance : WF Outcome := ⟨fun x => match x with
  | .accepted v => wf v
  | .rejected v => wf v
  | .released v => wf v
  | .modified v => wf v⟩

instance : WF DeliveryState := ⟨fun x => match x with
  | .received v => wf v
  | .accepted v => wf v
  | .rejected v => wf v
  | .released v => wf v
  | .modified v => wf v⟩

instance : WF Source := ⟨fun x =>
  wf x.address ∧ wf x.durable ∧ wf x.expiryPolicy ∧ wf x.timeout ∧ wf x.dynamic ∧ wf x.dynamicNodeProperties ∧ wf x.distributionMode ∧ wf x.filter ∧ wf x.defaultOutcome ∧ wf x.outcomes ∧ wf x.capabilities ∧ (Composite.content x).length + 4 < U32⟩

instance : Layout Source where
  descriptorCode := 40
  descriptorName := "amqp:source:list"
  fieldBytes x := [enc x.address, enc x.durable, enc x.expiryPolicy, enc x.timeout, enc x.dynamic, enc x.dynamicNodeProperties, enc x.distributionMode, enc x.filter, enc x.defaultOutcome, enc x.outcomes, enc x.capabilities]
  mandatory := []
  keepFields keep x :=
    { address := if keep 0 then x.address else none,
      durable := if keep 1 then x.durable else .none,
      expiryPolicy := if keep 2 then x.expiryPolicy else .sessionEnd,
      timeout := if keep 3 then x.timeout else 0,
      dynamic := if keep 4 then x.dynamic else false,
      dynamicNodeProperties := if keep 5 then x.dynamicNodeProperties else none,
      distributionMode := if keep 6 then x.distributionMode else none,
      filter := if keep 7 then x.filter else none,
      defaultOutcome := if keep 8 then x.defaultOutcome else none,
      outcomes := if keep 9 then x.outcomes else none,
      capabilities := if keep 10 then x.capabilities else none }

instance : WF Attach := ⟨fun x =>
  wf x.name ∧ wf x.handle ∧ wf x.role ∧ wf x.sndSettleMode ∧ wf x.rcvSettleMode ∧ wf x.source ∧ wf x.target ∧ wf x.unsettled ∧ wf x.incompleteUnsettled ∧ wf x.initialDeliveryCount ∧ wf x.maxMessageSize ∧ wf x.offeredCapabilities ∧ wf x.desiredCapabilities ∧ wf x.properties ∧ (Composite.content x).length + 4 < U32⟩

instance : Layout Attach where
  descriptorCode := 18
  descriptorName := "amqp:attach:list"
  fieldBytes x := [enc x.name, enc x.handle, enc x.role, enc x.sndSettleMode, enc x.rcvSettleMode, enc x.source, enc x.target, enc x.unsettled, enc x.incompleteUnsettled, enc x.initialDeliveryCount, enc x.maxMessageSize, enc x.offeredCapabilities, enc x.desiredCapabilities, enc x.properties]
  mandatory := [(0, "name"), (1, "handle"), (2, "role")]
  keepFields keep x :=
    { name := x.name,
      handle := x.handle,
      role := x.role,
      sndSettleMode := if keep 3 then x.sndSettleMode else .mixed,
      rcvSettleMode := if keep 4 then x.rcvSettleMode else .first,
      source := if keep 5 then x.source else none,
      target := if keep 6 then x.target else none,
      unsettled := if keep 7 then x.unsettled else none,
      incompleteUnsettled := if keep 8 then x.incompleteUnsettled else false,
      initialDeliveryCount := if keep 9 then x.initialDeliveryCount else none,
      maxMessageSize := if keep 10 then x.maxMessageSize else none,
      offeredCapabilities := if keep 11 then x.offeredCapabilities else none,
      desiredCapabilities := if keep 12 then x.desiredCapabilities else none,
      properties := if keep 13 then x.properties else none }

instance : WF Disposition := ⟨fun x =>
  wf x.role ∧ wf x.first ∧ wf x.last ∧ wf x.settled ∧ wf x.state ∧ wf x.batchable ∧ (Composite.content x).length + 4 < U32⟩

instance : Layout Disposition where
  descriptorCode := 21
  descriptorName := "amqp:disposition:list"
  fieldBytes x := [enc x.role, enc x.first, enc x.last, enc x.settled, enc x.state, enc x.batchable]
  mandatory := [(0, "role"), (1, "first")]
  keepFields keep x :=
    { role := x.role,
      first := x.first,
      last := if keep 2 then x.last else none,
      settled := if keep 3 then x.settled else false,
      state := if keep 4 then x.state else none,
      batchable := if keep 5 then x.batchable else false }

instance : WF TransferHead := ⟨fun x =>
  wf x.handle ∧ wf x.deliveryId ∧ wf x.deliveryTag ∧ wf x.messageFormat ∧ wf x.settled ∧ wf x.more ∧ wf x.rcvSettleMode ∧ wf x.state ∧ wf x.resume ∧ wf x.aborted ∧ wf x.batchable ∧ (Composite.content x).length + 4 < U32⟩

instance : Layout TransferHead where
  descriptorCode := 20
  descriptorName := "amqp:transfer:list"
  fieldBytes x := [enc x.handle, enc x.deliveryId, enc x.deliveryTag, enc x.messageFormat, enc x.settled, enc x.more, enc x.rcvSettleMode, enc x.state, enc x.resume, enc x.aborted, enc x.batchable]
  mandatory := [(0, "handle")]
  keepFields keep x :=
    { handle := x.handle,
      deliveryId := if keep 1 then x.deliveryId else none,
      deliveryTag := if keep 2 then x.deliveryTag else none,
      messageFormat := if keep 3 then x.messageFormat else none,
      settled := if keep 4 then x.settled else none,
      more := if keep 5 then x.more else false,
      rcvSettleMode := if keep 6 then x.rcvSettleMode else none,
      state := if keep 7 then x.state else none,
      resume := if keep 8 then x.resume else false,
      aborted := if keep 9 then x.aborted else false,
      batchable := if keep 10 then x.batchable else false }

instance : WF SaslFrameBody := ⟨fun x => match x with
  | .saslMechanisms v => wf v
  | .saslInit v => wf v
  | .saslChallenge v => wf v
  | .saslResponse v => wf v
  | .saslOutcome v => wf v⟩

end Amqp
