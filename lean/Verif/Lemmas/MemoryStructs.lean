import Verif.Lemmas.Memory
import Verif.Lemmas.PanicStructs
import Verif.Spec.MemoryStructs
/-! Performatives, frames and messages hold no more than the bytes they were decoded from. -/

namespace Amqp
open Dec Weigh

theorem Cost.scalar [Wire α] [GoodWire α] [Weigh α] (h : ∀ a : α, weight a = 0) : CostElem α :=
  ⟨fun fmt => (Cost.of_good (.decF fmt)).weaken fun a => by rw [h]; exact Nat.le_refl 0⟩

instance : CostElem Bool := Cost.scalar fun _ => rfl
instance : CostElem UInt8 := Cost.scalar fun _ => rfl
instance : CostElem UInt16 := Cost.scalar fun _ => rfl
instance : CostElem UInt32 := Cost.scalar fun _ => rfl
instance : CostElem UInt64 := Cost.scalar fun _ => rfl
instance : CostElem Timestamp := Cost.scalar fun _ => rfl
instance : CostElem Uuid := Cost.scalar fun _ => rfl
instance : CostElem Role := Cost.scalar fun _ => rfl
instance : CostElem SenderSettleMode := Cost.scalar fun _ => rfl
instance : CostElem ReceiverSettleMode := Cost.scalar fun _ => rfl
instance : CostElem SaslCode := Cost.scalar fun _ => rfl
instance : CostElem TerminusDurability := Cost.scalar fun _ => rfl
instance : CostElem TerminusExpiryPolicy := Cost.scalar fun _ => rfl
instance : CostElem Bytes := ⟨fun fmt => .ite Cost.readBytesU8
  (.ite (Cost.readBytesU32.weaken fun a => by show 1 + a.length ≤ 4 + a.length; omega) .fail)⟩
instance [Wire α] [Weigh α] [CostElem α] : CostElem (Option α) :=
  ⟨fun fmt => .ite (.pure (Nat.le_refl 0)) ((CostElem.cost fmt).map (k' := 0) fun _ => Nat.le_refl _)⟩
instance [Wire α] [Weigh α] [CostWire α] : CostWire (Option α) :=
  ⟨fun fmt => .ite (.pure (Nat.zero_le 1)) ((CostWire.cost fmt).map (k' := 0) fun _ => Nat.le_refl _)⟩

theorem ErrorCondition.ofSymbol_weight (s : Symbol) : weight (ErrorCondition.ofSymbol s) ≤ weight s := by
  rw [ErrorCondition.ofSymbol]
  repeat' split
  all_goals first | exact Nat.zero_le _ | exact Nat.le_refl _
instance : CostElem ErrorCondition :=
  ⟨fun fmt => (CostElem.cost fmt).map (k' := 0) fun s => ErrorCondition.ofSymbol_weight s⟩
theorem DistributionMode.ofSymbol_weight (s : Symbol) : weight (DistributionMode.ofSymbol s) ≤ weight s := by
  rw [DistributionMode.ofSymbol]
  repeat' split
  all_goals first | exact Nat.zero_le _ | exact Nat.le_refl _
instance : CostElem DistributionMode :=
  ⟨fun fmt => (CostElem.cost fmt).map (k' := 0) fun s => DistributionMode.ofSymbol_weight s⟩
instance : CostElem MessageId := ⟨fun fmt =>
  .ite ((CostElem.cost (α := UInt64) fmt).map (k' := 0) fun _ => Nat.zero_le _) <|
  .ite ((CostElem.cost (α := Uuid) fmt).map (k' := 0) fun _ => Nat.zero_le _) <|
  .ite ((CostElem.cost (α := Bytes) fmt).map (k' := 0) fun _ => Nat.le_refl _) <|
  .ite ((CostElem.cost (α := Str) fmt).map (k' := 0) fun _ => Nat.le_refl _) .fail⟩

/-! ### composite types -/

/-- What the field decoders return has been paid for, up to `k`. -/
def FCost (w : α → Nat) (k : Nat) (m : FDec α) : Prop := ∀ n, Cost (fun p => w p.1) k (m.run n)

theorem FCost.pure {w : α → Nat} {k : Nat} {a : α} (h : w a ≤ k) : FCost w k (pure a : FDec α) := fun _ => Cost.pure h
theorem FCost.bind [Weigh α] {w' : β → Nat} {k : Nat} {m : FDec α} {f : α → FDec β} (hm : FCost weight 0 m)
    (hf : ∀ a, FCost w' (k + weight a) (f a)) : FCost w' k (m >>= f) :=
  fun n => ((hm n).bind fun p => hf p.1 p.2).mono (by omega)
theorem FCost.req [Wire α] [Weigh α] [CostWire α] {name : String} : FCost weight 0 (req name : FDec α) :=
  fun _ => .ite (Cost.dec.map (k' := 0) fun _ => Nat.le_refl _) .fail
theorem FCost.opt [Wire α] [Weigh α] [CostWire α] : FCost weight 0 (opt : FDec (Option α)) :=
  fun _ => .ite (Cost.dec.map (k' := 0) fun _ => Nat.le_refl _) (.pure (Nat.le_refl 0))
theorem FCost.dflt [Wire α] [Weigh α] [CostWire α] {d : α} (h : weight d = 0) : FCost weight 0 (dflt d : FDec α) :=
  fun _ => .ite ((Cost.dec (α := Option α)).map (k' := 0) fun o => by
    cases o with
    | none => show weight d ≤ _; rw [h]; omega
    | some a => exact Nat.le_refl _) (.pure (Nat.le_of_eq h))

/-- Composite types whose fields are paid for, with one to spare for the value itself. -/
class CostComposite (α : Type) [Composite α] [Weigh α] : Prop where
  fields : FCost (weight : α → Nat) 1 (Composite.decFields : FDec α)

theorem Cost.decInner [Composite α] [Weigh α] [CostComposite α] : Cost (weight : α → Nat) 0 (Composite.decInner : Dec α) :=
  Cost.readThen fun fmt => (Cost.bind (k := 0) (k' := 1) (Cost.of_good (Good.listHeader fmt)) fun ⟨size, count⟩ =>
    (Cost.limit size ((CostComposite.fields (α := α) count).map (k' := 0) fun _ => Nat.le_refl _)).mono (by omega)).mono (by omega)

theorem costWire [Composite α] [Weigh α] [CostComposite α] : @CostWire α (Composite.wire α) _ :=
  @CostWire.mk α (Composite.wire α) _ fun _ =>
    .ite (((Cost.of_good (Good.dec (α := Descriptor))).bind (k' := 0) fun _ =>
      .ite Cost.decInner .fail).mono (Nat.zero_le 1)) .fail

local macro "fields" : tactic => `(tactic| (repeat' first
  | exact FCost.req | exact FCost.opt | exact FCost.dflt rfl
  | refine FCost.bind ?_ fun _ => ?_))

instance : CostComposite Error := ⟨by
  show FCost (fun x : Error => 1 + weight x.condition + weight x.description + weight x.info) 1 _
  fields
  refine FCost.pure ?_
  show _ ≤ _
  first | omega | (dsimp only; omega)⟩
instance : CostWire Error := costWire
instance : CostComposite Open := ⟨by
  show FCost (fun x : Open => 1 + weight x.containerId + weight x.hostname + weight x.maxFrameSize + weight x.channelMax + weight x.idleTimeOut + weight x.outgoingLocales + weight x.incomingLocales + weight x.offeredCapabilities + weight x.desiredCapabilities + weight x.properties) 1 _
  fields
  refine FCost.pure ?_
  show _ ≤ _
  first | omega | (dsimp only; omega)⟩
instance : CostWire Open := costWire
instance : CostComposite Begin := ⟨by
  show FCost (fun x : Begin => 1 + weight x.remoteChannel + weight x.nextOutgoingId + weight x.incomingWindow + weight x.outgoingWindow + weight x.handleMax + weight x.offeredCapabilities + weight x.desiredCapabilities + weight x.properties) 1 _
  fields
  refine FCost.pure ?_
  show _ ≤ _
  first | omega | (dsimp only; omega)⟩
instance : CostWire Begin := costWire
instance : CostComposite Flow := ⟨by
  show FCost (fun x : Flow => 1 + weight x.nextIncomingId + weight x.incomingWindow + weight x.nextOutgoingId + weight x.outgoingWindow + weight x.handle + weight x.deliveryCount + weight x.linkCredit + weight x.available + weight x.drain + weight x.echo + weight x.properties) 1 _
  fields
  refine FCost.pure ?_
  show _ ≤ _
  first | omega | (dsimp only; omega)⟩
instance : CostWire Flow := costWire
instance : CostComposite Detach := ⟨by
  show FCost (fun x : Detach => 1 + weight x.handle + weight x.closed + weight x.error) 1 _
  fields
  refine FCost.pure ?_
  show _ ≤ _
  first | omega | (dsimp only; omega)⟩
instance : CostWire Detach := costWire
instance : CostComposite End := ⟨by
  show FCost (fun x : End => 1 + weight x.error) 1 _
  fields
  refine FCost.pure ?_
  show _ ≤ _
  first | omega | (dsimp only; omega)⟩
instance : CostWire End := costWire
instance : CostComposite Close := ⟨by
  show FCost (fun x : Close => 1 + weight x.error) 1 _
  fields
  refine FCost.pure ?_
  show _ ≤ _
  first | omega | (dsimp only; omega)⟩
instance : CostWire Close := costWire
instance : CostComposite SaslMechanisms := ⟨by
  show FCost (fun x : SaslMechanisms => 1 + weight x.saslServerMechanisms) 1 _
  fields
  refine FCost.pure ?_
  show _ ≤ _
  first | omega | (dsimp only; omega)⟩
instance : CostWire SaslMechanisms := costWire
instance : CostComposite SaslInit := ⟨by
  show FCost (fun x : SaslInit => 1 + weight x.mechanism + weight x.initialResponse + weight x.hostname) 1 _
  fields
  refine FCost.pure ?_
  show _ ≤ _
  first | omega | (dsimp only; omega)⟩
instance : CostWire SaslInit := costWire
instance : CostComposite SaslChallenge := ⟨by
  show FCost (fun x : SaslChallenge => 1 + weight x.challenge) 1 _
  fields
  refine FCost.pure ?_
  show _ ≤ _
  first | omega | (dsimp only; omega)⟩
instance : CostWire SaslChallenge := costWire
instance : CostComposite SaslResponse := ⟨by
  show FCost (fun x : SaslResponse => 1 + weight x.response) 1 _
  fields
  refine FCost.pure ?_
  show _ ≤ _
  first | omega | (dsimp only; omega)⟩
instance : CostWire SaslResponse := costWire
instance : CostComposite SaslOutcome := ⟨by
  show FCost (fun x : SaslOutcome => 1 + weight x.code + weight x.additionalData) 1 _
  fields
  refine FCost.pure ?_
  show _ ≤ _
  first | omega | (dsimp only; omega)⟩
instance : CostWire SaslOutcome := costWire
instance : CostComposite Target := ⟨by
  show FCost (fun x : Target => 1 + weight x.address + weight x.durable + weight x.expiryPolicy + weight x.timeout + weight x.dynamic + weight x.dynamicNodeProperties + weight x.capabilities) 1 _
  fields
  refine FCost.pure ?_
  show _ ≤ _
  first | omega | (dsimp only; omega)⟩
instance : CostWire Target := costWire
instance : CostComposite Header := ⟨by
  show FCost (fun x : Header => 1 + weight x.durable + weight x.priority + weight x.ttl + weight x.firstAcquirer + weight x.deliveryCount) 1 _
  fields
  refine FCost.pure ?_
  show _ ≤ _
  first | omega | (dsimp only; omega)⟩
instance : CostWire Header := costWire
instance : CostComposite Properties := ⟨by
  show FCost (fun x : Properties => 1 + weight x.messageId + weight x.userId + weight x.to + weight x.subject + weight x.replyTo + weight x.correlationId + weight x.contentType + weight x.contentEncoding + weight x.absoluteExpiryTime + weight x.creationTime + weight x.groupId + weight x.groupSequence + weight x.replyToGroupId) 1 _
  fields
  refine FCost.pure ?_
  show _ ≤ _
  first | omega | (dsimp only; omega)⟩
instance : CostWire Properties := costWire
instance : CostComposite Received := ⟨by
  show FCost (fun x : Received => 1 + weight x.sectionNumber + weight x.sectionOffset) 1 _
  fields
  refine FCost.pure ?_
  show _ ≤ _
  first | omega | (dsimp only; omega)⟩
instance : CostWire Received := costWire
instance : CostComposite Accepted := ⟨by
  show FCost (fun x : Accepted => 1) 1 _
  fields
  refine FCost.pure ?_
  show _ ≤ _
  first | omega | (dsimp only; omega)⟩
instance : CostWire Accepted := costWire
instance : CostComposite Rejected := ⟨by
  show FCost (fun x : Rejected => 1 + weight x.error) 1 _
  fields
  refine FCost.pure ?_
  show _ ≤ _
  first | omega | (dsimp only; omega)⟩
instance : CostWire Rejected := costWire
instance : CostComposite Released := ⟨by
  show FCost (fun x : Released => 1) 1 _
  fields
  refine FCost.pure ?_
  show _ ≤ _
  first | omega | (dsimp only; omega)⟩
instance : CostWire Released := costWire
instance : CostComposite Modified := ⟨by
  show FCost (fun x : Modified => 1 + weight x.deliveryFailed + weight x.undeliverableHere + weight x.messageAnnotations) 1 _
  fields
  refine FCost.pure ?_
  show _ ≤ _
  first | omega | (dsimp only; omega)⟩
instance : CostWire Modified := costWire
instance : CostWire Outcome := ⟨fun _ => .ite (((Cost.of_good (Good.dec (α := Descriptor))).bind (k' := 0) fun _ =>
  .ite (Cost.decInner.map (k' := 0) fun _ => Nat.le_refl _) <|
  .ite (Cost.decInner.map (k' := 0) fun _ => Nat.le_refl _) <|
  .ite (Cost.decInner.map (k' := 0) fun _ => Nat.le_refl _) <|
  .ite (Cost.decInner.map (k' := 0) fun _ => Nat.le_refl _) <| .fail).mono (Nat.zero_le 1)) .fail⟩
instance : CostWire DeliveryState := ⟨fun _ => .ite (((Cost.of_good (Good.dec (α := Descriptor))).bind (k' := 0) fun _ =>
  .ite (Cost.decInner.map (k' := 0) fun _ => Nat.le_refl _) <|
  .ite (Cost.decInner.map (k' := 0) fun _ => Nat.le_refl _) <|
  .ite (Cost.decInner.map (k' := 0) fun _ => Nat.le_refl _) <|
  .ite (Cost.decInner.map (k' := 0) fun _ => Nat.le_refl _) <|
  .ite (Cost.decInner.map (k' := 0) fun _ => Nat.le_refl _) <| .fail).mono (Nat.zero_le 1)) .fail⟩
instance : CostComposite Source := ⟨by
  show FCost (fun x : Source => 1 + weight x.address + weight x.durable + weight x.expiryPolicy + weight x.timeout + weight x.dynamic + weight x.dynamicNodeProperties + weight x.distributionMode + weight x.filter + weight x.defaultOutcome + weight x.outcomes + weight x.capabilities) 1 _
  fields
  refine FCost.pure ?_
  show _ ≤ _
  first | omega | (dsimp only; omega)⟩
instance : CostWire Source := costWire
instance : CostComposite Attach := ⟨by
  show FCost (fun x : Attach => 1 + weight x.name + weight x.handle + weight x.role + weight x.sndSettleMode + weight x.rcvSettleMode + weight x.source + weight x.target + weight x.unsettled + weight x.incompleteUnsettled + weight x.initialDeliveryCount + weight x.maxMessageSize + weight x.offeredCapabilities + weight x.desiredCapabilities + weight x.properties) 1 _
  fields
  refine FCost.pure ?_
  show _ ≤ _
  first | omega | (dsimp only; omega)⟩
instance : CostWire Attach := costWire
instance : CostComposite Disposition := ⟨by
  show FCost (fun x : Disposition => 1 + weight x.role + weight x.first + weight x.last + weight x.settled + weight x.state + weight x.batchable) 1 _
  fields
  refine FCost.pure ?_
  show _ ≤ _
  first | omega | (dsimp only; omega)⟩
instance : CostWire Disposition := costWire
instance : CostComposite TransferHead := ⟨by
  show FCost (fun x : TransferHead => 1 + weight x.handle + weight x.deliveryId + weight x.deliveryTag + weight x.messageFormat + weight x.settled + weight x.more + weight x.rcvSettleMode + weight x.state + weight x.resume + weight x.aborted + weight x.batchable) 1 _
  fields
  refine FCost.pure ?_
  show _ ≤ _
  first | omega | (dsimp only; omega)⟩
instance : CostWire TransferHead := costWire
instance : CostWire SaslFrameBody := ⟨fun _ => .ite (((Cost.of_good (Good.dec (α := Descriptor))).bind (k' := 0) fun _ =>
  .ite (Cost.decInner.map (k' := 0) fun _ => Nat.le_refl _) <|
  .ite (Cost.decInner.map (k' := 0) fun _ => Nat.le_refl _) <|
  .ite (Cost.decInner.map (k' := 0) fun _ => Nat.le_refl _) <|
  .ite (Cost.decInner.map (k' := 0) fun _ => Nat.le_refl _) <|
  .ite (Cost.decInner.map (k' := 0) fun _ => Nat.le_refl _) <| .fail).mono (Nat.zero_le 1)) .fail⟩

theorem Cost.fld {w : α → Nat} {w' : β → Nat} {f : α → β} {m : Dec α} (h : Cost w 0 m) (hf : ∀ a, w' (f a) = w a) :
    Cost w' 0 (do return f (← m)) := h.map (k' := 0) fun a => Nat.le_of_eq (by rw [hf]; rfl)

instance : CostWire Section := ⟨fun _ => .ite (((Cost.of_good (Good.dec (α := Descriptor))).bind (k' := 0) fun _ =>
  .ite (Cost.decInner.fld fun _ => rfl) <| .ite (Cost.dec.fld fun _ => rfl) <| .ite (Cost.dec.fld fun _ => rfl) <|
  .ite (Cost.dec.fld fun _ => rfl) <| .ite (Cost.dec.fld fun _ => rfl) <| .ite (Cost.dec.fld fun _ => rfl) <|
  .ite (Cost.dec.fld fun _ => rfl) <| .ite (Cost.dec.fld fun _ => rfl) <| .ite (Cost.decInner.fld fun _ => rfl) .fail).mono
    (Nat.zero_le 1)) .fail⟩

/-- The payload is kept as it is; the node for it is paid for by the descriptor of the transfer. -/
theorem Cost.transfer : Cost (weight : Transfer → Nat) 1 Transfer.decInner := by
  refine (Cost.bind (k' := 1) Cost.decInner fun head => ?_).mono (by omega)
  intro s t r h
  cases h
  show weight head + weight (if s = [] then none else some (TransferBody.data s)) + 0 ≤ _
  split
  · show weight head + 0 + 0 ≤ _; omega
  · show weight head + TransferBody.weight (.data s) + 0 ≤ _
    rw [TransferBody.weight]; omega

theorem Cost.frameBody (d : Descriptor) : Cost (weight : Frame → Nat) 1 (Frame.decBody d) := by
  have F : ∀ {α : Type} [Composite α] [Weigh α] [CostComposite α] {f : α → Frame}, (∀ a, weight (f a) = weight a) →
      Cost (weight : Frame → Nat) 1 (do return f (← Composite.decInner)) :=
    fun h => (Cost.decInner.fld h).mono (Nat.zero_le 1)
  exact .ite (F fun _ => rfl) <| .ite (F fun _ => rfl) <| .ite (F fun _ => rfl) <| .ite (F fun _ => rfl) <|
    .ite (Cost.transfer.map (k' := 0) fun _ => Nat.le_refl _) <| .ite (F fun _ => rfl) <| .ite (F fun _ => rfl) <|
    .ite (F fun _ => rfl) <| .ite (F fun _ => rfl) .fail

theorem Cost.frame : Cost (weight : Frame → Nat) 0 Frame.decode := by
  intro s f r h
  cases s with
  | nil => cases h; exact Nat.le_refl 0
  | cons c s =>
    simp only [Frame.decode] at h
    split at h
    · have := (Cost.bind (k := 0) (k' := 1) (Cost.of_good (Good.dec (α := Descriptor))) Cost.frameBody) s f r h
      simp only [List.length_cons]
      omega
    · cases h

theorem Cost.amqpFrame : Cost (weight : AmqpFrame → Nat) 0 AmqpFrame.decode :=
  Cost.bind (w := fun _ => 0) (k := 0) (k' := 0) (fun s a r h => by have := (Total.frameHeader 0).suffix s a r h; simpa using this.length_le)
    fun ch => Cost.frame.fld fun _ => rfl
theorem Cost.saslFrame : Cost (weight : SaslFrame → Nat) 0 SaslFrame.decode :=
  Cost.bind (w := fun _ => 0) (k := 0) (k' := 0) (fun s a r h => by have := (Total.frameHeader 1).suffix s a r h; simpa using this.length_le)
    fun ch => Cost.dec.fld fun _ => rfl

theorem sum_snoc [Weigh α] (l : List α) (a : α) : weight (l ++ [a]) = weight l + weight a := by
  show ((l ++ [a]).map weight).sum = (l.map weight).sum + weight a
  simp

theorem Message.weight_eq (m : Message) : weight m =
    weight m.header + weight m.deliveryAnnotations + weight m.messageAnnotations + weight m.properties +
      weight m.applicationProperties + weight m.footer + weight m.body.data + weight m.body.sequence +
      weight m.body.value + TransferBody.weights m.body.messages := by
  show TransferBody.weight _ = _
  rw [TransferBody.weight]

theorem addSection_weight (m : Message) (s : Section) : weight (m.addSection s) ≤ weight m + weight s := by
  rw [Message.weight_eq, Message.weight_eq m]
  cases s with
  | header v =>
    have : weight (some v) = weight (Section.header v) := rfl
    simp only [Message.addSection]
    omega
  | deliveryAnnotations v =>
    have : weight (some v) = weight (Section.deliveryAnnotations v) := rfl
    simp only [Message.addSection]
    omega
  | messageAnnotations v =>
    have : weight (some v) = weight (Section.messageAnnotations v) := rfl
    simp only [Message.addSection]
    omega
  | properties v =>
    have : weight (some v) = weight (Section.properties v) := rfl
    simp only [Message.addSection]
    omega
  | applicationProperties v =>
    have : weight (some v) = weight (Section.applicationProperties v) := rfl
    simp only [Message.addSection]
    omega
  | footer v =>
    have : weight (some v) = weight (Section.footer v) := rfl
    simp only [Message.addSection]
    omega
  | amqpValue v =>
    have : weight (some v) = weight (Section.amqpValue v) := rfl
    simp only [Message.addSection]
    omega
  | data v =>
    have : weight v = weight (Section.data v) := rfl
    simp only [Message.addSection, sum_snoc]
    omega
  | amqpSequence v =>
    have : weight v = weight (Section.amqpSequence v) := rfl
    simp only [Message.addSection, sum_snoc]
    omega

theorem decodeLoop_cost : ∀ (n : Nat) (m : Message) (s : Bytes) (m' : Message), Message.decodeLoop n m s = .ok m' →
    weight m' ≤ weight m + s.length
  | n, m, [], m', h => by cases n <;> cases h <;> exact Nat.le_refl _
  | 0, m, a :: s, m', h => nomatch h
  | n + 1, m, a :: s, m', h => by
    rw [Message.decodeLoop] at h
    · cases h1 : (dec : Dec Section) (a :: s) with
      | error e => rw [h1] at h; cases h
      | ok x =>
        obtain ⟨sec, r⟩ := x
        rw [h1] at h
        have h2 := decodeLoop_cost n _ r m' h
        have h3 := Cost.dec (α := Section) _ _ _ h1
        have h4 := addSection_weight m sec
        omega
    · simp

end Amqp
