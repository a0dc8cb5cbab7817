import Verif.Lemmas.StandardWrite
import Verif.Props.StandardMessages
/-!
# What this library writes is standard

C72.  The encodings are those of `Spec/Standard.lean` and `Spec/StandardTypes.lean`; what can be expressed in them is
`Spec/StandardWrite.lean`.  Together with C51 this is the other direction of C50, C55 and C57: those say that what the
specification allows is read, this says that only what it allows is written.
-/

namespace Amqp
open Dec Standard

/-- **C72** Every composite type, and every restricted, map and array type that occurs in one, is written as a standard
encoding of the value. -/
theorem c72_types_written :
    AlwaysWrites Error ∧ AlwaysWrites Open ∧ AlwaysWrites Begin ∧ AlwaysWrites Attach ∧ AlwaysWrites Flow ∧
    AlwaysWrites TransferHead ∧ AlwaysWrites Disposition ∧ AlwaysWrites Detach ∧ AlwaysWrites End ∧
    AlwaysWrites Close ∧ AlwaysWrites Source ∧ AlwaysWrites Target ∧ AlwaysWrites Header ∧ AlwaysWrites Properties ∧
    AlwaysWrites Received ∧ AlwaysWrites Accepted ∧ AlwaysWrites Rejected ∧ AlwaysWrites Released ∧
    AlwaysWrites Modified ∧ AlwaysWrites Outcome ∧ AlwaysWrites DeliveryState ∧ AlwaysWrites SaslMechanisms ∧
    AlwaysWrites SaslInit ∧ AlwaysWrites SaslChallenge ∧ AlwaysWrites SaslResponse ∧ AlwaysWrites SaslOutcome ∧
    AlwaysWrites SaslFrameBody ∧ AlwaysWrites (HMap Symbol Variant) ∧ AlwaysWrites VecSymbolMap ∧
    AlwaysWrites VecStringMap ∧ AlwaysWrites (Multiple Symbol) ∧ AlwaysWrites VList := by
  refine ⟨?_, ?_, ?_, ?_, ?_, ?_, ?_, ?_, ?_, ?_, ?_, ?_, ?_, ?_, ?_, ?_, ?_, ?_, ?_, ?_, ?_, ?_, ?_, ?_, ?_, ?_, ?_, ?_,
    ?_, ?_, ?_, ?_⟩ <;> exact fun _ => value_of

/-- **C72** An AMQP frame is written as a standard encoding of the frame its receiver is meant to see: the same channel and
performative, and for a transfer the payload as bytes. -/
theorem c72_frames_written (f : AmqpFrame) (hw : wf f) (hp : plain f.performative) :
    amqpFrame f.encode f.asReceived := by
  refine ⟨f.performative.encode, ?_, performative_of hw.1 hp⟩
  have := hw.2
  have he := Frame.esize_eq hw.1
  exact frame_of (type := 0) (by rw [AmqpFrame.esize, he]) (by rw [AmqpFrame.esize, he]; omega) (UInt16.toNat_lt _)

/-- **C72** A SASL frame is written as a standard encoding of it. -/
theorem c72_sasl_frames_written (f : SaslFrame) (hw : wf f) (hp : plain f.body) : saslFrame f.encode f := by
  refine ⟨enc f.body, 0, ?_, value_of hw.1 hp⟩
  have := hw.2
  have he := SizeWire.size_eq f.body
  exact frame_of (type := 1) (by rw [SaslFrame.esize, he]) (by rw [SaslFrame.esize, ← he]; omega) (by decide)

/-- The body of a message holds sections of one kind only: data (messages inside it are data too), sequences, or a
value. -/
def oneKind (b : MessageBody) : Prop :=
  (b.sequence = [] ∧ b.value = none) ∨ (b.data = [] ∧ b.messages = [] ∧ b.value = none) ∨
  (b.data = [] ∧ b.messages = [] ∧ b.sequence = [] ∧ b.value ≠ none)

theorem body_of {m : Message} (hw : m.WellFormed) (hp : plainMessage m) (hk : oneKind m.body) :
    messageBody (encBody m.body ++ TransferBody.encAll m.body.messages) m.asReceived.body := by
  refine ⟨rfl, ?_⟩
  rcases hk with ⟨h1, h2⟩ | ⟨h1, h2, h3⟩ | ⟨h1, h2, h3, h4⟩
  · refine .inl ⟨h1, h2, ?_⟩
    have : encBody m.body ++ TransferBody.encAll m.body.messages =
        m.asReceived.body.data.flatMap fun d => enc (Descriptor.ulong 117) ++ enc d := by
      simp only [encBody, h1, h2, optEnc, List.flatMap_nil, List.append_nil, encAll_data _ hw.coherent,
        Message.asReceived, List.flatMap_append]
    rw [this]
    refine many_data fun d hd => ?_
    rcases List.mem_append.1 hd with hd | hd
    · exact hw.data d hd
    · obtain ⟨t, ht, rfl⟩ := List.mem_map.1 hd
      exact hw.messages t ht
  · refine .inr (.inl ⟨by simp [Message.asReceived, h1, h2], h3, ?_⟩)
    have : encBody m.body ++ TransferBody.encAll m.body.messages =
        m.body.sequence.flatMap fun d => enc (Descriptor.ulong 118) ++ enc d := by
      simp only [encBody, h1, h2, h3, optEnc, List.flatMap_nil, List.append_nil, TransferBody.encAll, List.nil_append]
    rw [this]
    exact many_of fun d hd => section_of 118 _ (by decide) (by decide) (hw.sequence d hd) (hp.sequence d hd)
  · obtain ⟨x, hx⟩ := Option.ne_none_iff_exists'.1 h4
    refine .inr (.inr ⟨by simp [Message.asReceived, h1, h2], h3, x, hx, ?_⟩)
    have : encBody m.body ++ TransferBody.encAll m.body.messages = enc (Descriptor.ulong 119) ++ enc x := by
      simp only [encBody, h1, h2, h3, hx, optEnc, List.flatMap_nil, List.append_nil, TransferBody.encAll, List.nil_append]
    rw [this]
    exact section_of 119 _ (by decide) (by decide) (wf_some hw.value hx) (plain_some hp.value hx)

/-- **C72** A message whose body is of one kind is written as a standard encoding of the message its receiver is meant to
see: the sections in the order of the specification, messages inside it as data sections. -/
theorem c72_messages_written_partial (m : Message) (hw : m.WellFormed) (hp : plainMessage m) (hk : oneKind m.body) :
    message m.encode m.asReceived := by
  refine ⟨_, _, _, _, _, _, _, ?_, maybe_of fun v h => value_of (wf_some hw.header h) (plain_some hp.header h),
    maybe_of fun v h => section_of 113 _ (by decide) (by decide) (wf_some hw.deliveryAnnotations h)
      (plain_some hp.deliveryAnnotations h),
    maybe_of fun v h => section_of 114 _ (by decide) (by decide) (wf_some hw.messageAnnotations h)
      (plain_some hp.messageAnnotations h),
    maybe_of fun v h => value_of (wf_some hw.properties h) (plain_some hp.properties h),
    maybe_of fun v h => section_of 116 _ (by decide) (by decide) (wf_some hw.applicationProperties h)
      (plain_some hp.applicationProperties h),
    body_of hw hp hk,
    maybe_of fun v h => section_of 120 _ (by decide) (by decide) (wf_some hw.footer h) (plain_some hp.footer h),
    rfl, rfl⟩
  show TransferBody.tenc (.message m) = _
  simp only [TransferBody.tenc, encHead, encFooter, List.append_assoc]
  rfl

/-- Data from `Message::with_body`, then `set_value`. -/
def mixedMessage : Message := (Message.withBody [1]).apply (.setValue .null)

/-- **C72** Violated: nothing keeps the kinds of body apart.  A message built with `with_body` and then given a value with
`set_value` is written with a data section and a value section, which is an encoding of no message. -/
theorem c72_mixed_body : mixedMessage.WellFormed ∧ plainMessage mixedMessage ∧
    mixedMessage.encode = [0, 0x53, 0x75, 0xa0, 1, 1, 0, 0x53, 0x77, 0x40] ∧ ¬ ∃ m, message mixedMessage.encode m := by
  have hw : mixedMessage.WellFormed :=
    { header := trivial, deliveryAnnotations := trivial, messageAnnotations := trivial, properties := trivial,
      applicationProperties := trivial, footer := trivial,
      data := by intro d hd; cases List.mem_singleton.1 hd; show ([1] : Bytes).length < U32; decide
      sequence := by intro s hs; cases hs
      value := trivial
      messages := by intro t ht; cases ht
      coherent := trivial }
  refine ⟨hw, ?_, rfl, ?_⟩
  · exact { header := trivial, deliveryAnnotations := trivial, messageAnnotations := trivial, properties := trivial,
            applicationProperties := trivial, footer := trivial, sequence := by intro s hs; cases hs
            value := trivial }
  · rintro ⟨m, h⟩
    have hd := c57_messages_read _ _ h
    rw [Message.decode_encode hw] at hd
    cases hd
    obtain ⟨_, _, _, _, _, _, _, _, _, _, _, _, _, hb, _⟩ := h
    rcases hb.2 with ⟨_, h, _⟩ | ⟨h, _⟩ | ⟨h, _⟩
    · cases h
    · cases h
    · cases h

-- the hypotheses hold of real frames and messages
example : wf (⟨3, .end_ ⟨none⟩⟩ : AmqpFrame) ∧ plain (⟨3, .end_ ⟨none⟩⟩ : AmqpFrame).performative :=
  ⟨⟨⟨trivial, by decide⟩, by decide⟩, trivial⟩
example : plain (⟨.saslMechanisms ⟨⟨[sym "PLAIN", sym "ANONYMOUS"]⟩⟩⟩ : SaslFrame).body := by
  intro v hv b hb
  rcases List.mem_cons.1 hv with rfl | hv
  · revert b; decide
  · cases List.mem_singleton.1 hv
    revert b; decide
example : oneKind (Message.withBody [1, 2, 3]).body := .inl ⟨rfl, rfl⟩
example : oneKind (Message.empty.apply (.setValue .null)).body := .inr (.inr ⟨rfl, rfl, rfl, by simp [Message.apply]⟩)
-- a symbol outside ASCII is well formed for the library but not plain
example : wf (⟨[0xc3, 0xa9]⟩ : Symbol) ∧ ¬ plain (⟨[0xc3, 0xa9]⟩ : Symbol) :=
  ⟨⟨rfl, by decide⟩, fun h => absurd (h 0xc3 (by simp)) (by decide)⟩

end Amqp
