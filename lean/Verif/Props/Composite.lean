import Verif.Lemmas.Claims
import Verif.Lemmas.CompositeClaims
/-!
# Properties of performatives and the other protocol types

C11–C15.  The shapes of the claims are in `Spec/CompositeClaims.lean`; the layouts (descriptors, field order, mandatory
fields, defaults) in `Spec/Structs.lean`.
-/

namespace Amqp
open Dec

/-! ## C11 -/

/-- **C11** Every performative comes back field for field, optional fields absent or present. -/
theorem c11_performatives_round_trip :
    RoundTrips Open ∧ RoundTrips Begin ∧ RoundTrips Attach ∧ RoundTrips Flow ∧ RoundTrips Disposition ∧
    RoundTrips Detach ∧ RoundTrips End ∧ RoundTrips Close :=
  ⟨roundTrips, roundTrips, roundTrips, roundTrips, roundTrips, roundTrips, roundTrips, roundTrips⟩

/-- **C11** So do all other composite types, delivery states, outcomes and SASL bodies. -/
theorem c11_other_composites_round_trip :
    RoundTrips Error ∧ RoundTrips Source ∧ RoundTrips Target ∧ RoundTrips Header ∧ RoundTrips Properties ∧
    RoundTrips Received ∧ RoundTrips Accepted ∧ RoundTrips Rejected ∧ RoundTrips Released ∧ RoundTrips Modified ∧
    RoundTrips SaslMechanisms ∧ RoundTrips SaslInit ∧ RoundTrips SaslChallenge ∧ RoundTrips SaslResponse ∧
    RoundTrips SaslOutcome ∧ RoundTrips Outcome ∧ RoundTrips DeliveryState ∧ RoundTrips SaslFrameBody :=
  ⟨roundTrips, roundTrips, roundTrips, roundTrips, roundTrips, roundTrips, roundTrips, roundTrips, roundTrips,
    roundTrips, roundTrips, roundTrips, roundTrips, roundTrips, roundTrips, roundTrips, roundTrips, roundTrips⟩

/-- **C11** A transfer comes back with all its fields and the payload bytes. -/
theorem c11_transfer_round_trip (t : Transfer) (h : wf t) :
    ∃ t', Frame.decode (Frame.encode (.transfer t)) = .ok (.transfer t', []) ∧ t'.head = t.head ∧
      t'.payload = t.payload ∧ (t'.body = none ↔ t.payload = []) := by
  refine ⟨t.asReceived, Frame.decode_encode (f := .transfer t) h, rfl, ?_, ?_⟩
  · by_cases hp : t.payload = []
    · have : t.asReceived.body = none := by rw [Transfer.asReceived, if_pos hp]
      rw [Transfer.payload, this, hp]
    · have : t.asReceived.body = some (.data t.payload) := by rw [Transfer.asReceived, if_neg hp]
      rw [Transfer.payload, this]
      simp only [TransferBody.tenc]
  · simp only [Transfer.asReceived]
    split <;> simp_all

/-- **C11** The payload may also be a message: its encoding is what travels. -/
theorem c11_transfer_message (t : Transfer) (h : wf t) (m : Message) (hb : t.body = some (.message m)) :
    ∃ t', Frame.decode (Frame.encode (.transfer t)) = .ok (.transfer t', []) ∧ t'.head = t.head ∧
      t'.payload = m.encode := by
  obtain ⟨t', h1, h2, h3, _⟩ := c11_transfer_round_trip t h
  exact ⟨t', h1, h2, by rw [h3, Transfer.payload, hb]; rfl⟩

/-- A body that is present but empty does not stay present: it cannot be told from an absent one on the wire. -/
theorem c11_empty_body_becomes_absent (head : TransferHead) (h : wf head) :
    Frame.decode (Frame.encode (.transfer ⟨head, some (.data [])⟩)) = .ok (.transfer ⟨head, none⟩, []) :=
  Frame.decode_encode (f := .transfer ⟨head, some (.data [])⟩) ⟨h, fun b hb => by
    simp only [Option.some.injEq] at hb; subst hb; rw [TransferBody.coherent]; trivial⟩

-- a flow with some optional fields present and others absent is well formed
example : wf (Flow.mk (some 3) 100 1 100 none none (some 10) none false true none) := by
  refine ⟨trivial, trivial, trivial, trivial, trivial, trivial, trivial, trivial, trivial, trivial, trivial, ?_⟩
  decide

/-! ## C12, C14 -/

/-- **C12**, **C14** Lists with fewer fields (omitted ones default), null fields, or more fields (skipped) are understood. -/
theorem c12_omitted_fields_default :
    AcceptsAnyFieldCount Error ∧ AcceptsAnyFieldCount Open ∧ AcceptsAnyFieldCount Begin ∧
    AcceptsAnyFieldCount Attach ∧ AcceptsAnyFieldCount Flow ∧ AcceptsAnyFieldCount TransferHead ∧
    AcceptsAnyFieldCount Disposition ∧ AcceptsAnyFieldCount Detach ∧ AcceptsAnyFieldCount End ∧
    AcceptsAnyFieldCount Close ∧ AcceptsAnyFieldCount Source ∧ AcceptsAnyFieldCount Target ∧
    AcceptsAnyFieldCount Header ∧ AcceptsAnyFieldCount Properties ∧ AcceptsAnyFieldCount Received ∧
    AcceptsAnyFieldCount Accepted ∧ AcceptsAnyFieldCount Rejected ∧ AcceptsAnyFieldCount Released ∧
    AcceptsAnyFieldCount Modified ∧ AcceptsAnyFieldCount SaslMechanisms ∧ AcceptsAnyFieldCount SaslInit ∧
    AcceptsAnyFieldCount SaslChallenge ∧ AcceptsAnyFieldCount SaslResponse ∧ AcceptsAnyFieldCount SaslOutcome :=
  ⟨acceptsAnyFieldCount, acceptsAnyFieldCount, acceptsAnyFieldCount, acceptsAnyFieldCount, acceptsAnyFieldCount,
    acceptsAnyFieldCount, acceptsAnyFieldCount, acceptsAnyFieldCount, acceptsAnyFieldCount, acceptsAnyFieldCount,
    acceptsAnyFieldCount, acceptsAnyFieldCount, acceptsAnyFieldCount, acceptsAnyFieldCount, acceptsAnyFieldCount,
    acceptsAnyFieldCount, acceptsAnyFieldCount, acceptsAnyFieldCount, acceptsAnyFieldCount, acceptsAnyFieldCount,
    acceptsAnyFieldCount, acceptsAnyFieldCount, acceptsAnyFieldCount, acceptsAnyFieldCount⟩

/-- **C12** A list too short for a mandatory field is refused with the name of that field. -/
theorem c12_missing_mandatory_rejected :
    RejectsMissingField Error ∧ RejectsMissingField Open ∧ RejectsMissingField Begin ∧ RejectsMissingField Attach ∧
    RejectsMissingField Flow ∧ RejectsMissingField TransferHead ∧ RejectsMissingField Disposition ∧
    RejectsMissingField Detach ∧ RejectsMissingField End ∧ RejectsMissingField Close ∧ RejectsMissingField Source ∧
    RejectsMissingField Target ∧ RejectsMissingField Header ∧ RejectsMissingField Properties ∧
    RejectsMissingField Received ∧ RejectsMissingField Accepted ∧ RejectsMissingField Rejected ∧
    RejectsMissingField Released ∧ RejectsMissingField Modified ∧ RejectsMissingField SaslMechanisms ∧
    RejectsMissingField SaslInit ∧ RejectsMissingField SaslChallenge ∧ RejectsMissingField SaslResponse ∧
    RejectsMissingField SaslOutcome :=
  ⟨rejectsMissingField, rejectsMissingField, rejectsMissingField, rejectsMissingField, rejectsMissingField,
    rejectsMissingField, rejectsMissingField, rejectsMissingField, rejectsMissingField, rejectsMissingField,
    rejectsMissingField, rejectsMissingField, rejectsMissingField, rejectsMissingField, rejectsMissingField,
    rejectsMissingField, rejectsMissingField, rejectsMissingField, rejectsMissingField, rejectsMissingField,
    rejectsMissingField, rejectsMissingField, rejectsMissingField, rejectsMissingField⟩

/-- **C14** spelled out: extra fields change nothing. -/
theorem c14_extra_fields_ignored {α : Type} [Composite α] [WF α] [Layout α] [LawfulComposite α] (x : α) (hx : wf x)
    (form hdr extra rest : Bytes) (k : Nat) (hf : Introduces α form) (hk : (Layout.fieldBytes x).length ≤ k)
    (hh : ListHdr hdr ((Layout.fieldBytes x).flatten ++ extra).length k) :
    (@dec α (Composite.wire α)) (form ++ hdr ++ ((Layout.fieldBytes x).flatten ++ extra) ++ rest) = .ok (x, rest) := by
  letI := Composite.wire α
  have := acceptsAnyFieldCount (α := α) x (fun _ => true) k form hdr extra rest hx hf
    (fun m hm => ⟨by have := LawfulComposite.mand_lt x m hm; omega, rfl⟩)
    (by rw [Composite.sentFields_all, List.take_of_length_le hk]; exact hh)
  rw [Composite.sentFields_all, List.take_of_length_le hk, LawfulComposite.full _ _ (fun i hi => by simp; omega)] at this
  exact this

/-- The empty list stands for an `end` without error, in any form of the descriptor. -/
example (rest : Bytes) : (dec : Dec End) ([0x00, 0x53, 0x17] ++ [0x45] ++ ([] ++ []) ++ rest) = .ok (⟨none⟩, rest) :=
  acceptsAnyFieldCount (α := End) ⟨none⟩ (fun _ => true) 0 _ _ [] rest ⟨trivial, by decide⟩ (.small (by decide)) nofun
    (.inl ⟨rfl, rfl, rfl⟩)

/-- A `begin` cut after its second field is refused: `incoming-window` is missing. -/
example (x : Begin) (hx : wf x) (hdr rest : Bytes)
    (hh : ListHdr hdr (((sentFields (fun _ => true) 0 (Layout.fieldBytes x)).take 2).flatten ++ []).length 2) :
    (dec : Dec Begin) ([0x00, 0x53, 0x11] ++ hdr ++ (((sentFields (fun _ => true) 0 (Layout.fieldBytes x)).take 2).flatten ++ []) ++ rest) =
      .error (.requiredFieldOmitted "incoming_window") :=
  rejectsMissingField (α := Begin) x (fun _ => true) 2 (2, "incoming_window") _ hdr [] rest hx (.small (by decide)) (fun _ _ _ => rfl) rfl hh

/-! ## C13 -/

/-- **C13** Symbolic and numeric descriptors, in every encoding, lead to the same result. -/
theorem c13_descriptors_interchangeable :
    DescriptorsInterchangeable Error ∧ DescriptorsInterchangeable Open ∧ DescriptorsInterchangeable Begin ∧
    DescriptorsInterchangeable Attach ∧ DescriptorsInterchangeable Flow ∧ DescriptorsInterchangeable TransferHead ∧
    DescriptorsInterchangeable Disposition ∧ DescriptorsInterchangeable Detach ∧ DescriptorsInterchangeable End ∧
    DescriptorsInterchangeable Close ∧ DescriptorsInterchangeable Source ∧ DescriptorsInterchangeable Target ∧
    DescriptorsInterchangeable Header ∧ DescriptorsInterchangeable Properties ∧
    DescriptorsInterchangeable Received ∧ DescriptorsInterchangeable Accepted ∧
    DescriptorsInterchangeable Rejected ∧ DescriptorsInterchangeable Released ∧
    DescriptorsInterchangeable Modified ∧ DescriptorsInterchangeable SaslMechanisms ∧
    DescriptorsInterchangeable SaslInit ∧ DescriptorsInterchangeable SaslChallenge ∧
    DescriptorsInterchangeable SaslResponse ∧ DescriptorsInterchangeable SaslOutcome :=
  ⟨descriptorsInterchangeable, descriptorsInterchangeable, descriptorsInterchangeable, descriptorsInterchangeable,
    descriptorsInterchangeable, descriptorsInterchangeable, descriptorsInterchangeable, descriptorsInterchangeable,
    descriptorsInterchangeable, descriptorsInterchangeable, descriptorsInterchangeable, descriptorsInterchangeable,
    descriptorsInterchangeable, descriptorsInterchangeable, descriptorsInterchangeable, descriptorsInterchangeable,
    descriptorsInterchangeable, descriptorsInterchangeable, descriptorsInterchangeable, descriptorsInterchangeable,
    descriptorsInterchangeable, descriptorsInterchangeable, descriptorsInterchangeable, descriptorsInterchangeable⟩

/-- **C13** Any other descriptor is refused. -/
theorem c13_unknown_descriptor_rejected :
    RejectsUnknownDescriptor Error ∧ RejectsUnknownDescriptor Open ∧ RejectsUnknownDescriptor Begin ∧
    RejectsUnknownDescriptor Attach ∧ RejectsUnknownDescriptor Flow ∧ RejectsUnknownDescriptor TransferHead ∧
    RejectsUnknownDescriptor Disposition ∧ RejectsUnknownDescriptor Detach ∧ RejectsUnknownDescriptor End ∧
    RejectsUnknownDescriptor Close ∧ RejectsUnknownDescriptor Source ∧ RejectsUnknownDescriptor Target ∧
    RejectsUnknownDescriptor Header ∧ RejectsUnknownDescriptor Properties ∧ RejectsUnknownDescriptor Received ∧
    RejectsUnknownDescriptor Accepted ∧ RejectsUnknownDescriptor Rejected ∧ RejectsUnknownDescriptor Released ∧
    RejectsUnknownDescriptor Modified ∧ RejectsUnknownDescriptor SaslMechanisms ∧
    RejectsUnknownDescriptor SaslInit ∧ RejectsUnknownDescriptor SaslChallenge ∧
    RejectsUnknownDescriptor SaslResponse ∧ RejectsUnknownDescriptor SaslOutcome :=
  ⟨rejectsUnknownDescriptor, rejectsUnknownDescriptor, rejectsUnknownDescriptor, rejectsUnknownDescriptor,
    rejectsUnknownDescriptor, rejectsUnknownDescriptor, rejectsUnknownDescriptor, rejectsUnknownDescriptor,
    rejectsUnknownDescriptor, rejectsUnknownDescriptor, rejectsUnknownDescriptor, rejectsUnknownDescriptor,
    rejectsUnknownDescriptor, rejectsUnknownDescriptor, rejectsUnknownDescriptor, rejectsUnknownDescriptor,
    rejectsUnknownDescriptor, rejectsUnknownDescriptor, rejectsUnknownDescriptor, rejectsUnknownDescriptor,
    rejectsUnknownDescriptor, rejectsUnknownDescriptor, rejectsUnknownDescriptor, rejectsUnknownDescriptor⟩

/-- The decoder of `DeliveryState` after the descriptor. -/
def DeliveryState.decBody (d : Descriptor) : Dec DeliveryState :=
  if Composite.isMine Received d then do return .received (← Composite.decInner)
  else if Composite.isMine Accepted d then do return .accepted (← Composite.decInner)
  else if Composite.isMine Rejected d then do return .rejected (← Composite.decInner)
  else if Composite.isMine Released d then do return .released (← Composite.decInner)
  else if Composite.isMine Modified d then do return .modified (← Composite.decInner)
  else fail (.invalidDescriptor d)

/-- **C13** for `DeliveryState`: every form of a descriptor selects its alternative, any other descriptor is refused. -/
theorem c13_delivery_state_selected :
    Selects Received (dec : Dec DeliveryState) DeliveryState.received ∧
    Selects Accepted (dec : Dec DeliveryState) DeliveryState.accepted ∧
    Selects Rejected (dec : Dec DeliveryState) DeliveryState.rejected ∧
    Selects Released (dec : Dec DeliveryState) DeliveryState.released ∧
    Selects Modified (dec : Dec DeliveryState) DeliveryState.modified ∧
    RejectsOthers (dec : Dec DeliveryState)
      [(Layout.descriptorCode Received, Layout.descriptorName Received),
        (Layout.descriptorCode Accepted, Layout.descriptorName Accepted),
        (Layout.descriptorCode Rejected, Layout.descriptorName Rejected),
        (Layout.descriptorCode Released, Layout.descriptorName Released),
        (Layout.descriptorCode Modified, Layout.descriptorName Modified)] := by
  have hd : ∀ s r d, (dec : Dec Descriptor) s = .ok (d, r) → (dec : Dec DeliveryState) (0x00 :: s) = DeliveryState.decBody d r := fun s r d h => by
    show DeliveryState.decodeF FC.described s = _
    rw [DeliveryState.decodeF, if_pos rfl, Dec.bind_ok h]
    rfl
  refine ⟨selects hd ?_, selects hd ?_, selects hd ?_, selects hd ?_, selects hd ?_, rejectsOthers hd ?_⟩
  · rintro d (rfl | rfl) <;> rfl
  · rintro d (rfl | rfl) <;> rfl
  · rintro d (rfl | rfl) <;> rfl
  · rintro d (rfl | rfl) <;> rfl
  · rintro d (rfl | rfl) <;> rfl
  · intro d h
    simp only [List.forall_mem_cons, List.not_mem_nil, false_imp_iff, implies_true, and_true] at h
    obtain ⟨h0, h1, h2, h3, h4⟩ := h
    simp only [DeliveryState.decBody]
    rw [not_isMine (α := Received) h0.1 h0.2, not_isMine (α := Accepted) h1.1 h1.2, not_isMine (α := Rejected) h2.1 h2.2, not_isMine (α := Released) h3.1 h3.2, not_isMine (α := Modified) h4.1 h4.2]
    rfl

/-- The decoder of `Outcome` after the descriptor. -/
def Outcome.decBody (d : Descriptor) : Dec Outcome :=
  if Composite.isMine Accepted d then do return .accepted (← Composite.decInner)
  else if Composite.isMine Rejected d then do return .rejected (← Composite.decInner)
  else if Composite.isMine Released d then do return .released (← Composite.decInner)
  else if Composite.isMine Modified d then do return .modified (← Composite.decInner)
  else fail (.invalidDescriptor d)

/-- **C13** for `Outcome`: every form of a descriptor selects its alternative, any other descriptor is refused. -/
theorem c13_outcome_selected :
    Selects Accepted (dec : Dec Outcome) Outcome.accepted ∧
    Selects Rejected (dec : Dec Outcome) Outcome.rejected ∧
    Selects Released (dec : Dec Outcome) Outcome.released ∧
    Selects Modified (dec : Dec Outcome) Outcome.modified ∧
    RejectsOthers (dec : Dec Outcome)
      [(Layout.descriptorCode Accepted, Layout.descriptorName Accepted),
        (Layout.descriptorCode Rejected, Layout.descriptorName Rejected),
        (Layout.descriptorCode Released, Layout.descriptorName Released),
        (Layout.descriptorCode Modified, Layout.descriptorName Modified)] := by
  have hd : ∀ s r d, (dec : Dec Descriptor) s = .ok (d, r) → (dec : Dec Outcome) (0x00 :: s) = Outcome.decBody d r := fun s r d h => by
    show Outcome.decodeF FC.described s = _
    rw [Outcome.decodeF, if_pos rfl, Dec.bind_ok h]
    rfl
  refine ⟨selects hd ?_, selects hd ?_, selects hd ?_, selects hd ?_, rejectsOthers hd ?_⟩
  · rintro d (rfl | rfl) <;> rfl
  · rintro d (rfl | rfl) <;> rfl
  · rintro d (rfl | rfl) <;> rfl
  · rintro d (rfl | rfl) <;> rfl
  · intro d h
    simp only [List.forall_mem_cons, List.not_mem_nil, false_imp_iff, implies_true, and_true] at h
    obtain ⟨h0, h1, h2, h3⟩ := h
    simp only [Outcome.decBody]
    rw [not_isMine (α := Accepted) h0.1 h0.2, not_isMine (α := Rejected) h1.1 h1.2, not_isMine (α := Released) h2.1 h2.2, not_isMine (α := Modified) h3.1 h3.2]
    rfl

/-- The decoder of `SaslFrameBody` after the descriptor. -/
def SaslFrameBody.decBody (d : Descriptor) : Dec SaslFrameBody :=
  if Composite.isMine SaslMechanisms d then do return .saslMechanisms (← Composite.decInner)
  else if Composite.isMine SaslInit d then do return .saslInit (← Composite.decInner)
  else if Composite.isMine SaslChallenge d then do return .saslChallenge (← Composite.decInner)
  else if Composite.isMine SaslResponse d then do return .saslResponse (← Composite.decInner)
  else if Composite.isMine SaslOutcome d then do return .saslOutcome (← Composite.decInner)
  else fail (.invalidDescriptor d)

/-- **C13** for `SaslFrameBody`: every form of a descriptor selects its alternative, any other descriptor is refused. -/
theorem c13_sasl_selected :
    Selects SaslMechanisms (dec : Dec SaslFrameBody) SaslFrameBody.saslMechanisms ∧
    Selects SaslInit (dec : Dec SaslFrameBody) SaslFrameBody.saslInit ∧
    Selects SaslChallenge (dec : Dec SaslFrameBody) SaslFrameBody.saslChallenge ∧
    Selects SaslResponse (dec : Dec SaslFrameBody) SaslFrameBody.saslResponse ∧
    Selects SaslOutcome (dec : Dec SaslFrameBody) SaslFrameBody.saslOutcome ∧
    RejectsOthers (dec : Dec SaslFrameBody)
      [(Layout.descriptorCode SaslMechanisms, Layout.descriptorName SaslMechanisms),
        (Layout.descriptorCode SaslInit, Layout.descriptorName SaslInit),
        (Layout.descriptorCode SaslChallenge, Layout.descriptorName SaslChallenge),
        (Layout.descriptorCode SaslResponse, Layout.descriptorName SaslResponse),
        (Layout.descriptorCode SaslOutcome, Layout.descriptorName SaslOutcome)] := by
  have hd : ∀ s r d, (dec : Dec Descriptor) s = .ok (d, r) → (dec : Dec SaslFrameBody) (0x00 :: s) = SaslFrameBody.decBody d r := fun s r d h => by
    show SaslFrameBody.decodeF FC.described s = _
    rw [SaslFrameBody.decodeF, if_pos rfl, Dec.bind_ok h]
    rfl
  refine ⟨selects hd ?_, selects hd ?_, selects hd ?_, selects hd ?_, selects hd ?_, rejectsOthers hd ?_⟩
  · rintro d (rfl | rfl) <;> rfl
  · rintro d (rfl | rfl) <;> rfl
  · rintro d (rfl | rfl) <;> rfl
  · rintro d (rfl | rfl) <;> rfl
  · rintro d (rfl | rfl) <;> rfl
  · intro d h
    simp only [List.forall_mem_cons, List.not_mem_nil, false_imp_iff, implies_true, and_true] at h
    obtain ⟨h0, h1, h2, h3, h4⟩ := h
    simp only [SaslFrameBody.decBody]
    rw [not_isMine (α := SaslMechanisms) h0.1 h0.2, not_isMine (α := SaslInit) h1.1 h1.2, not_isMine (α := SaslChallenge) h2.1 h2.2, not_isMine (α := SaslResponse) h3.1 h3.2, not_isMine (α := SaslOutcome) h4.1 h4.2]
    rfl

/-- **C13** for frames: every form of a descriptor selects its performative, any other descriptor is refused. -/
theorem c13_frame_selected :
    Selects Open Frame.decode Frame.open_ ∧
    Selects Begin Frame.decode Frame.begin_ ∧
    Selects Attach Frame.decode Frame.attach ∧
    Selects Flow Frame.decode Frame.flow ∧
    Selects Disposition Frame.decode Frame.disposition ∧
    Selects Detach Frame.decode Frame.detach ∧
    Selects End Frame.decode Frame.end_ ∧
    Selects Close Frame.decode Frame.close ∧
    (∀ f g : Bytes, Introduces TransferHead f → Introduces TransferHead g → ∀ s, Frame.decode (f ++ s) = Frame.decode (g ++ s)) ∧
    RejectsOthers Frame.decode
      [(Layout.descriptorCode Open, Layout.descriptorName Open),
        (Layout.descriptorCode Begin, Layout.descriptorName Begin),
        (Layout.descriptorCode Attach, Layout.descriptorName Attach),
        (Layout.descriptorCode Flow, Layout.descriptorName Flow),
        (Layout.descriptorCode TransferHead, Layout.descriptorName TransferHead),
        (Layout.descriptorCode Disposition, Layout.descriptorName Disposition),
        (Layout.descriptorCode Detach, Layout.descriptorName Detach),
        (Layout.descriptorCode End, Layout.descriptorName End),
        (Layout.descriptorCode Close, Layout.descriptorName Close)] := by
  have hd : ∀ s r d, (dec : Dec Descriptor) s = .ok (d, r) → Frame.decode (0x00 :: s) = Frame.decBody d r :=
    fun s r d h => Frame.decode_described h
  refine ⟨selects hd ?_, selects hd ?_, selects hd ?_, selects hd ?_, selects hd ?_, selects hd ?_, selects hd ?_, selects hd ?_, ?_, rejectsOthers hd ?_⟩
  · rintro d (rfl | rfl) <;> rfl
  · rintro d (rfl | rfl) <;> rfl
  · rintro d (rfl | rfl) <;> rfl
  · rintro d (rfl | rfl) <;> rfl
  · rintro d (rfl | rfl) <;> rfl
  · rintro d (rfl | rfl) <;> rfl
  · rintro d (rfl | rfl) <;> rfl
  · rintro d (rfl | rfl) <;> rfl
  · have key : ∀ f, Introduces TransferHead f → ∀ s,
        Frame.decode (f ++ s) = (do return .transfer (← Transfer.decInner) : Dec Frame) s := by
      intro f hf s
      obtain ⟨tl, d, rfl, hdd, ht⟩ := form_dec hf (LawfulComposite.name_ascii (α := TransferHead)).1
        (LawfulComposite.name_ascii (α := TransferHead)).2
      have hb : Frame.decBody d = (do return .transfer (← Transfer.decInner) : Dec Frame) := by
        rcases hdd with rfl | rfl <;> rfl
      rw [List.cons_append, hd _ _ _ (ht s), hb]
    intro f g hf hg s
    rw [key f hf, key g hg]
  · intro d h
    simp only [List.forall_mem_cons, List.not_mem_nil, false_imp_iff, implies_true, and_true] at h
    obtain ⟨h0, h1, h2, h3, h4, h5, h6, h7, h8⟩ := h
    simp only [Frame.decBody]
    rw [not_isMine (α := Open) h0.1 h0.2, not_isMine (α := Begin) h1.1 h1.2, not_isMine (α := Attach) h2.1 h2.2, not_isMine (α := Flow) h3.1 h3.2, not_isMine (α := TransferHead) h4.1 h4.2, not_isMine (α := Disposition) h5.1 h5.2, not_isMine (α := Detach) h6.1 h6.2, not_isMine (α := End) h7.1 h7.2, not_isMine (α := Close) h8.1 h8.2]
    rfl

/-- The decoder of `Section` after the descriptor. -/
def Section.decBody (d : Descriptor) : Dec Section :=
  if Composite.isMine Header d then do return .header (← Composite.decInner)
  else if isSection 113 "amqp:delivery-annotations:map" d then do return .deliveryAnnotations (← dec)
  else if isSection 114 "amqp:message-annotations:map" d then do return .messageAnnotations (← dec)
  else if isSection 116 "amqp:application-properties:map" d then do return .applicationProperties (← dec)
  else if isSection 117 "amqp:data:binary" d then do return .data (← dec)
  else if isSection 118 "amqp:amqp-sequence:list" d then do return .amqpSequence (← dec)
  else if isSection 119 "amqp:amqp-value:*" d then do return .amqpValue (← dec)
  else if isSection 120 "amqp:footer:map" d then do return .footer (← dec)
  else if Composite.isMine Properties d then do return .properties (← Composite.decInner)
  else fail (.invalidDescriptor d)

/-- **C13** for message sections. -/
theorem c13_section_selected :
    Selects Header (dec : Dec Section) Section.header ∧ Selects Properties (dec : Dec Section) Section.properties ∧
    SelectsPlain VecSymbolMap 113 "amqp:delivery-annotations:map" Section.deliveryAnnotations ∧
    SelectsPlain VecSymbolMap 114 "amqp:message-annotations:map" Section.messageAnnotations ∧
    SelectsPlain VecStringMap 116 "amqp:application-properties:map" Section.applicationProperties ∧
    SelectsPlain Bytes 117 "amqp:data:binary" Section.data ∧
    SelectsPlain VList 118 "amqp:amqp-sequence:list" Section.amqpSequence ∧
    SelectsPlain Variant 119 "amqp:amqp-value:*" Section.amqpValue ∧
    SelectsPlain Annotations 120 "amqp:footer:map" Section.footer ∧
    RejectsOthers (dec : Dec Section)
      [(112, "amqp:header:list"), (115, "amqp:properties:list"), (113, "amqp:delivery-annotations:map"), (114, "amqp:message-annotations:map"), (116, "amqp:application-properties:map"), (117, "amqp:data:binary"), (118, "amqp:amqp-sequence:list"), (119, "amqp:amqp-value:*"), (120, "amqp:footer:map")] := by
  have hd : ∀ s r d, (dec : Dec Descriptor) s = .ok (d, r) → (dec : Dec Section) (0x00 :: s) = Section.decBody d r :=
    fun s r d h => section_dec h
  refine ⟨selects hd ?_, selects hd ?_, selectsPlain (by decide) (by decide) ?_, selectsPlain (by decide) (by decide) ?_, selectsPlain (by decide) (by decide) ?_, selectsPlain (by decide) (by decide) ?_, selectsPlain (by decide) (by decide) ?_, selectsPlain (by decide) (by decide) ?_, selectsPlain (by decide) (by decide) ?_, rejectsOthers hd ?_⟩
  · rintro d (rfl | rfl) <;> rfl
  · rintro d (rfl | rfl) <;> rfl
  · rintro s r d (rfl | rfl) h <;> exact (section_dec h).trans rfl
  · rintro s r d (rfl | rfl) h <;> exact (section_dec h).trans rfl
  · rintro s r d (rfl | rfl) h <;> exact (section_dec h).trans rfl
  · rintro s r d (rfl | rfl) h <;> exact (section_dec h).trans rfl
  · rintro s r d (rfl | rfl) h <;> exact (section_dec h).trans rfl
  · rintro s r d (rfl | rfl) h <;> exact (section_dec h).trans rfl
  · rintro s r d (rfl | rfl) h <;> exact (section_dec h).trans rfl
  · intro d h
    simp only [List.forall_mem_cons, List.not_mem_nil, false_imp_iff, implies_true, and_true] at h
    obtain ⟨h0, h1, p0, p1, p2, p3, p4, p5, p6⟩ := h
    have hp : ∀ (c : UInt64) (n : String), d ≠ .ulong c ∧ d ≠ .symbol (sym n) → isSection c n d = false := fun c n h => by
      simp [isSection, h.1, h.2]
    simp only [Section.decBody]
    rw [not_isMine (α := Header) h0.1 h0.2, not_isMine (α := Properties) h1.1 h1.2, hp _ _ p0, hp _ _ p1, hp _ _ p2, hp _ _ p3, hp _ _ p4, hp _ _ p5, hp _ _ p6]
    rfl

/-! ## C15 -/

/-- A chain of equality tests is a table lookup. -/
theorem lookup_cons_ite {B E : Type} [BEq B] [LawfulBEq B] [DecidableEq B] (b k : B) (e : E) (t : List (B × E)) :
    ((k, e) :: t).lookup b = if b = k then some e else t.lookup b := by
  by_cases h : b = k
  · subst h; simp [List.lookup]
  · rw [if_neg h, List.lookup, beq_eq_false_iff_ne.mpr h]

theorem Role.ofBase_table (b : Bool) : Role.ofBase b = match roleTable.lookup b with | some e => .ok e | Option.none => .error (.unknownEnumOption "Role") := by
  simp only [roleTable, lookup_cons_ite, List.lookup_nil, Role.ofBase]
  repeat' (split <;> try rfl)

theorem SenderSettleMode.ofBase_table (b : UInt8) : SenderSettleMode.ofBase b = match senderSettleModeTable.lookup b with | some e => .ok e | Option.none => .error (.unknownEnumOption "SenderSettleMode") := by
  simp only [senderSettleModeTable, lookup_cons_ite, List.lookup_nil, SenderSettleMode.ofBase]
  repeat' (split <;> try rfl)

theorem ReceiverSettleMode.ofBase_table (b : UInt8) : ReceiverSettleMode.ofBase b = match receiverSettleModeTable.lookup b with | some e => .ok e | Option.none => .error (.unknownEnumOption "ReceiverSettleMode") := by
  simp only [receiverSettleModeTable, lookup_cons_ite, List.lookup_nil, ReceiverSettleMode.ofBase]
  repeat' (split <;> try rfl)

theorem SaslCode.ofBase_table (b : UInt8) : SaslCode.ofBase b = match saslCodeTable.lookup b with | some e => .ok e | Option.none => .error (.unknownEnumOption "SaslCode") := by
  simp only [saslCodeTable, lookup_cons_ite, List.lookup_nil, SaslCode.ofBase]
  repeat' (split <;> try rfl)

theorem TerminusDurability.ofBase_table (b : UInt32) : TerminusDurability.ofBase b = match durabilityTable.lookup b with | some e => .ok e | Option.none => .error (.unknownEnumOption "TerminusDurability") := by
  simp only [durabilityTable, lookup_cons_ite, List.lookup_nil, TerminusDurability.ofBase]
  repeat' (split <;> try rfl)

theorem TerminusExpiryPolicy.ofBase_table (b : Symbol) : TerminusExpiryPolicy.ofBase b = match expiryTable.lookup b with | some e => .ok e | Option.none => .error (.unknownEnumOption "TerminusExpiryPolicy") := by
  simp only [expiryTable, lookup_cons_ite, List.lookup_nil, TerminusExpiryPolicy.ofBase]
  repeat' (split <;> try rfl)

theorem AmqpError.ofBase_table (b : Symbol) : AmqpError.ofBase b = match amqpErrorTable.lookup b with | some e => .ok e | Option.none => .error (.unknownEnumOption "AmqpError") := by
  simp only [amqpErrorTable, lookup_cons_ite, List.lookup_nil, AmqpError.ofBase]
  by_cases h0 : b = sym "amqp:internal-error"
  · simp only [if_pos h0]
  simp only [if_neg h0]
  by_cases h1 : b = sym "amqp:not-found"
  · simp only [if_pos h1]
  simp only [if_neg h1]
  by_cases h2 : b = sym "amqp:unauthorized-access"
  · simp only [if_pos h2]
  simp only [if_neg h2]
  by_cases h3 : b = sym "amqp:decode-error"
  · simp only [if_pos h3]
  simp only [if_neg h3]
  by_cases h4 : b = sym "amqp:resource-limit-exceeded"
  · simp only [if_pos h4]
  simp only [if_neg h4]
  by_cases h5 : b = sym "amqp:not-allowed"
  · simp only [if_pos h5]
  simp only [if_neg h5]
  by_cases h6 : b = sym "amqp:invalid-field"
  · simp only [if_pos h6]
  simp only [if_neg h6]
  by_cases h7 : b = sym "amqp:not-implemented"
  · simp only [if_pos h7]
  simp only [if_neg h7]
  by_cases h8 : b = sym "amqp:resource-locked"
  · simp only [if_pos h8]
  simp only [if_neg h8]
  by_cases h9 : b = sym "amqp:precondition-failed"
  · simp only [if_pos h9]
  simp only [if_neg h9]
  by_cases h10 : b = sym "amqp:resource-deleted"
  · simp only [if_pos h10]
  simp only [if_neg h10]
  by_cases h11 : b = sym "amqp:illegal-state"
  · simp only [if_pos h11]
  simp only [if_neg h11]
  by_cases h12 : b = sym "amqp:frame-size-too-small"
  · simp only [if_pos h12]
  simp only [if_neg h12]

theorem ConnectionError.ofBase_table (b : Symbol) : ConnectionError.ofBase b = match connectionErrorTable.lookup b with | some e => .ok e | Option.none => .error (.unknownEnumOption "ConnectionError") := by
  simp only [connectionErrorTable, lookup_cons_ite, List.lookup_nil, ConnectionError.ofBase]
  repeat' (split <;> try rfl)

theorem SessionError.ofBase_table (b : Symbol) : SessionError.ofBase b = match sessionErrorTable.lookup b with | some e => .ok e | Option.none => .error (.unknownEnumOption "SessionError") := by
  simp only [sessionErrorTable, lookup_cons_ite, List.lookup_nil, SessionError.ofBase]
  repeat' (split <;> try rfl)

theorem LinkError.ofBase_table (b : Symbol) : LinkError.ofBase b = match linkErrorTable.lookup b with | some e => .ok e | Option.none => .error (.unknownEnumOption "LinkError") := by
  simp only [linkErrorTable, lookup_cons_ite, List.lookup_nil, LinkError.ofBase]
  repeat' (split <;> try rfl)

/-- **C15** Every closed enumeration accepts exactly the specified wire values and writes them. -/
theorem c15_enumerations :
    IsEnumeration Role Bool "Role" roleTable ∧
    IsEnumeration SenderSettleMode UInt8 "SenderSettleMode" senderSettleModeTable ∧
    IsEnumeration ReceiverSettleMode UInt8 "ReceiverSettleMode" receiverSettleModeTable ∧
    IsEnumeration SaslCode UInt8 "SaslCode" saslCodeTable ∧
    IsEnumeration TerminusDurability UInt32 "TerminusDurability" durabilityTable ∧
    IsEnumeration TerminusExpiryPolicy Symbol "TerminusExpiryPolicy" expiryTable ∧
    IsEnumeration AmqpError Symbol "AmqpError" amqpErrorTable ∧
    IsEnumeration ConnectionError Symbol "ConnectionError" connectionErrorTable ∧
    IsEnumeration SessionError Symbol "SessionError" sessionErrorTable ∧
    IsEnumeration LinkError Symbol "LinkError" linkErrorTable := by
  refine ⟨isEnumeration (ofB := Role.ofBase) (fun _ => rfl) ?_ ?_ ?_, isEnumeration (ofB := SenderSettleMode.ofBase) (fun _ => rfl) ?_ ?_ ?_, isEnumeration (ofB := ReceiverSettleMode.ofBase) (fun _ => rfl) ?_ ?_ ?_, isEnumeration (ofB := SaslCode.ofBase) (fun _ => rfl) ?_ ?_ ?_, isEnumeration (ofB := TerminusDurability.ofBase) (fun _ => rfl) ?_ ?_ ?_, isEnumeration (ofB := TerminusExpiryPolicy.ofBase) (fun _ => rfl) ?_ ?_ ?_, isEnumeration (ofB := AmqpError.ofBase) (fun _ => rfl) ?_ ?_ ?_, isEnumeration (ofB := ConnectionError.ofBase) (fun _ => rfl) ?_ ?_ ?_, isEnumeration (ofB := SessionError.ofBase) (fun _ => rfl) ?_ ?_ ?_, isEnumeration (ofB := LinkError.ofBase) (fun _ => rfl) ?_ ?_ ?_⟩
  · intro b; rw [Role.ofBase_table b]; cases roleTable.lookup b <;> rfl
  · simp only [roleTable, List.forall_mem_cons, List.not_mem_nil, false_imp_iff, implies_true, and_true]
    exact ⟨rfl, rfl⟩
  · intro e; exact ⟨e.toBase, by cases e <;> simp [roleTable, Role.toBase]⟩
  · intro b; rw [SenderSettleMode.ofBase_table b]; cases senderSettleModeTable.lookup b <;> rfl
  · simp only [senderSettleModeTable, List.forall_mem_cons, List.not_mem_nil, false_imp_iff, implies_true, and_true]
    exact ⟨rfl, rfl, rfl⟩
  · intro e; exact ⟨e.toBase, by cases e <;> simp [senderSettleModeTable, SenderSettleMode.toBase]⟩
  · intro b; rw [ReceiverSettleMode.ofBase_table b]; cases receiverSettleModeTable.lookup b <;> rfl
  · simp only [receiverSettleModeTable, List.forall_mem_cons, List.not_mem_nil, false_imp_iff, implies_true, and_true]
    exact ⟨rfl, rfl⟩
  · intro e; exact ⟨e.toBase, by cases e <;> simp [receiverSettleModeTable, ReceiverSettleMode.toBase]⟩
  · intro b; rw [SaslCode.ofBase_table b]; cases saslCodeTable.lookup b <;> rfl
  · simp only [saslCodeTable, List.forall_mem_cons, List.not_mem_nil, false_imp_iff, implies_true, and_true]
    exact ⟨rfl, rfl, rfl, rfl, rfl⟩
  · intro e; exact ⟨e.toBase, by cases e <;> simp [saslCodeTable, SaslCode.toBase]⟩
  · intro b; rw [TerminusDurability.ofBase_table b]; cases durabilityTable.lookup b <;> rfl
  · simp only [durabilityTable, List.forall_mem_cons, List.not_mem_nil, false_imp_iff, implies_true, and_true]
    exact ⟨rfl, rfl, rfl⟩
  · intro e; exact ⟨e.toBase, by cases e <;> simp [durabilityTable, TerminusDurability.toBase]⟩
  · intro b; rw [TerminusExpiryPolicy.ofBase_table b]; cases expiryTable.lookup b <;> rfl
  · simp only [expiryTable, List.forall_mem_cons, List.not_mem_nil, false_imp_iff, implies_true, and_true]
    exact ⟨rfl, rfl, rfl, rfl⟩
  · intro e; exact ⟨e.toBase, by cases e <;> simp [expiryTable, TerminusExpiryPolicy.toBase]⟩
  · intro b; rw [AmqpError.ofBase_table b]; cases amqpErrorTable.lookup b <;> rfl
  · simp only [amqpErrorTable, List.forall_mem_cons, List.not_mem_nil, false_imp_iff, implies_true, and_true]
    exact ⟨rfl, rfl, rfl, rfl, rfl, rfl, rfl, rfl, rfl, rfl, rfl, rfl, rfl⟩
  · intro e; exact ⟨e.toBase, by cases e <;> simp [amqpErrorTable, AmqpError.toBase]⟩
  · intro b; rw [ConnectionError.ofBase_table b]; cases connectionErrorTable.lookup b <;> rfl
  · simp only [connectionErrorTable, List.forall_mem_cons, List.not_mem_nil, false_imp_iff, implies_true, and_true]
    exact ⟨rfl, rfl, rfl⟩
  · intro e; exact ⟨e.toBase, by cases e <;> simp [connectionErrorTable, ConnectionError.toBase]⟩
  · intro b; rw [SessionError.ofBase_table b]; cases sessionErrorTable.lookup b <;> rfl
  · simp only [sessionErrorTable, List.forall_mem_cons, List.not_mem_nil, false_imp_iff, implies_true, and_true]
    exact ⟨rfl, rfl, rfl, rfl⟩
  · intro e; exact ⟨e.toBase, by cases e <;> simp [sessionErrorTable, SessionError.toBase]⟩
  · intro b; rw [LinkError.ofBase_table b]; cases linkErrorTable.lookup b <;> rfl
  · simp only [linkErrorTable, List.forall_mem_cons, List.not_mem_nil, false_imp_iff, implies_true, and_true]
    exact ⟨rfl, rfl, rfl, rfl, rfl⟩
  · intro e; exact ⟨e.toBase, by cases e <;> simp [linkErrorTable, LinkError.toBase]⟩

theorem lookup_map_snd {B E F : Type} [BEq B] (g : E → F) (t : List (B × E)) (b : B) :
    (t.map fun p => (p.1, g p.2)).lookup b = (t.lookup b).map g := by
  induction t with
  | nil => rfl
  | cons p t ih => simp only [List.map_cons, List.lookup]; cases b == p.1 <;> simp [ih]

theorem lookup_append {B E : Type} [BEq B] (t u : List (B × E)) (b : B) :
    (t ++ u).lookup b = (t.lookup b).or (u.lookup b) := by
  induction t with
  | nil => rfl
  | cons p t ih => simp only [List.cons_append, List.lookup]; cases b == p.1 <;> simp [ih]

/-- **C15** The open enumerations recognise the specified symbols and keep every other symbol. -/
theorem c15_open_enumerations :
    IsOpenEnumeration ErrorCondition errorConditionTable ErrorCondition.custom ∧
    IsOpenEnumeration DistributionMode distributionModeTable DistributionMode.custom := by
  refine ⟨isOpenEnumeration (ofS := ErrorCondition.ofSymbol) (fun _ => rfl) ?_ ?_ (fun _ => rfl),
    isOpenEnumeration (ofS := DistributionMode.ofSymbol) (fun _ => rfl) ?_ ?_ (fun _ => rfl)⟩
  · intro b
    simp only [errorConditionTable, lookup_append, lookup_map_snd, ErrorCondition.ofSymbol,
      AmqpError.ofBase_table, ConnectionError.ofBase_table, SessionError.ofBase_table, LinkError.ofBase_table]
    cases amqpErrorTable.lookup b <;> cases connectionErrorTable.lookup b <;>
      cases sessionErrorTable.lookup b <;> cases linkErrorTable.lookup b <;> rfl
  · intro p hp
    obtain ⟨-, -, -, -, -, -, ha, hc, hs, hl⟩ := c15_enumerations
    simp only [errorConditionTable, List.mem_append, List.mem_map] at hp
    rcases hp with ((⟨q, hq, rfl⟩ | ⟨q, hq, rfl⟩) | ⟨q, hq, rfl⟩) | ⟨q, hq, rfl⟩
    · exact ha.2.1 q hq
    · exact hc.2.1 q hq
    · exact hs.2.1 q hq
    · exact hl.2.1 q hq
  · intro b
    simp only [distributionModeTable, lookup_cons_ite, List.lookup_nil, DistributionMode.ofSymbol]
    by_cases h : b = sym "move"
    · simp only [if_pos h]; rfl
    simp only [if_neg h]
    by_cases h : b = sym "copy"
    · simp only [if_pos h]; rfl
    simp only [if_neg h]; rfl
  · simp only [distributionModeTable, List.forall_mem_cons, List.not_mem_nil, false_imp_iff, implies_true, and_true]
    exact ⟨rfl, rfl⟩

/-- A custom condition spelled like a specified one is read as the specified one. -/
theorem c15_custom_absorbed :
    (dec : Dec ErrorCondition) (enc (ErrorCondition.custom (sym "amqp:not-found"))) =
      .ok (.amqpError .notFound, []) ∧
    (dec : Dec DistributionMode) (enc (DistributionMode.custom (sym "move"))) = .ok (.move, []) := by
  have h (n : String) (hw : wf (sym n)) : (dec : Dec Symbol) (enc (sym n)) = .ok (sym n, []) := by
    simpa using rt_dec hw []
  constructor
  · rw [c15_open_enumerations.1.1, c15_open_enumerations.1.2.2, h _ ⟨utf8_of_ascii _ (by decide), by decide⟩]
    rfl
  · rw [c15_open_enumerations.2.1, c15_open_enumerations.2.2.2, h _ ⟨utf8_of_ascii _ (by decide), by decide⟩]
    rfl

example : (dec : Dec ErrorCondition) (enc (sym "x:custom") ++ [7]) = .ok (.custom (sym "x:custom"), [7]) := by
  rw [(c15_open_enumerations).1.1, rt_dec (show wf (sym "x:custom") from ⟨utf8_of_ascii _ (by decide), by decide⟩)]
  rfl

example : (dec : Dec SaslCode) [0x50, 5] = .error (.unknownEnumOption "SaslCode") := rfl

example : Introduces Close [0x00, 0x53, 0x18] := .small (by decide)

example : Frame.decode [0x00, 0x53, 0x18, 0x45] = .ok (.close ⟨none⟩, []) := rfl

end Amqp
