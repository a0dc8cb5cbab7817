import Verif.Lemmas.Message
import Verif.Spec.Frame
/-! Laws of frames. -/

namespace Amqp
open Dec

theorem Transfer.esize_eq {t : Transfer} (h : wf t) : t.esize = t.tenc.length := by
  obtain ⟨head, body⟩ := t
  obtain ⟨_, h2⟩ := h
  rw [Transfer.esize, Transfer.tenc, List.length_append, SizeWire.size_eq]
  cases body with
  | none => rfl
  | some b => simp only [optSum, optEnc, Amqp.esize_eq b (h2 b rfl)]

theorem Transfer.tenc_eq (t : Transfer) : t.tenc = enc t.head ++ t.payload := by
  obtain ⟨head, body⟩ := t
  cases body <;> rfl

theorem Frame.esize_eq {f : Frame} (h : wf f) : f.esize = f.encode.length := by
  cases f with
  | empty => rfl
  | transfer v => exact Transfer.esize_eq h
  | _ v => exact (SizeWire.size_eq v).symm

theorem Frame.decode_described {s r : Bytes} {d : Descriptor} (h : (dec : Dec Descriptor) s = .ok (d, r)) :
    Frame.decode (FC.described :: s) = Frame.decBody d r := by
  have hi : Frame.decode (FC.described :: s) = if FC.described = FC.described then
      ((dec : Dec Descriptor) >>= fun d => Frame.decBody d) s else .error (.invalidFormatCode FC.described) := rfl
  rw [hi, if_pos rfl, Dec.bind_ok h]

theorem Frame.composite_rt {α : Type} [Composite α] [WF α] [Layout α] [LawfulComposite α] {f : α → Frame} {v : α}
    (h : wf v) (hd : Frame.decBody (.ulong (Composite.code α)) = (do return f (← Composite.decInner))) (rest : Bytes) :
    Frame.decode (Composite.encode v ++ rest) = .ok (f v, rest) := by
  rw [Composite.encode_eq, List.cons_append, List.cons_append, List.cons_append, Frame.decode_described (Composite.dec_descriptor _), hd]
  exact Dec.map_ok (f := f) (Composite.decInner_enc v h rest)

theorem Transfer.decInner_enc {t : Transfer} (h : wf t) :
    Frame.decode t.tenc = .ok (.transfer t.asReceived, []) := by
  have hb : Frame.decBody (.ulong (Composite.code TransferHead)) = (do return .transfer (← Transfer.decInner)) := by
    simp [Frame.decBody, Composite.isMine, Composite.code]
  rw [Transfer.tenc_eq]
  rw [show enc t.head = Composite.encode t.head from rfl, Composite.encode_eq, List.cons_append,
    List.cons_append, List.cons_append, Frame.decode_described (Composite.dec_descriptor _), hb]
  have hi : Transfer.decInner = (Composite.decInner : Dec TransferHead) >>= fun head =>
      (⟨fun s => .ok ({ head, body := if s = [] then none else some (.data s) }, [])⟩ : Dec Transfer) := rfl
  refine Dec.map_ok (f := Frame.transfer) (m := Transfer.decInner) ?_
  rw [hi, Dec.bind_ok (Composite.decInner_enc t.head h.1 t.payload)]
  rfl

theorem Frame.decode_encode {f : Frame} (h : wf f) : Frame.decode f.encode = .ok (f.asReceived, []) := by
  cases f with
  | empty => rfl
  | transfer v => exact Transfer.decInner_enc h
  | open_ v =>
    have := Frame.composite_rt (v := v) h (f := Frame.open_) (by simp [Frame.decBody, Composite.isMine, Composite.code]) []
    rwa [List.append_nil] at this
  | begin_ v =>
    have := Frame.composite_rt (v := v) h (f := Frame.begin_) (by simp [Frame.decBody, Composite.isMine, Composite.code]) []
    rwa [List.append_nil] at this
  | attach v =>
    have := Frame.composite_rt (v := v) h (f := Frame.attach) (by simp [Frame.decBody, Composite.isMine, Composite.code]) []
    rwa [List.append_nil] at this
  | flow v =>
    have := Frame.composite_rt (v := v) h (f := Frame.flow) (by simp [Frame.decBody, Composite.isMine, Composite.code]) []
    rwa [List.append_nil] at this
  | disposition v =>
    have := Frame.composite_rt (v := v) h (f := Frame.disposition) (by simp [Frame.decBody, Composite.isMine, Composite.code]) []
    rwa [List.append_nil] at this
  | detach v =>
    have := Frame.composite_rt (v := v) h (f := Frame.detach) (by simp [Frame.decBody, Composite.isMine, Composite.code]) []
    rwa [List.append_nil] at this
  | end_ v =>
    have := Frame.composite_rt (v := v) h (f := Frame.end_) (by simp [Frame.decBody, Composite.isMine, Composite.code]) []
    rwa [List.append_nil] at this
  | close v =>
    have := Frame.composite_rt (v := v) h (f := Frame.close) (by simp [Frame.decBody, Composite.isMine, Composite.code]) []
    rwa [List.append_nil] at this

theorem decFrameHeader_enc (ty : UInt8) (ch : UInt16) (rest : Bytes) :
    decFrameHeader ty ([2, ty] ++ be 2 ch.toNat ++ rest) = .ok (ch, rest) := by
  have h2 : ∃ a b, be 2 ch.toNat = [a, b] := ⟨_, _, rfl⟩
  obtain ⟨a, b, hab⟩ := h2
  have hn := beNat_be 2 ch.toNat
  rw [hab] at hn ⊢
  have hl := ch.toNat_lt
  rw [Nat.mod_eq_of_lt (by simpa using hl)] at hn
  simp [decFrameHeader, hn]

theorem AmqpFrame.esize_eq {f : AmqpFrame} (h : wf f) : f.esize = f.encode.length := by
  simp [AmqpFrame.esize, AmqpFrame.encode, Frame.esize_eq h.1]; omega

theorem SaslFrame.esize_eq (f : SaslFrame) : f.esize = f.encode.length := by
  simp [SaslFrame.esize, SaslFrame.encode, SizeWire.size_eq]; omega

theorem AmqpFrame.decode_encode {f : AmqpFrame} (h : wf f) :
    AmqpFrame.decode (f.encode.drop 4) = .ok (f.asReceived, []) := by
  have he : f.encode.drop 4 = [2, 0] ++ be 2 f.channel.toNat ++ f.performative.encode := by
    rw [AmqpFrame.encode, List.append_assoc, List.append_assoc, List.drop_left' (be_length 4 _), List.append_assoc]
  have hi : AmqpFrame.decode = decFrameHeader 0 >>= fun channel => Frame.decode >>= fun performative =>
      pure { channel, performative } := rfl
  rw [he, hi, Dec.bind_ok (decFrameHeader_enc 0 f.channel _), Dec.bind_ok (Frame.decode_encode h.1)]
  rfl

theorem SaslFrame.decode_encode {f : SaslFrame} (h : wf f) :
    SaslFrame.decode (f.encode.drop 4) = .ok (f, []) := by
  have he : f.encode.drop 4 = [2, 1] ++ be 2 (0 : UInt16).toNat ++ enc f.body := by
    rw [SaslFrame.encode, List.append_assoc, List.append_assoc, List.drop_left' (be_length 4 _), List.append_assoc]; rfl
  have hi : SaslFrame.decode = decFrameHeader 1 >>= fun _ => (dec : Dec SaslFrameBody) >>= fun body =>
      pure { body } := rfl
  have := rt_dec h.1 []
  rw [List.append_nil] at this
  rw [he, hi, Dec.bind_ok (decFrameHeader_enc 1 0 _), Dec.bind_ok this]
  rfl

theorem AmqpFrame.raw {f : AmqpFrame} (h : wf f) : 8 ≤ f.encode.length ∧ beNat (f.encode.take 4) = f.encode.length := by
  have hl := AmqpFrame.esize_eq h
  have hs := Frame.esize_eq h.1
  have hw := h.2
  refine ⟨by rw [← hl, AmqpFrame.esize]; omega, ?_⟩
  rw [← hl]
  rw [AmqpFrame.encode, List.append_assoc, List.append_assoc, List.take_left' (be_length 4 _), beNat_be, Nat.mod_eq_of_lt]
  rw [AmqpFrame.esize, hs]; simp only [U32] at hw; omega

theorem SaslFrame.raw {f : SaslFrame} (h : wf f) : 8 ≤ f.encode.length ∧ beNat (f.encode.take 4) = f.encode.length := by
  have hl := SaslFrame.esize_eq f
  have hw := h.2
  rw [SizeWire.size_eq] at hw
  refine ⟨by rw [← hl, SaslFrame.esize]; omega, ?_⟩
  rw [← hl]
  rw [SaslFrame.encode, List.append_assoc, List.append_assoc, List.take_left' (be_length 4 _), beNat_be, Nat.mod_eq_of_lt]
  rw [SaslFrame.esize]; simp only [U32] at hw; omega

end Amqp
