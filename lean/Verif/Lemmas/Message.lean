import Verif.Lemmas.Structs
import Verif.Spec.Message
/-! Laws of sections and messages. -/

namespace Amqp
open Dec

theorem restricted_rt {α : Type} [Wire α] [WF α] [LawfulWire α] {f : α → Section} {v : α} {c : UInt64}
    (hc0 : c ≠ 0) (hc : c ≤ 255) (h : wf v) (he : enc (f v) = enc (Descriptor.ulong c) ++ enc v)
    (hd : ∀ s r, (dec : Dec Descriptor) s = .ok (.ulong c, r) →
      (decF FC.described : Dec Section) s = (do return f (← dec) : Dec Section) r) : RTF (f v) := by
  rw [Composite.descriptor_head hc0 hc] at he
  refine ⟨FC.described, _, he, fun rest => ?_⟩
  have hds : (dec : Dec Descriptor) (FC.smallulong :: c.toUInt8 :: (enc v ++ rest)) = .ok (.ulong c, enc v ++ rest) :=
    Dec.map_ok (f := Descriptor.ulong) (rt_smallulong c (by simpa [UInt64.not_lt] using hc) _)
  have := hd _ _ hds
  exact this.trans (Dec.map_ok (f := f) (rt_dec h rest))

theorem section_dec {s r : Bytes} {d : Descriptor} (h : (dec : Dec Descriptor) s = .ok (d, r)) :
    (decF FC.described : Dec Section) s = (
      if Composite.isMine Header d then do return .header (← Composite.decInner)
      else if isSection 113 "amqp:delivery-annotations:map" d then do return .deliveryAnnotations (← dec)
      else if isSection 114 "amqp:message-annotations:map" d then do return .messageAnnotations (← dec)
      else if isSection 116 "amqp:application-properties:map" d then do return .applicationProperties (← dec)
      else if isSection 117 "amqp:data:binary" d then do return .data (← dec)
      else if isSection 118 "amqp:amqp-sequence:list" d then do return .amqpSequence (← dec)
      else if isSection 119 "amqp:amqp-value:*" d then do return .amqpValue (← dec)
      else if isSection 120 "amqp:footer:map" d then do return .footer (← dec)
      else if Composite.isMine Properties d then do return .properties (← Composite.decInner)
      else fail (.invalidDescriptor d) : Dec Section) r := by
  show Section.decodeF FC.described s = _
  rw [Section.decodeF, if_pos rfl, Dec.bind_ok h]

instance : LawfulWire Section where
  rt x h := by
    cases x with
    | header v => exact sum_rt (f := Section.header) h rfl (fun d hd => by
        rw [section_dec hd]
        simp [Composite.isMine, Composite.code])
    | properties v => exact sum_rt (f := Section.properties) h rfl (fun d hd => by
        rw [section_dec hd]
        simp [Composite.isMine, Composite.code, isSection])
    | deliveryAnnotations v => exact restricted_rt (f := Section.deliveryAnnotations) (c := 113) (by decide) (by decide) h rfl (fun s r hd => by
        rw [section_dec hd]
        simp [Composite.isMine, Composite.code, isSection])
    | messageAnnotations v => exact restricted_rt (f := Section.messageAnnotations) (c := 114) (by decide) (by decide) h rfl (fun s r hd => by
        rw [section_dec hd]
        simp [Composite.isMine, Composite.code, isSection])
    | applicationProperties v => exact restricted_rt (f := Section.applicationProperties) (c := 116) (by decide) (by decide) h rfl (fun s r hd => by
        rw [section_dec hd]
        simp [Composite.isMine, Composite.code, isSection])
    | data v => exact restricted_rt (f := Section.data) (c := 117) (by decide) (by decide) h rfl (fun s r hd => by
        rw [section_dec hd]
        simp [Composite.isMine, Composite.code, isSection])
    | amqpSequence v => exact restricted_rt (f := Section.amqpSequence) (c := 118) (by decide) (by decide) h rfl (fun s r hd => by
        rw [section_dec hd]
        simp [Composite.isMine, Composite.code, isSection])
    | amqpValue v => exact restricted_rt (f := Section.amqpValue) (c := 119) (by decide) (by decide) h rfl (fun s r hd => by
        rw [section_dec hd]
        simp [Composite.isMine, Composite.code, isSection])
    | footer v => exact restricted_rt (f := Section.footer) (c := 120) (by decide) (by decide) h rfl (fun s r hd => by
        rw [section_dec hd]
        simp [Composite.isMine, Composite.code, isSection])

theorem ulong_descr_length (c : UInt64) (hc0 : c ≠ 0) (hc : c ≤ 255) : (enc (Descriptor.ulong c)).length = 3 := by
  rw [Composite.descriptor_head hc0 hc]; rfl

instance : SizeWire Section where
  size_eq x := by
    cases x with
    | header v => exact SizeWire.size_eq v
    | properties v => exact SizeWire.size_eq v
    | _ v =>
      show (enc (Descriptor.ulong _) ++ enc v).length = 3 + size v
      rw [List.length_append, ulong_descr_length _ (by decide) (by decide), SizeWire.size_eq v]

instance : GoodWire Section where
  good fmt := .ite (.bind .dec fun d =>
    .ite (Composite.decInner_good.bind fun _ => .pure _) <| .ite (Good.dec.bind fun _ => .pure _) <|
    .ite (Good.dec.bind fun _ => .pure _) <| .ite (Good.dec.bind fun _ => .pure _) <| .ite (Good.dec.bind fun _ => .pure _) <|
    .ite (Good.dec.bind fun _ => .pure _) <| .ite (Good.dec.bind fun _ => .pure _) <| .ite (Good.dec.bind fun _ => .pure _) <|
    .ite (Composite.decInner_good.bind fun _ => .pure _) <| .fail (by simp)) (.fail (by simp))

/-! ## Sizes -/

theorem optSum_eq {f : α → Nat} {g : α → Bytes} (h : ∀ a, (g a).length = f a) (o : Option α) :
    (optEnc g o).length = optSum f o := by
  cases o with
  | none => rfl
  | some a => exact h a

theorem flatMap_length_sum {f : α → Nat} {g : α → Bytes} (h : ∀ a, (g a).length = f a) (l : List α) :
    (l.flatMap g).length = (l.map f).sum := by
  induction l with
  | nil => rfl
  | cons a l ih => simp [h a, ih]

theorem prefixed_length [Wire α] [SizeWire α] (c : UInt64) (hc0 : c ≠ 0) (hc : c ≤ 255) (v : α) :
    (enc (Descriptor.ulong c) ++ enc v).length = size v + 3 := by
  rw [List.length_append, ulong_descr_length c hc0 hc, SizeWire.size_eq]; omega

theorem encHead_length (m : MessageOf T) (n : Nat) :
    (encHead m).length + n + (encFooter m).length = headSize m n := by
  simp only [encHead, encFooter, headSize, List.length_append]
  rw [optSum_eq (f := size) SizeWire.size_eq m.header, optSum_eq (f := size) SizeWire.size_eq m.properties,
    optSum_eq (prefixed_length 113 (by decide) (by decide)) m.deliveryAnnotations,
    optSum_eq (prefixed_length 114 (by decide) (by decide)) m.messageAnnotations,
    optSum_eq (prefixed_length 116 (by decide) (by decide)) m.applicationProperties,
    optSum_eq (prefixed_length 120 (by decide) (by decide)) m.footer]
  omega

theorem encBody_length (b : BodyOf T) (n : Nat) : (encBody b).length + n = bodySize b n := by
  simp only [encBody, bodySize, List.length_append]
  rw [flatMap_length_sum (prefixed_length 117 (by decide) (by decide)) b.data,
    flatMap_length_sum (prefixed_length 118 (by decide) (by decide)) b.sequence,
    optSum_eq (prefixed_length 119 (by decide) (by decide)) b.value]
  omega

theorem binHeader_length (n : Nat) : (binHeader n).length = if n > 255 then 5 else 2 := by
  simp only [binHeader]; split <;> simp

mutual
theorem esize_eq : ∀ t : TransferBody, t.coherent → t.esize = t.tenc.length
  | .data b, _ => by rw [TransferBody.esize, TransferBody.tenc]
  | .message m, h => by
    have ih := sizes_eq m.body.messages
    rw [TransferBody.coherent] at h
    obtain ⟨h1, h2⟩ := h
    rw [TransferBody.esize]
    split
    · rcases h1 with h1 | h1
      · contradiction
      · exact h1
    · rw [TransferBody.tenc, List.length_append, List.length_append, List.length_append, ih h2, encBody_length,
        encHead_length]
theorem sizes_eq : ∀ l : List TransferBody, TransferBody.coherentAll l → (TransferBody.encAll l).length = TransferBody.sizes l
  | [], _ => by rw [TransferBody.encAll, TransferBody.sizes]; rfl
  | t :: l, h => by
    have i1 := esize_eq t
    have i2 := sizes_eq l
    rw [TransferBody.coherentAll] at h
    rw [TransferBody.encAll, TransferBody.sizes, List.length_append, List.length_append, List.length_append, i2 h.2,
      ulong_descr_length _ (by decide) (by decide), binHeader_length, i1 h.1]
    omega
end

theorem Message.esize_eq {m : Message} (h : m.coherent) : m.esize = m.encode.length := Amqp.esize_eq _ h

mutual
theorem esize_touch : ∀ t : TransferBody, t.touch.esize = t.esize
  | .data b => by rw [TransferBody.touch]
  | .message m => by
    have ih := sizes_touch m.body.messages
    rw [TransferBody.touch]
    split
    · rfl
    · rename_i hc
      rw [TransferBody.esize]
      simp only [bodySize, headSize, ih]
      conv => rhs; rw [TransferBody.esize, if_neg hc]
      simp only [bodySize, headSize]
      split <;> rfl
theorem sizes_touch : ∀ l : List TransferBody, TransferBody.sizes (TransferBody.touchAll l) = TransferBody.sizes l
  | [] => by rw [TransferBody.touchAll]
  | t :: l => by
    have i1 := esize_touch t
    have i2 := sizes_touch l
    rw [TransferBody.touchAll, TransferBody.sizes, TransferBody.sizes, i1, i2]
end

mutual
theorem tenc_touch : ∀ t : TransferBody, t.touch.tenc = t.tenc
  | .data b => by rw [TransferBody.touch]
  | .message m => by
    have ih := encAll_touch m.body.messages
    rw [TransferBody.touch]
    split
    · rfl
    · rw [TransferBody.tenc, TransferBody.tenc]
      simp only [ih]
      rfl
theorem encAll_touch : ∀ l : List TransferBody, TransferBody.encAll (TransferBody.touchAll l) = TransferBody.encAll l
  | [] => by rw [TransferBody.touchAll]
  | t :: l => by
    have i1 := tenc_touch t
    have i2 := encAll_touch l
    rw [TransferBody.touchAll, TransferBody.encAll, TransferBody.encAll, i1, i2, esize_touch]
end

mutual
theorem coherent_touch : ∀ t : TransferBody, t.coherent → t.touch.coherent
  | .data b, h => by rw [TransferBody.touch]; exact h
  | .message m, h => by
    have ih := coherentAll_touch m.body.messages
    have h0 := h
    rw [TransferBody.coherent] at h
    have ht := tenc_touch (.message m)
    have hs := esize_eq (.message m) h0
    rw [TransferBody.touch] at ht ⊢
    split
    · exact h0
    · rename_i hc
      rw [TransferBody.coherent]
      rw [if_neg hc] at ht
      rw [TransferBody.esize, if_neg hc] at hs
      exact ⟨.inr (by rw [ht]; exact hs), ih h.2⟩
theorem coherentAll_touch : ∀ l : List TransferBody, TransferBody.coherentAll l → TransferBody.coherentAll (TransferBody.touchAll l)
  | [], h => by rw [TransferBody.touchAll]; exact h
  | t :: l, h => by
    have i1 := coherent_touch t
    have i2 := coherentAll_touch l
    rw [TransferBody.coherentAll] at h
    rw [TransferBody.touchAll, TransferBody.coherentAll]
    exact ⟨i1 h.1, i2 h.2⟩
end

theorem Message.touch_eq (m : Message) : TransferBody.message m.touch = (TransferBody.message m).touch := by
  rw [Message.touch, TransferBody.touch]
  split
  · rfl
  · rename_i hc
    rw [Message.esize, TransferBody.esize, if_neg hc]

/-! ## Decoding -/

/-- The sections a message is written as. -/
def Message.sections (m : Message) : List Section :=
  m.header.toList.map .header ++ m.deliveryAnnotations.toList.map .deliveryAnnotations ++
    m.messageAnnotations.toList.map .messageAnnotations ++ m.properties.toList.map .properties ++
    m.applicationProperties.toList.map .applicationProperties ++
    (m.body.data.map .data ++ m.body.sequence.map .amqpSequence ++ m.body.value.toList.map .amqpValue ++
      m.body.messages.map (fun t => .data t.tenc)) ++ m.footer.toList.map .footer

theorem opt_flatMap [Wire α] (f : α → Section) (g : α → Bytes) (h : ∀ a, enc (f a) = g a) (o : Option α) :
    (o.toList.map f).flatMap enc = optEnc g o := by
  cases o with
  | none => rfl
  | some a => simp [optEnc, h]

theorem encAll_sections : ∀ l : List TransferBody, TransferBody.coherentAll l →
    (l.map (fun t => Section.data t.tenc)).flatMap enc = TransferBody.encAll l
  | [], _ => by rw [TransferBody.encAll]; rfl
  | t :: l, h => by
    rw [TransferBody.coherentAll] at h
    rw [TransferBody.encAll, List.map_cons, List.flatMap_cons, encAll_sections l h.2, esize_eq t h.1]
    congr 1
    show enc (Descriptor.ulong 117) ++ encVar FC.binary8 FC.binary32 t.tenc = _
    rw [List.append_assoc]
    congr 1
    rw [encVar, binHeader]
    split <;> rfl

theorem Message.encode_sections (m : Message) (h : TransferBody.coherentAll m.body.messages) :
    m.encode = m.sections.flatMap enc := by
  rw [Message.encode, TransferBody.tenc, Message.sections]
  simp only [List.flatMap_append]
  rw [encAll_sections _ h, opt_flatMap .header enc (fun _ => rfl), opt_flatMap .properties enc (fun _ => rfl),
    opt_flatMap .deliveryAnnotations _ (fun _ => rfl), opt_flatMap .messageAnnotations _ (fun _ => rfl),
    opt_flatMap .applicationProperties _ (fun _ => rfl), opt_flatMap .amqpValue _ (fun _ => rfl),
    opt_flatMap .footer _ (fun _ => rfl), List.flatMap_map, List.flatMap_map]
  rfl

theorem decodeLoop_sections : ∀ (secs : List Section) (n : Nat) (m : Message), (∀ s ∈ secs, wf s) →
    (secs.flatMap enc).length ≤ n → Message.decodeLoop n m (secs.flatMap enc) = .ok (secs.foldl Message.addSection m)
  | [], n, m, _, _ => by
    show Message.decodeLoop n m [] = _
    cases n <;> rfl
  | s :: secs, n, m, h, hn => by
    obtain ⟨c, tl, he, hd⟩ := LawfulWire.rt s (h s (by simp))
    rw [List.flatMap_cons, List.length_append, he, List.length_cons] at hn
    obtain ⟨k, rfl⟩ : ∃ k, n = k + 1 := ⟨n - 1, by omega⟩
    have hdec := rt_dec (h s (by simp)) (secs.flatMap enc)
    rw [List.flatMap_cons]
    rw [he] at hdec ⊢
    rw [List.cons_append] at hdec ⊢
    rw [Message.decodeLoop, hdec]
    exact decodeLoop_sections secs k _ (fun s hs => h s (by simp [hs])) (by omega)
    nofun

theorem foldl_data (l : List Bytes) (m : Message) : (l.map Section.data).foldl Message.addSection m =
    { m with body := { m.body with data := m.body.data ++ l } } := by
  induction l generalizing m with
  | nil => simp
  | cons a l ih => simp [ih, Message.addSection]

theorem foldl_seq (l : List VList) (m : Message) : (l.map Section.amqpSequence).foldl Message.addSection m =
    { m with body := { m.body with sequence := m.body.sequence ++ l } } := by
  induction l generalizing m with
  | nil => simp
  | cons a l ih => simp [ih, Message.addSection]

theorem foldl_sections (m : Message) : m.sections.foldl Message.addSection .empty = m.asReceived := by
  rw [Message.sections]
  simp only [List.foldl_append]
  have hm : (m.body.messages.map fun t => Section.data t.tenc) = (m.body.messages.map TransferBody.tenc).map Section.data := by
    simp [Function.comp_def]
  rw [hm, foldl_data, foldl_data, foldl_seq]
  obtain ⟨fmt, hd, da, ma, pr, ap, ft, ⟨data, seq, msgs, val⟩, cache⟩ := m
  cases hd <;> cases da <;> cases ma <;> cases pr <;> cases ap <;> cases ft <;> cases val <;>
    simp [Message.addSection, Message.empty, Message.asReceived]

theorem Message.sections_wf {m : Message} (h : m.WellFormed) : ∀ s ∈ m.sections, wf s := by
  intro s hs
  have ho {α : Type} [WF α] {f : α → Section} (hf : ∀ a, wf a → wf (f a)) {o : Option α} (hw : wf o)
      (hs : s ∈ o.toList.map f) : wf s := by
    cases o with
    | none => simp at hs
    | some a => simp at hs; subst hs; exact hf a hw
  simp only [Message.sections, List.mem_append] at hs
  rcases hs with ((((((hs | hs) | hs) | hs) | hs) | (((hs | hs) | hs) | hs)) | hs)
  · exact ho (f := .header) (fun _ h => h) h.header hs
  · exact ho (f := .deliveryAnnotations) (fun _ h => h) h.deliveryAnnotations hs
  · exact ho (f := .messageAnnotations) (fun _ h => h) h.messageAnnotations hs
  · exact ho (f := .properties) (fun _ h => h) h.properties hs
  · exact ho (f := .applicationProperties) (fun _ h => h) h.applicationProperties hs
  · obtain ⟨d, hd, rfl⟩ := List.mem_map.1 hs; exact h.data d hd
  · obtain ⟨d, hd, rfl⟩ := List.mem_map.1 hs; exact h.sequence d hd
  · exact ho (f := .amqpValue) (fun _ h => h) h.value hs
  · obtain ⟨d, hd, rfl⟩ := List.mem_map.1 hs; exact h.messages d hd
  · exact ho (f := .footer) (fun _ h => h) h.footer hs

theorem Message.decode_encode {m : Message} (h : m.WellFormed) : Message.decode m.encode = .ok m.asReceived := by
  rw [Message.encode_sections m h.coherent, Message.decode,
    decodeLoop_sections _ _ _ (Message.sections_wf h) (Nat.le_refl _), foldl_sections]

end Amqp
