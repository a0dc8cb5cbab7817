import Verif.Props.StandardTypes
import Verif.Props.Message
/-! # C56 and C57: standard messages and replies -/

namespace Amqp
open Dec Standard

theorem trees_repeat {body : Bytes} {l : List Variant} (h : Trees body l) (rest : Bytes) :
    repeatDec l.length (dec : Dec Variant) (body ++ rest) = .ok (l, rest) := by
  refine Trees.rec (motive_1 := fun _ _ _ _ => True)
    (motive_2 := fun b l _ => ∀ rest, repeatDec l.length (dec : Dec Variant) (b ++ rest) = .ok (l, rest))
    (motive_3 := fun _ _ _ => True) ?_ ?_ ?_ ?_ ?_ ?_ ?_ ?_ ?_ ?_ ?_ ?_ ?_ h rest
  case refine_10 => intro rest; rfl
  case refine_11 =>
    intro c w v rest l ht _ _ ih r
    rw [List.length_cons, repeatDec, List.append_assoc, Dec.bind_ok (accepted_variant.reads c w v ht _), Dec.bind_ok (ih r)]
    rfl
  all_goals intros; trivial

instance : Readable VList where
  reads c w v h rest := by
    obtain ⟨l⟩ := v
    rcases h with ⟨rfl, rfl, hl⟩ | ⟨body, h, ht⟩
    · dsimp only at hl
      subst hl; rfl
    · obtain ⟨_, _, hh⟩ := compounds_ok (hdr := listHeader) rfl rfl h
      simp only [decF]
      rw [Dec.bind_ok (hh rest)]
      exact Dec.map_ok (trees_repeat ht rest)
  nonNull c w v h := by
    rcases h with ⟨rfl, _⟩ | ⟨body, h, ht⟩
    · decide
    · exact compounds_null h (by decide) (by decide)

/-- The bytes are read as this section. -/
def SectionBytes (b : Bytes) (s : Section) : Prop :=
  b ≠ [] ∧ ∀ rest, (dec : Dec Section) (b ++ rest) = .ok (s, rest)

theorem section_parts [Wire α] [Form α] {b : Bytes} {code : UInt64} {name : String} {v : α} (h : section_ code name b v)
    (hr : ReadsF α) : ∃ t, b = FC.described :: t ∧ ∀ rest, ∃ d r,
      (dec : Dec Descriptor) (t ++ rest) = .ok (d, r) ∧ (d = .ulong code ∨ d = .symbol (sym name)) ∧
      (dec : Dec α) r = .ok (v, rest) := by
  obtain ⟨dc, dw, c, w, rfl, hf, hd⟩ := h
  refine ⟨dc :: dw ++ c :: w, rfl, fun rest => ?_⟩
  rcases hd with h | h
  · exact ⟨_, c :: w ++ rest, by rw [List.append_assoc]; exact descriptor_ok h _, .inl rfl, hr.reads c w v hf rest⟩
  · exact ⟨_, c :: w ++ rest, by rw [List.append_assoc]; exact descriptor_ok h _, .inr rfl, hr.reads c w v hf rest⟩

/-- The rest of `Section.decodeF`, after the descriptor. -/
def Section.ofDescriptor (d : Descriptor) : Dec Section :=
  if Composite.isMine Header d then return .header (← Composite.decInner)
  else if isSection 113 "amqp:delivery-annotations:map" d then return .deliveryAnnotations (← dec)
  else if isSection 114 "amqp:message-annotations:map" d then return .messageAnnotations (← dec)
  else if isSection 116 "amqp:application-properties:map" d then return .applicationProperties (← dec)
  else if isSection 117 "amqp:data:binary" d then return .data (← dec)
  else if isSection 118 "amqp:amqp-sequence:list" d then return .amqpSequence (← dec)
  else if isSection 119 "amqp:amqp-value:*" d then return .amqpValue (← dec)
  else if isSection 120 "amqp:footer:map" d then return .footer (← dec)
  else if Composite.isMine Properties d then return .properties (← Composite.decInner)
  else fail (.invalidDescriptor d)

theorem Section.dec_described {t r : Bytes} {d : Descriptor} (h : (dec : Dec Descriptor) t = .ok (d, r)) :
    (dec : Dec Section) (FC.described :: t) = Section.ofDescriptor d r := by
  show (do let d ← (dec : Dec Descriptor); Section.ofDescriptor d : Dec Section) t = _
  rw [Dec.bind_ok h]

theorem sectionBytes [Wire α] [Form α] {b : Bytes} {code : UInt64} {name : String} {v : α} (h : section_ code name b v)
    (hr : ReadsF α) (f : α → Section) (h1 : Section.ofDescriptor (.ulong code) = (do return f (← dec)))
    (h2 : Section.ofDescriptor (.symbol (sym name)) = (do return f (← dec))) : SectionBytes b (f v) := by
  obtain ⟨t, rfl, hs⟩ := section_parts h hr
  refine ⟨by simp, fun rest => ?_⟩
  obtain ⟨d, r, hd, hc, hv⟩ := hs rest
  rw [List.cons_append, Section.dec_described hd]
  rcases hc with rfl | rfl
  · rw [h1]; exact Dec.map_ok hv
  · rw [h2]; exact Dec.map_ok hv

theorem compositeBytes [Composite α] [Listed α] [ListedWire α] {b : Bytes} {v : α} (h : @Value α ⟨composite⟩ b v)
    (f : α → Section) (h1 : Section.ofDescriptor (.ulong (Listed.code α)) = (do return f (← Composite.decInner)))
    (h2 : Section.ofDescriptor (.symbol (sym (Listed.name α))) = (do return f (← Composite.decInner))) :
    SectionBytes b (f v) := by
  obtain ⟨t, rfl, hs⟩ := Standard.Value.described h
  refine ⟨by simp, fun rest => ?_⟩
  obtain ⟨d, r, hd, hc, hv⟩ := hs rest
  rw [List.cons_append, Section.dec_described hd]
  rcases hc with rfl | rfl
  · rw [h1]; exact Dec.map_ok hv
  · rw [h2]; exact Dec.map_ok hv

/-- Reading the bytes `b` turns the message `m` into `f m`. -/
def Steps (b : Bytes) (f : Message → Message) : Prop :=
  ∀ n m rest, (b ++ rest).length ≤ n → ∃ k, rest.length ≤ k ∧
    Message.decodeLoop n m (b ++ rest) = Message.decodeLoop k (f m) rest

theorem Steps.nil : Steps [] id := fun n m rest h => ⟨n, by simpa using h, rfl⟩

theorem Steps.append {b b' : Bytes} {f g} (h : Steps b f) (h' : Steps b' g) : Steps (b ++ b') (g ∘ f) := by
  intro n m rest hn
  rw [List.append_assoc] at hn ⊢
  obtain ⟨k, hk, h1⟩ := h n m _ hn
  obtain ⟨j, hj, h2⟩ := h' k (f m) rest hk
  exact ⟨j, hj, h1.trans h2⟩

theorem Steps.one {b : Bytes} {s : Section} (h : SectionBytes b s) : Steps b (·.addSection s) := by
  intro n m rest hn
  obtain ⟨hb, h⟩ := h
  cases b with
  | nil => exact absurd rfl hb
  | cons c t =>
    rw [List.cons_append, List.length_cons] at hn
    obtain ⟨k, rfl⟩ : ∃ k, n = k + 1 := ⟨n - 1, by omega⟩
    refine ⟨k, by simp at hn; omega, ?_⟩
    have := h rest
    rw [List.cons_append] at this ⊢
    rw [Message.decodeLoop, this]
    nofun

theorem Steps.maybe {p : Bytes → α → Prop} {b : Bytes} {o : Option α} (h : Standard.maybe p b o) (f : α → Section)
    (hp : ∀ b v, p b v → SectionBytes b (f v)) : Steps b (fun m => ((o.map f).map m.addSection).getD m) := by
  cases o with
  | none => rw [show b = [] from h]; exact Steps.nil
  | some v => exact Steps.one (hp b v h)

theorem Steps.many {p : Bytes → α → Prop} {b : Bytes} {l : List α} (h : Many p b l) (f : α → Section)
    (hp : ∀ b v, p b v → SectionBytes b (f v)) : Steps b (fun m => (l.map f).foldl Message.addSection m) := by
  induction h with
  | nil => exact Steps.nil
  | cons h _ ih => exact (Steps.one (hp _ _ h)).append ih

/-- **C57** Every encoding of a message that the specification allows is read as the sections it denotes. -/
theorem c57_messages_read (b : Bytes) (m : Message) (h : message b m) : Message.decode b = .ok m := by
  obtain ⟨hb, da, ma, pb, ap, bd, fb, rfl, h1, h2, h3, h4, h5, ⟨h6, h7⟩, h8, h9, h10⟩ := h
  have s1 := Steps.maybe h1 Section.header fun b v h => compositeBytes (α := Header) h _ rfl rfl
  have s2 := Steps.maybe h2 Section.deliveryAnnotations fun b v h => sectionBytes h Readable.reads _ rfl rfl
  have s3 := Steps.maybe h3 Section.messageAnnotations fun b v h => sectionBytes h Readable.reads _ rfl rfl
  have s4 := Steps.maybe h4 Section.properties fun b v h => compositeBytes (α := Properties) h _ rfl rfl
  have s5 := Steps.maybe h5 Section.applicationProperties fun b v h => sectionBytes h Readable.reads _ rfl rfl
  have s7 := Steps.maybe h8 Section.footer fun b v h => sectionBytes h Readable.reads _ rfl rfl
  obtain ⟨mf, hd, mda, mma, mp, map, mf, ⟨data, sequence, messages, value⟩, cache⟩ := m
  dsimp only at *
  subst h6 h9 h10
  have fin : ∀ {f}, Steps bd f → ∃ g, Message.decode (hb ++ (da ++ (ma ++ (pb ++ (ap ++ (bd ++ fb)))))) = .ok g ∧
      g = (((mf.map Section.footer).map (f _).addSection).getD (f _)) := fun s6 =>  by
    obtain ⟨k, _, h⟩ := (s1.append (s2.append (s3.append (s4.append (s5.append (s6.append s7)))))) _ .empty [] (Nat.le_refl _)
    rw [List.append_nil] at h
    exact ⟨_, h.trans (by cases k <;> rfl), rfl⟩
  rcases h7 with ⟨rfl, rfl, h⟩ | ⟨rfl, rfl, h⟩ | ⟨rfl, rfl, x, rfl, h⟩
  · obtain ⟨_, h, rfl⟩ := fin (Steps.many h Section.data fun b v h => sectionBytes h Readable.reads _ rfl rfl)
    rw [h]
    simp only [foldl_data]
    cases hd <;> cases mda <;> cases mma <;> cases mp <;> cases map <;> cases mf <;> rfl
  · obtain ⟨_, h, rfl⟩ := fin (Steps.many h Section.amqpSequence fun b v h => sectionBytes h Readable.reads _ rfl rfl)
    rw [h]
    simp only [foldl_seq]
    cases hd <;> cases mda <;> cases mma <;> cases mp <;> cases map <;> cases mf <;> rfl
  · obtain ⟨_, h, rfl⟩ := fin (Steps.one (sectionBytes h accepted_variant Section.amqpValue rfl rfl))
    rw [h]
    cases hd <;> cases mda <;> cases mma <;> cases mp <;> cases map <;> cases mf <;> rfl

/-- A message another implementation may send: an empty header, then a data section with a symbolic descriptor. -/
def someMessage : Bytes :=
  [0, 0x53, 0x70, 0x45] ++ (0 :: 0xa3 :: (16 :: (sym "amqp:data:binary").bytes) ++ 0xa0 :: [2, 7, 8])

example : Message.decode someMessage =
    .ok { Message.empty with header := some ⟨false, 4, none, false, 0⟩, body := ⟨[[7, 8]], [], [], none⟩ } :=
  c57_messages_read _ _ ⟨[0, 0x53, 0x70, 0x45], [], [], [], [], _, [], by
      rw [List.nil_append, List.nil_append, List.nil_append, List.nil_append, List.append_nil]; rfl,
    ⟨0, [0x53, 0x70, 0x45], rfl, rfl, 0x53, [0x70], [0x45], rfl, .inl ⟨.inr (.inl ⟨rfl, rfl, rfl⟩), by decide⟩,
      [], Nat.zero_le _, ⟨.inr ⟨.inl rfl, rfl⟩, .inr ⟨.inl rfl, rfl⟩, .inl rfl, .inr ⟨.inl rfl, rfl⟩, .inr ⟨.inl rfl, rfl⟩⟩,
      .inl ⟨rfl, rfl⟩⟩,
    rfl, rfl, rfl, rfl, ⟨rfl, .inl ⟨rfl, rfl, by
      have := Many.cons (p := section_ 0x75 "amqp:data:binary") (v := ([7, 8] : Bytes))
        ⟨0xa3, 16 :: (sym "amqp:data:binary").bytes, 0xa0, [2, 7, 8], rfl, Or.inl ⟨rfl, [2], rfl, rfl, rfl⟩,
          .inr ⟨.inl ⟨rfl, [16], rfl, rfl, rfl⟩, by decide⟩⟩ Many.nil
      rw [List.append_nil] at this
      exact this⟩⟩, rfl, rfl, rfl⟩

/-! ## Replies -/

/-- **C56** A reply to a message that has properties carries the request's message-id as its correlation-id and nothing else;
a reply to a message without properties is empty. -/
theorem c56_reply (m : Message) :
    (∀ p, m.properties = some p → ∃ q, m.replyMessage.properties = some q ∧ q.correlationId = p.messageId ∧
      q.messageId = none ∧ q.to = none ∧ q.replyTo = none) ∧
    (m.properties = none → m.replyMessage.properties = none) ∧
    m.replyMessage.header = none ∧ m.replyMessage.deliveryAnnotations = none ∧
    m.replyMessage.messageAnnotations = none ∧ m.replyMessage.applicationProperties = none ∧ m.replyMessage.footer = none ∧
    m.replyMessage.body = ⟨[], [], [], none⟩ := by
  cases hp : m.properties with
  | none =>
    have hr : m.replyMessage = .empty := by rw [Message.replyMessage, hp]
    rw [hr]
    exact ⟨fun p h => absurd h (by simp), fun _ => rfl, rfl, rfl, rfl, rfl, rfl, rfl⟩
  | some p =>
    have hr : m.replyMessage = { Message.empty with
        properties := some { Message.defaultProperties with correlationId := p.messageId } } := by
      rw [Message.replyMessage, hp]
    rw [hr]
    refine ⟨?_, fun h => absurd h (by simp), rfl, rfl, rfl, rfl, rfl, rfl⟩
    intro p' h
    cases h
    exact ⟨_, rfl, rfl, rfl, rfl, rfl⟩

theorem reply_wellFormed (m : Message) (h : m.WellFormed) : m.replyMessage.WellFormed := by
  cases hp : m.properties with
  | none =>
    have hr : m.replyMessage = .empty := by rw [Message.replyMessage, hp]
    rw [hr]
    exact ⟨trivial, trivial, trivial, trivial, trivial, trivial, nofun, nofun, trivial, nofun, by
      show TransferBody.coherentAll []
      rw [TransferBody.coherentAll]; trivial⟩
  | some p =>
    have hr : m.replyMessage = { Message.empty with
        properties := some { Message.defaultProperties with correlationId := p.messageId } } := by
      rw [Message.replyMessage, hp]
    have hw : wf m.properties := h.properties
    rw [hp] at hw
    have hw : wf p := hw
    rw [hr]
    refine ⟨trivial, trivial, trivial, ?_, trivial, trivial, nofun, nofun, trivial, nofun, by
      show TransferBody.coherentAll []
      rw [TransferBody.coherentAll]; trivial⟩
    obtain ⟨w0, w1, w2, w3, w4, w5, w6, w7, w8, w9, w10, w11, w12, hl⟩ := hw
    refine ⟨trivial, trivial, trivial, trivial, trivial, w0, trivial, trivial, trivial, trivial, trivial, trivial, trivial, ?_⟩
    have n : ∀ {α : Type} [Wire α], enc (none : Option α) = [FC.null] := rfl
    simp only [Composite.content, Composite.fields, fld, List.flatMap_cons, List.flatMap_nil, List.length_append,
      List.length_nil, Message.defaultProperties, n, List.length_cons] at hl ⊢
    have := enc_pos w1; have := enc_pos w2; have := enc_pos w3; have := enc_pos w4; have := enc_pos w5
    have := enc_pos w6; have := enc_pos w7; have := enc_pos w8; have := enc_pos w9; have := enc_pos w10
    have := enc_pos w11; have := enc_pos w12
    omega

/-- **C56** End to end: the request is encoded and received, the reply to what was received is encoded and received, and
the requester finds the id it sent in the correlation-id. -/
theorem c56_reply_reaches_requester (m : Message) (h : m.WellFormed) (p : Properties) (hp : m.properties = some p) :
    ∃ r a q, Message.decode m.encode = .ok r ∧ Message.decode (Message.encode (Message.replyMessage r)) = .ok a ∧
      a.properties = some q ∧ q.correlationId = p.messageId := by
  have hp' : m.asReceived.properties = some p := hp
  obtain ⟨q, h1, h2, _⟩ := (c56_reply m.asReceived).1 p hp'
  have hw : m.asReceived.WellFormed :=
    ⟨h.header, h.deliveryAnnotations, h.messageAnnotations, h.properties, h.applicationProperties, h.footer, by
      intro d hd
      rcases List.mem_append.mp hd with hd | hd
      · exact h.data d hd
      · obtain ⟨t, ht, rfl⟩ := List.mem_map.mp hd
        exact h.messages t ht, h.sequence, h.value, nofun, by
      show TransferBody.coherentAll []
      rw [TransferBody.coherentAll]; trivial⟩
  exact ⟨_, _, q, c16_message_round_trip m h, c16_message_round_trip _ (reply_wellFormed _ hw), h1, h2⟩

example : (Message.replyMessage { Message.empty with
      properties := some { Message.defaultProperties with messageId := some (.ulong 7) } }).properties =
    some { Message.defaultProperties with correlationId := some (.ulong 7) } := rfl

end Amqp
