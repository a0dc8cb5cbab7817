import Verif.Lemmas.Message
import Verif.Lemmas.Frame
import Verif.Lemmas.Claims
/-! Messages: C03 and C04 for sections and messages, C16, C17. -/

namespace Amqp

/-- **C03** for message sections and messages. -/
theorem c03_message_size_exact :
    ExactSize Section ∧ (∀ m : Message, m.coherent → m.esize = m.encode.length) ∧
    (∀ t : TransferBody, t.coherent → t.esize = t.tenc.length) :=
  ⟨exactSize, fun _ h => Message.esize_eq h, fun t h => esize_eq t h⟩

/-- **C01–C05, C44, C45** for message sections. -/
theorem c16_sections :
    RoundTrips Section ∧ ReadsOnlyItself Section ∧ TruncationDetected Section ∧ ErrorsAreFinal Section ∧
    Unambiguous Section ∧ UniquelyParsable Section :=
  ⟨roundTrips, readsOnlyItself, truncationDetected, errorsAreFinal, unambiguous, uniquelyParsable⟩

/-! ## C16 -/

/-- **C16** An encoded message is decoded to the sections that were sent. -/
theorem c16_message_round_trip (m : Message) (h : m.WellFormed) : Message.decode m.encode = .ok m.asReceived :=
  Message.decode_encode h

/-- **C16**, spelled out section by section. -/
theorem c16_sections_preserved (m : Message) (h : m.WellFormed) :
    ∃ m', Message.decode m.encode = .ok m' ∧ m'.header = m.header ∧ m'.deliveryAnnotations = m.deliveryAnnotations ∧
      m'.messageAnnotations = m.messageAnnotations ∧ m'.properties = m.properties ∧
      m'.applicationProperties = m.applicationProperties ∧ m'.footer = m.footer ∧
      m'.body.data = m.body.data ++ m.body.messages.map TransferBody.tenc ∧ m'.body.sequence = m.body.sequence ∧
      m'.body.value = m.body.value :=
  ⟨_, Message.decode_encode h, rfl, rfl, rfl, rfl, rfl, rfl, rfl, rfl, rfl⟩

/-- **C16** What was received can be forwarded: encoding it again gives the same bytes.  (Nested messages arrive as data
sections, which come before sequences and values, so with both kinds the order of sections changes.) -/
theorem c16_forwarding_stable (m : Message) (h : m.WellFormed)
    (hb : m.body.messages = [] ∨ m.body.sequence = [] ∧ m.body.value = none) : m.asReceived.encode = m.encode := by
  have h' : TransferBody.coherentAll m.asReceived.body.messages := by
    show TransferBody.coherentAll []
    rw [TransferBody.coherentAll]; trivial
  rw [Message.encode_sections m h.coherent, Message.encode_sections _ h']
  rcases hb with hb | ⟨hb, hv⟩
  · simp [Message.sections, Message.asReceived, hb]
  · simp [Message.sections, Message.asReceived, Function.comp_def, hb, hv]

/-- **C16** The payload of a transfer carrying a message is the message: sender's `send(message)`, receiver's
`Message::decode(payload)`. -/
theorem c16_message_through_transfer (t : Transfer) (m : Message) (hb : t.body = some (.message m)) (h : m.WellFormed)
    (hc : m.coherent) (hh : wf t.head) :
    ∃ t', Frame.decode t.tenc = .ok (.transfer t', []) ∧ t'.head = t.head ∧ Message.decode t'.payload = .ok m.asReceived := by
  refine ⟨t.asReceived, Transfer.decInner_enc ⟨hh, fun b hb' => ?_⟩, rfl, ?_⟩
  · rw [hb] at hb'; cases hb'; exact hc
  · have hp : t.payload = m.encode := by rw [Transfer.payload, hb]; rfl
    have ha : t.asReceived.payload = t.payload := by
      by_cases hp : t.payload = []
      · have : t.asReceived.body = none := by simp [Transfer.asReceived, hp]
        rw [Transfer.payload, this, hp]
      · have : t.asReceived.body = some (.data t.payload) := by simp [Transfer.asReceived, hp]
        rw [Transfer.payload, this]; rfl
    rw [ha, hp, Message.decode_encode h]

/-- Sections may arrive in any order and repeated: the last of a kind wins, body sections accumulate. -/
theorem c16_any_section_order (secs : List Section) (h : ∀ s ∈ secs, wf s) :
    Message.decode (secs.flatMap enc) = .ok (secs.foldl Message.addSection .empty) :=
  decodeLoop_sections secs _ _ h (Nat.le_refl _)

/-- Decoding a message never runs out of fuel: the loop bound is not observable. -/
theorem Message.decodeLoop_fuel : ∀ (n : Nat) (m : Message) (s : Bytes), s.length ≤ n →
    Message.decodeLoop n m s ≠ .error .fuel
  | n, m, [], _ => by cases n <;> simp [Message.decodeLoop]
  | 0, m, a :: s, h => by simp at h
  | n + 1, m, a :: s, h => by
    rw [Message.decodeLoop]
    cases hd : (dec : Dec Section) (a :: s) with
    | error e =>
      intro he
      cases he
      exact (Good.dec (α := Section)).fuel _ hd
    | ok x =>
      obtain ⟨sec, r⟩ := x
      refine Message.decodeLoop_fuel n _ r ?_
      have := dec_shrinks hd
      simp only [List.length_cons] at h this
      omega
    all_goals simp
where
  dec_shrinks {a : UInt8} {s r : Bytes} {sec : Section} (h : (dec : Dec Section) (a :: s) = .ok (sec, r)) :
      r.length < (a :: s).length := by
    have := (GoodWire.good (α := Section) a).len (s := s) h
    simp only [List.length_cons]; omega

example : (Message.withBody [1, 2, 3]).WellFormed where
  header := trivial
  deliveryAnnotations := trivial
  messageAnnotations := trivial
  properties := trivial
  applicationProperties := trivial
  footer := trivial
  data := by intro d hd; rw [List.mem_singleton.mp hd]; show [1, 2, 3].length < _; decide
  sequence := nofun
  value := trivial
  messages := nofun
  coherent := by show TransferBody.coherentAll []; rw [TransferBody.coherentAll]; trivial

/-! ## C17 -/

/-- What is known about the remembered size of a message: nothing is remembered, the right size may be, or a wrong size
may be. -/
inductive SizeState where
  | fresh
  | known
  | stale
deriving DecidableEq

/-- The operations that change the message but do not forget the remembered size. -/
def Message.Op.keepsSize : Message.Op → Bool
  | .appPropertiesMut _ | .messageAnnotationsMut _ | .deliveryAnnotationsMut _ | .bodyMut _ | .setValue _ => true
  | _ => false

/-- How an operation affects what is known. -/
def SizeState.after : SizeState → Message.Op → SizeState
  | .fresh, .encodedSize => .known
  | s, .encodedSize | s, .encode | s, .setFormat _ => s
  | s, .appPropertiesMut _ | s, .messageAnnotationsMut _ | s, .deliveryAnnotationsMut _ | s, .bodyMut _ | s, .setValue _ =>
    if s = .fresh then .fresh else .stale
  | _, .setHeader _ | _, .setProperties _ | _, .setAppProperty _ _ | _, .addMessageAnnotation _ _ | _, .update
  | _, .setBody _ => .fresh

/-- The closures given to `body_mut` and `set_body` only put in messages whose own remembered size is right. -/
def Message.Op.tame : Message.Op → Prop
  | .bodyMut f | .setBody f => ∀ b, TransferBody.coherentAll b.messages → TransferBody.coherentAll (f b).messages
  | _ => True

def SizeState.holds (m : Message) : SizeState → Prop
  | .fresh => m.cache = 0
  | .known => m.cache = 0 ∨ m.cache = m.encode.length
  | .stale => True

theorem sizeState_step (m : Message) (s : SizeState) (op : Message.Op) (ht : op.tame)
    (hn : TransferBody.coherentAll m.body.messages) (h : s.holds m) :
    TransferBody.coherentAll (m.apply op).body.messages ∧ (s.after op).holds (m.apply op) := by
  cases op with
  | encodedSize =>
    by_cases hc : m.cache = 0
    · have hco : (TransferBody.message m).coherent := by rw [TransferBody.coherent]; exact ⟨.inl hc, hn⟩
      have h1 := coherent_touch _ hco
      rw [← Message.touch_eq, TransferBody.coherent] at h1
      refine ⟨h1.2, ?_⟩
      cases s
      · exact h1.1
      · exact h1.1
      · trivial
    · have : m.apply .encodedSize = m := by show m.touch = m; rw [Message.touch, if_pos hc]
      rw [this]
      refine ⟨hn, ?_⟩
      cases s
      · exact .inl h
      · exact h
      · trivial
  | encode =>
    refine ⟨coherentAll_touch _ hn, ?_⟩
    have he : (m.apply .encode).encode = m.encode := by
      show TransferBody.tenc (.message _) = TransferBody.tenc (.message _)
      rw [TransferBody.tenc, TransferBody.tenc]
      show encHead m ++ (encBody m.body ++ TransferBody.encAll (TransferBody.touchAll m.body.messages)) ++ encFooter m = _
      rw [encAll_touch]
    cases s
    · exact h
    · show _ ∨ _; rw [he]; exact h
    · trivial
  | setFormat f =>
    refine ⟨hn, ?_⟩
    have he : (m.apply (.setFormat f)).encode = m.encode := by
      show TransferBody.tenc (.message _) = TransferBody.tenc (.message _)
      rw [TransferBody.tenc, TransferBody.tenc]; rfl
    cases s
    · exact h
    · show _ ∨ _; rw [he]; exact h
    · trivial
  | bodyMut f =>
    refine ⟨ht _ hn, ?_⟩
    cases s
    · exact h
    · trivial
    · trivial
  | setBody f => exact ⟨ht _ hn, by cases s <;> rfl⟩
  | appPropertiesMut f => exact ⟨hn, by cases s; exact h; trivial; trivial⟩
  | messageAnnotationsMut f => exact ⟨hn, by cases s; exact h; trivial; trivial⟩
  | deliveryAnnotationsMut f => exact ⟨hn, by cases s; exact h; trivial; trivial⟩
  | setValue f => exact ⟨hn, by cases s; exact h; trivial; trivial⟩
  | setHeader _ => exact ⟨hn, by cases s <;> rfl⟩
  | setProperties _ => exact ⟨hn, by cases s <;> rfl⟩
  | setAppProperty _ _ => exact ⟨hn, by cases s <;> rfl⟩
  | addMessageAnnotation _ _ => exact ⟨hn, by cases s <;> rfl⟩
  | update => exact ⟨hn, by cases s <;> rfl⟩

/-- **C17**, as far as it holds: after any sequence of operations, `encoded_size` is the number of bytes written,
unless one of the five operations that do not forget the size came after the size was computed and no operation that
does came after it.  Missing: the sequences for which it is false, see below. -/
theorem c17_size_after_mutations_partial (m : Message) (hm : m.cache = 0)
    (hn : TransferBody.coherentAll m.body.messages) (ops : List Message.Op) (ht : ∀ op ∈ ops, op.tame)
    (hs : ops.foldl SizeState.after .fresh ≠ .stale) :
    (ops.foldl Message.apply m).esize = (ops.foldl Message.apply m).encode.length := by
  have key : ∀ (ops : List Message.Op) (m : Message) (s : SizeState), (∀ op ∈ ops, op.tame) →
      TransferBody.coherentAll m.body.messages → s.holds m →
      TransferBody.coherentAll (ops.foldl Message.apply m).body.messages ∧
        (ops.foldl SizeState.after s).holds (ops.foldl Message.apply m) := by
    intro ops
    induction ops with
    | nil => intro m s _ hn h; exact ⟨hn, h⟩
    | cons op ops ih =>
      intro m s ht hn h
      obtain ⟨h1, h2⟩ := sizeState_step m s op (ht op (List.mem_cons_self ..)) hn h
      exact ih _ _ (fun o ho => ht o (List.mem_cons_of_mem _ ho)) h1 h2
  obtain ⟨h1, h2⟩ := key ops m .fresh ht hn hm
  refine Message.esize_eq ?_
  show (TransferBody.message _).coherent
  rw [TransferBody.coherent]
  refine ⟨?_, h1⟩
  generalize ops.foldl SizeState.after .fresh = s at hs h2
  cases s
  · exact .inl h2
  · exact h2
  · exact absurd rfl hs

/-- **C17** In particular without the five operations the size is always right. -/
theorem c17_resetting_operations_partial (m : Message) (hm : m.cache = 0)
    (hn : TransferBody.coherentAll m.body.messages) (ops : List Message.Op) (ht : ∀ op ∈ ops, op.tame)
    (hk : ∀ op ∈ ops, op.keepsSize = false) :
    (ops.foldl Message.apply m).esize = (ops.foldl Message.apply m).encode.length := by
  refine c17_size_after_mutations_partial m hm hn ops ht ?_
  have key : ∀ (ops : List Message.Op) (s : SizeState), (∀ op ∈ ops, op.keepsSize = false) → s ≠ .stale →
      ops.foldl SizeState.after s ≠ .stale := by
    intro ops
    induction ops with
    | nil => exact fun _ _ h => h
    | cons op ops ih =>
      intro s hk hs
      refine ih _ (fun o ho => hk o (List.mem_cons_of_mem _ ho)) ?_
      have := hk op (List.mem_cons_self ..)
      cases op <;> cases s <;> simp_all [SizeState.after, Message.Op.keepsSize]
  exact key ops .fresh hk (by decide)

/-- **C17** It does not matter how often the size is asked for: the answer does not change by asking, nor does what is
written. -/
theorem c17_asking_changes_nothing (m : Message) : m.touch.esize = m.esize ∧ m.touch.encode = m.encode := by
  constructor
  · rw [Message.esize, Message.touch_eq, esize_touch]; rfl
  · rw [Message.encode, Message.touch_eq, tenc_touch]; rfl

/-- **C17** is false in general: each of the five operations, after the size was computed, leaves a wrong size. -/
theorem c17_stale_size :
    (([Message.Op.encodedSize, .setValue (.ubyte 7)].foldl Message.apply (Message.withBody [1])).esize ≠
      ([Message.Op.encodedSize, .setValue (.ubyte 7)].foldl Message.apply (Message.withBody [1])).encode.length) ∧
    (([Message.Op.encodedSize, .bodyMut fun b => { b with data := [] }].foldl Message.apply (Message.withBody [1])).esize ≠
      ([Message.Op.encodedSize, .bodyMut fun b => { b with data := [] }].foldl Message.apply (Message.withBody [1])).encode.length) ∧
    (([Message.Op.setAppProperty ⟨[97]⟩ .null, .encodedSize, .appPropertiesMut fun _ => ⟨[]⟩].foldl Message.apply .empty).esize ≠
      ([Message.Op.setAppProperty ⟨[97]⟩ .null, .encodedSize, .appPropertiesMut fun _ => ⟨[]⟩].foldl Message.apply .empty).encode.length) ∧
    (([Message.Op.addMessageAnnotation ⟨[97]⟩ .null, .encodedSize, .messageAnnotationsMut fun _ => ⟨[]⟩].foldl
      Message.apply .empty).esize ≠
      ([Message.Op.addMessageAnnotation ⟨[97]⟩ .null, .encodedSize, .messageAnnotationsMut fun _ => ⟨[]⟩].foldl
      Message.apply .empty).encode.length) ∧
    (([Message.Op.encodedSize, .deliveryAnnotationsMut fun _ => ⟨[]⟩].foldl Message.apply
        { Message.empty with deliveryAnnotations := some ⟨[(⟨[97]⟩, .null)]⟩ }).esize ≠
      ([Message.Op.encodedSize, .deliveryAnnotationsMut fun _ => ⟨[]⟩].foldl Message.apply
        { Message.empty with deliveryAnnotations := some ⟨[(⟨[97]⟩, .null)]⟩ }).encode.length) := by
  refine ⟨?_, ?_, ?_, ?_, ?_⟩ <;> decide +kernel

/-- The consequence: a transfer carrying such a message is written with a frame length that is not its length, so the
peer loses track of the stream. -/
theorem c17_stale_size_breaks_framing :
    ∃ (m : Message) (ops : List Message.Op) (h : TransferHead),
      m = Message.withBody [1] ∧ ops = [.encodedSize, .setValue (.ubyte 7)] ∧
      let f : AmqpFrame := ⟨0, .transfer ⟨h, some (.message (ops.foldl Message.apply m))⟩⟩
      beNat (f.encode.take 4) ≠ f.encode.length := by
  refine ⟨_, _, ⟨0, none, none, none, none, false, none, none, false, false, false⟩, rfl, rfl, ?_⟩
  decide +kernel

example : ([Message.Op.encodedSize, .setValue (.ubyte 7), .update].foldl Message.apply (Message.withBody [1])).esize =
    ([Message.Op.encodedSize, .setValue (.ubyte 7), .update].foldl Message.apply (Message.withBody [1])).encode.length :=
  c17_size_after_mutations_partial _ rfl (by show TransferBody.coherentAll []; rw [TransferBody.coherentAll]; trivial) _
    (by simp [Message.Op.tame]) (by decide)

end Amqp
