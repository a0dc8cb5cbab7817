import Verif.Model.Reading
import Verif.Spec.Examples
import Verif.Props.Message
/-!
# C89: what is read from a message

The properties and annotations an application finds in a message, in terms of what was done to the message before.
-/

namespace Amqp
open Message

/-! ## Spec -/

/-- The value of the first setting of this property in a history. -/
def firstProperty (key : Str) : List Op → Option Variant
  | [] => none
  | .setAppProperty k v :: l => if k = key then some v else firstProperty key l
  | _ :: l => firstProperty key l

/-- The value of the first setting of this annotation. -/
def firstAnnotation (key : Symbol) : List Op → Option Variant
  | [] => none
  | .addMessageAnnotation k v :: l => if k = key then some v else firstAnnotation key l
  | _ :: l => firstAnnotation key l

/-- Properties are changed by name only, not through a reference to the map. -/
def Message.Op.byName : Op → Prop
  | .appPropertiesMut _ | .messageAnnotationsMut _ => False
  | _ => True

/-! ## Lookups -/

theorem appProperty_eq (m : Message) (key : Str) :
    m.appProperty key = m.applicationProperties.bind fun p => p.lookup key := by
  unfold Message.appProperty
  cases m.applicationProperties <;> rfl

theorem annotation_eq (m : Message) (key : Symbol) :
    m.annotation key = m.messageAnnotations.bind fun p => p.lookup key := by
  unfold Message.annotation
  cases m.messageAnnotations <;> rfl

theorem lookup_push [DecidableEq κ] (m : Option (VecMap κ)) (k key : κ) (v : Variant) :
    ((pushEntry m k v).bind fun p => p.lookup key) =
      (m.bind fun p => p.lookup key).or (if k = key then some v else none) := by
  cases m with
  | none => by_cases h : k = key <;> simp [pushEntry, VecMap.lookup, h]
  | some p =>
    simp only [pushEntry, VecMap.lookup, Option.bind_some, List.findSome?_append]
    congr 1
    by_cases h : k = key <;> simp [h]

theorem touch_fields (m : Message) :
    m.touch.applicationProperties = m.applicationProperties ∧ m.touch.messageAnnotations = m.messageAnnotations := by
  unfold Message.touch
  split <;> exact ⟨rfl, rfl⟩

/-- **C89** After any history in which properties are changed by name, what is found under a name is what was there at
the start, or else what was set first. -/
theorem c89_property (ops : List Op) (h : ∀ op ∈ ops, op.byName) (m : Message) (key : Str) :
    (ops.foldl Message.apply m).appProperty key = (m.appProperty key).or (firstProperty key ops) := by
  induction ops generalizing m with
  | nil => simp [firstProperty]
  | cons op l ih =>
    have hop := h op (by simp)
    rw [List.foldl_cons, ih (fun o ho => h o (by simp [ho]))]
    have same : ∀ m' : Message, m'.applicationProperties = m.applicationProperties →
        m'.appProperty key = m.appProperty key := fun m' e => by unfold Message.appProperty; rw [e]
    cases op with
    | setAppProperty k v =>
      have : (m.apply (.setAppProperty k v)).appProperty key =
          (m.appProperty key).or (if k = key then some v else none) := by
        rw [appProperty_eq, appProperty_eq]; exact lookup_push m.applicationProperties k key v
      rw [this, firstProperty, Option.or_assoc]
      split <;> rfl
    | appPropertiesMut f => exact absurd hop id
    | encodedSize => rw [same (m.apply .encodedSize) (touch_fields m).1]; rfl
    | _ => rw [same _ rfl]; rfl

/-- **C89** The same for annotations. -/
theorem c89_annotation (ops : List Op) (h : ∀ op ∈ ops, op.byName) (m : Message) (key : Symbol) :
    (ops.foldl Message.apply m).annotation key = (m.annotation key).or (firstAnnotation key ops) := by
  induction ops generalizing m with
  | nil => simp [firstAnnotation]
  | cons op l ih =>
    have hop := h op (by simp)
    rw [List.foldl_cons, ih (fun o ho => h o (by simp [ho]))]
    have same : ∀ m' : Message, m'.messageAnnotations = m.messageAnnotations →
        m'.annotation key = m.annotation key := fun m' e => by unfold Message.annotation; rw [e]
    cases op with
    | addMessageAnnotation k v =>
      have : (m.apply (.addMessageAnnotation k v)).annotation key =
          (m.annotation key).or (if k = key then some v else none) := by
        rw [annotation_eq, annotation_eq]; exact lookup_push m.messageAnnotations k key v
      rw [this, firstAnnotation, Option.or_assoc]
      split <;> rfl
    | messageAnnotationsMut f => exact absurd hop id
    | encodedSize => rw [same (m.apply .encodedSize) (touch_fields m).2]; rfl
    | _ => rw [same _ rfl]; rfl

/-- **C89** A property that was not there can be read once it is set. -/
theorem c89_set (m : Message) (key : Str) (v : Variant) (h : m.appProperty key = none) :
    (m.apply (.setAppProperty key v)).appProperty key = some v := by
  have := c89_property [.setAppProperty key v] (by simp [Op.byName]) m key
  simpa [h, firstProperty] using this

/-- **C89** Violated: a property that was set cannot be set again.  Whatever is done by name, the value read stays the
first one. -/
theorem c89_not_replaced (m : Message) (key : Str) (v : Variant) (h : m.appProperty key = some v) (ops : List Op)
    (hn : ∀ op ∈ ops, op.byName) : (ops.foldl Message.apply m).appProperty key = some v := by
  rw [c89_property ops hn, h]
  rfl

/-- **C89** and likewise an annotation. -/
theorem c89_annotation_not_replaced (m : Message) (key : Symbol) (v : Variant) (h : m.annotation key = some v)
    (ops : List Op) (hn : ∀ op ∈ ops, op.byName) : (ops.foldl Message.apply m).annotation key = some v := by
  rw [c89_annotation ops hn, h]
  rfl

/-- **C89** What the sender reads, the receiver reads, under every name. -/
theorem c89_travels (m : Message) (h : m.WellFormed) :
    ∃ m', Message.decode m.encode = .ok m' ∧ (∀ key, m'.appProperty key = m.appProperty key) ∧
      (∀ key, m'.annotation key = m.annotation key) ∧ m'.properties = m.properties := by
  obtain ⟨m', hd, -, -, ha, hp, hap, -⟩ := c16_sections_preserved m h
  exact ⟨m', hd, fun key => by unfold Message.appProperty; rw [hap], fun key => by unfold Message.annotation; rw [ha], hp⟩

/-- A message in which the property "a" was set to 1 and then to 2. -/
def setTwice : Message :=
  (Message.empty.apply (.setAppProperty ⟨ascii "a"⟩ (.uint 1))).apply (.setAppProperty ⟨ascii "a"⟩ (.uint 2))

/-- **C89** Violated: both settings are sent, in a map with the same key twice (AMQP 1.0 §1.6.23: "a map in which there
exist two identical key values is invalid").  A receiver of this crate reads the first, one that puts the section into
a `HashMap` the second. -/
theorem c89_sent_twice :
    setTwice.encode = [0x00, 0x53, 0x74, 0xc1, 0x0b, 0x04, 0xa1, 0x01, 0x61, 0x52, 0x01, 0xa1, 0x01, 0x61, 0x52, 0x02] ∧
    (setTwice.appProperty ⟨ascii "a"⟩ = some (.uint 1)) ∧
    (match (dec : Dec (HMap Str Variant)) (setTwice.encode.drop 3) with
      | .ok (⟨[(_, .uint n)]⟩, []) => n = 2
      | _ => False) := by
  refine ⟨by decide +kernel, ?_, ?_⟩
  · have := c89_not_replaced (Message.empty.apply (.setAppProperty ⟨ascii "a"⟩ (.uint 1))) ⟨ascii "a"⟩ (.uint 1)
      (c89_set _ _ _ rfl) [.setAppProperty ⟨ascii "a"⟩ (.uint 2)] (by simp [Op.byName])
    exact this
  · have h : (match (dec : Dec (HMap Str Variant)) (setTwice.encode.drop 3) with
      | .ok (⟨[(_, .uint n)]⟩, []) => n == 2
      | _ => false) = true := by decide +kernel
    split at h
    · simpa using h
    · cases h

-- such a message meets the conditions of `c89_travels`
example : setTwice.WellFormed where
  header := trivial
  deliveryAnnotations := trivial
  messageAnnotations := trivial
  properties := trivial
  applicationProperties := by
    have h : wf (⟨ascii "a"⟩ : Str) := ⟨utf8_of_ascii _ (by decide), by decide⟩
    refine ⟨fun e he => ?_, by decide +kernel⟩
    rcases List.mem_cons.mp he with rfl | he
    · exact ⟨h, trivial⟩
    · rw [List.mem_singleton.mp he]; exact ⟨h, trivial⟩
  footer := trivial
  data := nofun
  sequence := nofun
  value := trivial
  messages := nofun
  coherent := by show TransferBody.coherentAll []; rw [TransferBody.coherentAll]; trivial

/-! ## Replies and bodies -/

/-- **C89** A reply carries the id of the message it answers, and nothing else. -/
theorem c89_reply (m : Message) :
    ((m.replyMessage.properties.bind Properties.correlationId) = m.properties.bind Properties.messageId) ∧
    { m.replyMessage with properties := none } = Message.empty ∧
    ∀ p, m.replyMessage.properties = some p → { p with correlationId := none } = Message.defaultProperties := by
  unfold Message.replyMessage
  cases m.properties with
  | none => exact ⟨rfl, rfl, fun p h => by cases h⟩
  | some q => exact ⟨rfl, rfl, fun p h => by cases h; rfl⟩

-- a message with an id, and its reply
example : (Message.empty.apply (.setProperties fun p => { p with messageId := some (.ulong 7) })).replyMessage.properties =
    some { Message.defaultProperties with correlationId := some (.ulong 7) } := rfl

/-- **C89** The id is still there when the reply arrives. -/
theorem c89_reply_travels (m : Message) (h : m.replyMessage.WellFormed) :
    ∃ r, Message.decode m.replyMessage.encode = .ok r ∧
      r.properties.bind Properties.correlationId = m.properties.bind Properties.messageId := by
  obtain ⟨r, hr, -, -, hp⟩ := c89_travels _ h
  exact ⟨r, hr, by rw [hp]; exact (c89_reply m).1⟩

/-- **C89** What was given to `with_body`, or to `set_data` of any body, is what `data` gives. -/
theorem c89_body (d : Bytes) (b : MessageBody) :
    (Message.withBody d).body.firstData = some d ∧ (b.setData d).firstData = some d ∧
    (b.setData d).data = [d] ∧ (b.setData d).sequence = b.sequence ∧ (b.setData d).messages = b.messages ∧
    (b.setData d).value = b.value := ⟨rfl, rfl, rfl, rfl, rfl, rfl⟩

/-- **C89** Violated: `data` of a message in several data sections is the first of them. -/
theorem c89_data_first (d : Bytes) (l : List Bytes) (b : MessageBody) :
    ({ b with data := d :: l } : MessageBody).firstData = some d := rfl

/-- **C89** The message given to a transfer is what `load_message` gives the receiver, whatever the message, unless it is
empty. -/
theorem c89_load_partial (t : Transfer) (m : Message) (hb : t.body = some (.message m)) (h : m.WellFormed)
    (hc : m.coherent) (hh : wf t.head) (hne : m.encode ≠ []) :
    ∃ t', Frame.decode t.tenc = .ok (.transfer t', []) ∧ t'.getBody = some m.encode ∧
      t'.loadMessage = .ok m.asReceived := by
  have hp : t.payload = m.encode := by rw [Transfer.payload, hb]; rfl
  have ha : t.asReceived.body = some (.data m.encode) := by simp [Transfer.asReceived, hp, hne]
  refine ⟨t.asReceived, Transfer.decInner_enc ⟨hh, fun b hb' => ?_⟩, ?_, ?_⟩
  · rw [hb] at hb'; cases hb'; exact hc
  · simp [Transfer.getBody, ha]
  · simp [Transfer.loadMessage, ha, Message.decode_encode h]

example : (Message.withBody [1, 2, 3]).encode ≠ [] := by decide +kernel

/-- **C89** Violated: a message without sections arrives as a transfer without body, and `load_message` fails, though
`Message::decode` understands its bytes, of which there are none. -/
theorem c89_empty_not_loaded (t : Transfer) (hb : t.body = some (.message Message.empty)) (hh : wf t.head) :
    Message.decode Message.empty.encode = .ok Message.empty ∧
    ∃ t', Frame.decode t.tenc = .ok (.transfer t', []) ∧ t'.loadMessage = .error (.unexpectedType "body") := by
  have he : Message.empty.encode = [] := by decide +kernel
  have hp : t.payload = [] := by rw [Transfer.payload, hb]; exact he
  have ha : t.asReceived.body = none := by simp [Transfer.asReceived, hp]
  refine ⟨by rw [he]; rfl, t.asReceived, Transfer.decInner_enc ⟨hh, fun b hb' => ?_⟩, by simp [Transfer.loadMessage, ha]⟩
  rw [hb] at hb'; cases hb'
  rw [TransferBody.coherent]
  refine ⟨.inl rfl, ?_⟩
  show TransferBody.coherentAll []
  rw [TransferBody.coherentAll]
  trivial

end Amqp
