import Verif.Model.Structs
/-!
# Messages

Models `Section` (`codec/src/protocol/definitions.rs:222-310,930-1019`), `Message` and `MessageBody`
(`codec/src/message/message.rs`, `codec/src/message/body.rs`) and `TransferBody` (`codec/src/protocol/mod.rs:204-240`).
-/

namespace Amqp
open Dec

/-- `Annotations` (protocol/mod.rs). -/
abbrev Annotations := HMap Symbol Variant

/-- `Section` (definitions.rs:222-232). -/
inductive Section where
  | header (v : Header)
  | deliveryAnnotations (v : VecSymbolMap)
  | messageAnnotations (v : VecSymbolMap)
  | applicationProperties (v : VecStringMap)
  | data (v : Bytes)
  | amqpSequence (v : VList)
  | amqpValue (v : Variant)
  | footer (v : Annotations)
  | properties (v : Properties)

/-- The descriptor is the section with this code or this name (definitions.rs:238-277). -/
def isSection (code : UInt64) (name : String) (d : Descriptor) : Bool :=
  d == .ulong code || d == .symbol (sym name)

/-- `Section::decode_with_format` (definitions.rs:233-280). -/
def Section.decodeF (fmt : UInt8) : Dec Section :=
  if fmt = FC.described then do
    let d ← (dec : Dec Descriptor)
    if Composite.isMine Header d then return .header (← Composite.decInner)
    else if isSection 113 "amqp:delivery-annotations:map" d then return .deliveryAnnotations (← dec)
    else if isSection 114 "amqp:message-annotations:map" d then return .messageAnnotations (← dec)
    else if isSection 116 "amqp:application-properties:map" d then return .applicationProperties (← dec)
    else if isSection 117 "amqp:data:binary" d then return .data (← dec)
    else if isSection 118 "amqp:amqp-sequence:list" d then return .amqpSequence (← dec)
    else if isSection 119 "amqp:amqp-value:*" d then return .amqpValue (← dec)
    else if isSection 120 "amqp:footer:map" d then return .footer (← dec)
    else if Composite.isMine Properties d then return .properties (← Composite.decInner)
    else fail (.invalidDescriptor d)
  else fail (.invalidFormatCode fmt)

/-- `Section::encode` (definitions.rs:296-310) and the `encode_*_inner` of definitions.rs:930-1019;
`encoded_size` is the constant 3 plus the size of the value (composite sections have their own). -/
instance : Wire Section where
  enc x := match x with
    | .header v => enc v
    | .deliveryAnnotations v => enc (Descriptor.ulong 113) ++ enc v
    | .messageAnnotations v => enc (Descriptor.ulong 114) ++ enc v
    | .applicationProperties v => enc (Descriptor.ulong 116) ++ enc v
    | .data v => enc (Descriptor.ulong 117) ++ enc v
    | .amqpSequence v => enc (Descriptor.ulong 118) ++ enc v
    | .amqpValue v => enc (Descriptor.ulong 119) ++ enc v
    | .footer v => enc (Descriptor.ulong 120) ++ enc v
    | .properties v => enc v
  size x := match x with
    | .header v => size v
    | .deliveryAnnotations v => 3 + size v
    | .messageAnnotations v => 3 + size v
    | .applicationProperties v => 3 + size v
    | .data v => 3 + size v
    | .amqpSequence v => 3 + size v
    | .amqpValue v => 3 + size v
    | .footer v => 3 + size v
    | .properties v => size v
  decF := Section.decodeF

/-- `MessageBody` (body.rs:9-15), over the type of nested message bodies. -/
structure BodyOf (T : Type) where
  data : List Bytes
  sequence : List VList
  messages : List T
  value : Option Variant

/-- `MessageInner` (message.rs:16-27).  `cache` is the `size: Cell<usize>` field, 0 meaning "not computed". -/
structure MessageOf (T : Type) where
  messageFormat : Option UInt32
  header : Option Header
  deliveryAnnotations : Option VecSymbolMap
  messageAnnotations : Option VecSymbolMap
  properties : Option Properties
  applicationProperties : Option VecStringMap
  footer : Option Annotations
  body : BodyOf T
  cache : Nat

/-- `TransferBody` (protocol/mod.rs:204-208). -/
inductive TransferBody where
  | data (b : Bytes)
  | message (m : MessageOf TransferBody)

abbrev MessageBody := BodyOf TransferBody
/-- `Message` (message.rs:13-14). -/
abbrev Message := MessageOf TransferBody

/-- `Message::default()`. -/
def Message.empty : Message :=
  { messageFormat := none, header := none, deliveryAnnotations := none, messageAnnotations := none, properties := none,
    applicationProperties := none, footer := none, body := ⟨[], [], [], none⟩, cache := 0 }

/-- `if let Some(ref v) = field { size += ... }`. -/
def optSum (f : α → Nat) : Option α → Nat
  | some a => f a
  | none => 0

/-- `if let Some(ref v) = field { ... }` of an encoder. -/
def optEnc (f : α → Bytes) : Option α → Bytes
  | some a => f a
  | none => []

/-- The sum of message.rs:322-342, given the size of the body. -/
def headSize (m : MessageOf T) (body : Nat) : Nat :=
  body + optSum size m.header + optSum (fun v => size v + 3) m.deliveryAnnotations +
    optSum (fun v => size v + 3) m.messageAnnotations + optSum size m.properties +
    optSum (fun v => size v + 3) m.applicationProperties + optSum (fun v => size v + 3) m.footer

/-- `MessageBody::encoded_size` (body.rs:37-57), given the size of the nested messages. -/
def bodySize (b : BodyOf T) (messages : Nat) : Nat :=
  (b.data.map fun d => size d + 3).sum + (b.sequence.map fun d => size d + 3).sum + messages +
    optSum (fun v => size v + 3) b.value

/-- The binary header written before a nested message (body.rs:71-79). -/
def binHeader (length : Nat) : Bytes :=
  if length > 255 then FC.binary32 :: be 4 length else FC.binary8 :: be 1 length

mutual
/-- `TransferBody::encoded_size` (protocol/mod.rs:224-230) and `Message::encoded_size` (message.rs:316-344), its value:
the cached size if there is one. -/
def TransferBody.esize : TransferBody → Nat
  | .data b => b.length
  | .message m => if m.cache ≠ 0 then m.cache else headSize m (bodySize m.body (TransferBody.sizes m.body.messages))

/-- The nested messages in body.rs:46-50. -/
def TransferBody.sizes : List TransferBody → Nat
  | [] => 0
  | t :: l => (t.esize + (if t.esize > 255 then 5 else 2) + 3) + TransferBody.sizes l
end

mutual
/-- The effect of `encoded_size` on the caches (message.rs:317-343): nothing if the size is cached, else the nested
messages are asked for theirs and the result is stored. -/
def TransferBody.touch : TransferBody → TransferBody
  | .data b => .data b
  | .message m =>
    if m.cache ≠ 0 then .message m
    else .message { m with
      body := { m.body with messages := TransferBody.touchAll m.body.messages }
      cache := headSize m (bodySize m.body (TransferBody.sizes m.body.messages)) }

def TransferBody.touchAll : List TransferBody → List TransferBody
  | [] => []
  | t :: l => t.touch :: TransferBody.touchAll l
end

/-- `Message::encode` up to the body (message.rs:347-365). -/
def encHead (m : MessageOf T) : Bytes :=
  optEnc enc m.header ++ optEnc (fun v => enc (Descriptor.ulong 113) ++ enc v) m.deliveryAnnotations ++
    optEnc (fun v => enc (Descriptor.ulong 114) ++ enc v) m.messageAnnotations ++ optEnc enc m.properties ++
    optEnc (fun v => enc (Descriptor.ulong 116) ++ enc v) m.applicationProperties

/-- `MessageBody::encode` up to the nested messages (body.rs:59-71). -/
def encBody (b : BodyOf T) : Bytes :=
  (b.data.flatMap fun d => enc (Descriptor.ulong 117) ++ enc d) ++
    (b.sequence.flatMap fun d => enc (Descriptor.ulong 118) ++ enc d) ++
    optEnc (fun v => enc (Descriptor.ulong 119) ++ enc v) b.value

/-- The footer, always last (message.rs:371-374). -/
def encFooter (m : MessageOf T) : Bytes := optEnc (fun v => enc (Descriptor.ulong 120) ++ enc v) m.footer

mutual
/-- `TransferBody::encode` (protocol/mod.rs:231-237), `Message::encode` (message.rs:346-374). -/
def TransferBody.tenc : TransferBody → Bytes
  | .data b => b
  | .message m => encHead m ++ (encBody m.body ++ TransferBody.encAll m.body.messages) ++ encFooter m

/-- The nested messages (body.rs:68-83): section 117, a binary header made from `encoded_size`, the message. -/
def TransferBody.encAll : List TransferBody → Bytes
  | [] => []
  | t :: l => enc (Descriptor.ulong 117) ++ binHeader t.esize ++ t.tenc ++ TransferBody.encAll l
end

/-- `Message::encoded_size`, its value. -/
def Message.esize (m : Message) : Nat := (TransferBody.message m).esize

/-- `Message::encoded_size`, the message afterwards. -/
def Message.touch (m : Message) : Message :=
  if m.cache ≠ 0 then m
  else { m with
    body := { m.body with messages := TransferBody.touchAll m.body.messages }
    cache := m.esize }

/-- `Message::encode`. -/
def Message.encode (m : Message) : Bytes := (TransferBody.message m).tenc

/-- One round of the loop of `Message::decode` (message.rs:277-309). -/
def Message.addSection (m : Message) : Section → Message
  | .header v => { m with header := some v }
  | .deliveryAnnotations v => { m with deliveryAnnotations := some v }
  | .messageAnnotations v => { m with messageAnnotations := some v }
  | .applicationProperties v => { m with applicationProperties := some v }
  | .footer v => { m with footer := some v }
  | .properties v => { m with properties := some v }
  | .amqpSequence v => { m with body := { m.body with sequence := m.body.sequence ++ [v] } }
  | .amqpValue v => { m with body := { m.body with value := some v } }
  | .data v => { m with body := { m.body with data := m.body.data ++ [v] } }

/-- The loop of `Message::decode` (message.rs:272-311); every round consumes at least one byte, so the length of the
input is enough fuel. -/
def Message.decodeLoop : Nat → Message → Bytes → Except Err Message
  | _, m, [] => .ok m
  | 0, _, _ => .error .fuel
  | n + 1, m, s => match (dec : Dec Section) s with
    | .ok (sec, r) => Message.decodeLoop n (m.addSection sec) r
    | .error e => .error e

/-- `Message::decode` (message.rs:269-313). -/
def Message.decode (s : Bytes) : Except Err Message := Message.decodeLoop s.length .empty s

/-! ## The building and mutating methods (message.rs:30-267)

Closures passed to a method are arbitrary functions on the part they are given. -/

namespace Message

/-- message.rs:32-37 -/
def withBody (b : Bytes) : Message := { empty with body := { empty.body with data := [b] }, messageFormat := some 0 }
/-- message.rs:41-46 -/
def withMessages (l : List TransferBody) : Message :=
  { empty with body := { empty.body with messages := l }, messageFormat := some 0 }

/-- `Properties::default()` -/
def defaultProperties : Properties := ⟨none, none, none, none, none, none, none, none, none, none, none, none, none⟩

/-- A use of the mutating interface. -/
inductive Op where
  | encodedSize
  | encode
  | setHeader (h : Header)
  | setFormat (f : UInt32)
  /-- `properties_mut()` and then any change through the reference, or `set_properties` -/
  | setProperties (f : Properties → Properties)
  /-- `app_properties_mut()` and then any change through the reference -/
  | appPropertiesMut (f : VecStringMap → VecStringMap)
  | setAppProperty (k : Str) (v : Variant)
  | addMessageAnnotation (k : Symbol) (v : Variant)
  | messageAnnotationsMut (f : VecSymbolMap → VecSymbolMap)
  | deliveryAnnotationsMut (f : VecSymbolMap → VecSymbolMap)
  /-- `update`/`if_some`: what the closure does is a sequence of further operations -/
  | update
  | bodyMut (f : MessageBody → MessageBody)
  | setValue (v : Variant)
  | setBody (f : MessageBody → MessageBody)

/-- `props.push((key, value))`, creating the map if absent (message.rs:134-140, 164-170). -/
def pushEntry (m : Option (VecMap κ)) (k : κ) (v : Variant) : Option (VecMap κ) :=
  match m with
  | some m => some ⟨m.entries ++ [(k, v)]⟩
  | none => some ⟨[(k, v)]⟩

/-- The message after one operation (message.rs:56-258). -/
def apply (m : Message) : Op → Message
  | .encodedSize => m.touch
  | .encode => { m with body := { m.body with messages := TransferBody.touchAll m.body.messages } }
  | .setHeader h => { m with header := some h, cache := 0 }
  | .setFormat f => { m with messageFormat := some f }
  | .setProperties f => { m with properties := some (f (m.properties.getD defaultProperties)), cache := 0 }
  | .appPropertiesMut f => { m with applicationProperties := m.applicationProperties.map f }
  | .setAppProperty k v => { m with applicationProperties := pushEntry m.applicationProperties k v, cache := 0 }
  | .addMessageAnnotation k v => { m with messageAnnotations := pushEntry m.messageAnnotations k v, cache := 0 }
  | .messageAnnotationsMut f => { m with messageAnnotations := m.messageAnnotations.map f }
  | .deliveryAnnotationsMut f => { m with deliveryAnnotations := m.deliveryAnnotations.map f }
  | .update => { m with cache := 0 }
  | .bodyMut f => { m with body := f m.body }
  | .setValue v => { m with body := { m.body with value := some v } }
  | .setBody f => { m with body := f m.body, cache := 0 }

/-- message.rs:261-266 -/
def replyMessage (m : Message) : Message :=
  match m.properties with
  | some data => { empty with properties := some { defaultProperties with correlationId := data.messageId } }
  | none => empty

end Message

end Amqp
