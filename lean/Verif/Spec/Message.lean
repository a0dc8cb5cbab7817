import Verif.Spec.Structs
import Verif.Model.Message
/-! What the message properties talk about. -/

namespace Amqp

instance : WF Section := ⟨fun x => match x with
  | .header v => wf v
  | .deliveryAnnotations v => wf v
  | .messageAnnotations v => wf v
  | .applicationProperties v => wf v
  | .data v => wf v
  | .amqpSequence v => wf v
  | .amqpValue v => wf v
  | .footer v => wf v
  | .properties v => wf v⟩

mutual
/-- A message whose remembered size, if any, is its real size; likewise for the messages inside it.  Every freshly
built or decoded message is like that. -/
def TransferBody.coherent : TransferBody → Prop
  | .data _ => True
  | .message m => (m.cache = 0 ∨ m.cache = (TransferBody.message m).tenc.length) ∧ coherentAll m.body.messages

def TransferBody.coherentAll : List TransferBody → Prop
  | [] => True
  | t :: l => t.coherent ∧ coherentAll l
end

/-- The message's own cache is right and so are those of the messages inside it. -/
def Message.coherent (m : Message) : Prop := (TransferBody.message m).coherent

/-- Every part of the message can be expressed on the wire. -/
structure Message.WellFormed (m : Message) : Prop where
  header : wf m.header
  deliveryAnnotations : wf m.deliveryAnnotations
  messageAnnotations : wf m.messageAnnotations
  properties : wf m.properties
  applicationProperties : wf m.applicationProperties
  footer : wf m.footer
  data : ∀ d ∈ m.body.data, wf d
  sequence : ∀ s ∈ m.body.sequence, wf s
  value : wf m.body.value
  messages : ∀ t ∈ m.body.messages, t.tenc.length < U32
  coherent : TransferBody.coherentAll m.body.messages

/-- What the receiver is meant to see: the same sections, nested messages as further data sections holding their
encodings.  (The message format travels in the transfer frame, the cache is local.) -/
def Message.asReceived (m : Message) : Message :=
  { m with
    messageFormat := none
    body := { m.body with data := m.body.data ++ m.body.messages.map TransferBody.tenc, messages := [] }
    cache := 0 }

end Amqp
