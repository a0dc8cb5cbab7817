import Verif.Model.Message
import Verif.Model.Frame
/-!
# Reading messages

The methods with which an application reads a message it made or received: lookups of properties and annotations
(codec/src/message/message.rs), the data of the body (body.rs), and the message in a transfer (protocol/mod.rs).
-/

namespace Amqp

/-- The `find_map` of message.rs:119-121 and 149-151. -/
def VecMap.lookup [DecidableEq κ] (m : VecMap κ) (key : κ) : Option Variant :=
  m.entries.findSome? fun item => if item.1 = key then some item.2 else none

/-- `app_property` (message.rs:117-125).  A key is compared with a `str`, that is byte by byte. -/
def Message.appProperty (m : Message) (key : Str) : Option Variant :=
  match m.applicationProperties with
  | some props => props.lookup key
  | none => none

/-- `message_annotation` (message.rs:147-155). -/
def Message.annotation (m : Message) (key : Symbol) : Option Variant :=
  match m.messageAnnotations with
  | some props => props.lookup key
  | none => none

/-- `MessageBody::data` (body.rs:18-24). -/
def BodyOf.firstData (b : BodyOf T) : Option Bytes :=
  match b.data with
  | [] => none
  | d :: _ => some d

/-- `MessageBody::set_data` (body.rs:30-33). -/
def BodyOf.setData (b : BodyOf T) (d : Bytes) : BodyOf T := { b with data := [d] }

/-- `Transfer::get_body` (protocol/mod.rs:244-249). -/
def Transfer.getBody (t : Transfer) : Option Bytes :=
  match t.body with
  | some (.data b) => some b
  | _ => none

/-- `Transfer::load_message::<Message>` (protocol/mod.rs:252-258). -/
def Transfer.loadMessage (t : Transfer) : Except Err Message :=
  match t.body with
  | some (.data b) => Message.decode b
  | _ => .error (.unexpectedType "body")

end Amqp
