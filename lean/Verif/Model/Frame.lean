import Verif.Model.Message
/-!
# Frames

Models `Transfer` (`codec/src/protocol/definitions.rs:2618-2996`), `Frame` (`definitions.rs:5-113`), `AmqpFrame` and
`SaslFrame` (`codec/src/framing.rs`, `codec/src/codec/encode.rs:827-857`, `codec/src/codec/decode.rs:516-530,575-593`).
-/

namespace Amqp
open Dec

/-- `Transfer`: the list of fields, then the payload, which is not part of the list (definitions.rs:2622-2635). -/
structure Transfer where
  head : TransferHead
  body : Option TransferBody

/-- `decode_transfer_inner` (definitions.rs:2804-2912): whatever follows the list is the payload. -/
def Transfer.decInner : Dec Transfer := do
  let head ← (Composite.decInner : Dec TransferHead)
  (⟨fun s => .ok ({ head, body := if s = [] then none else some (.data s) }, [])⟩ : Dec Transfer)

/-- `encoded_size_transfer_inner` (definitions.rs:2913-2934). -/
def Transfer.esize (t : Transfer) : Nat := size t.head + optSum TransferBody.esize t.body

/-- `encode_transfer_inner` (definitions.rs:2935-2973). -/
def Transfer.tenc (t : Transfer) : Bytes := enc t.head ++ optEnc TransferBody.tenc t.body

/-- `Frame` (definitions.rs:5-17). -/
inductive Frame where
  | open_ (v : Open)
  | begin_ (v : Begin)
  | attach (v : Attach)
  | flow (v : Flow)
  | transfer (v : Transfer)
  | disposition (v : Disposition)
  | detach (v : Detach)
  | end_ (v : End)
  | close (v : Close)
  | empty

/-- `Frame::decode` after the descriptor (definitions.rs:42-80). -/
def Frame.decBody (d : Descriptor) : Dec Frame :=
  if Composite.isMine Open d then do return .open_ (← Composite.decInner)
  else if Composite.isMine Begin d then do return .begin_ (← Composite.decInner)
  else if Composite.isMine Attach d then do return .attach (← Composite.decInner)
  else if Composite.isMine Flow d then do return .flow (← Composite.decInner)
  else if Composite.isMine TransferHead d then do return .transfer (← Transfer.decInner)
  else if Composite.isMine Disposition d then do return .disposition (← Composite.decInner)
  else if Composite.isMine Detach d then do return .detach (← Composite.decInner)
  else if Composite.isMine End d then do return .end_ (← Composite.decInner)
  else if Composite.isMine Close d then do return .close (← Composite.decInner)
  else fail (.invalidDescriptor d)

/-- `Frame::decode` (definitions.rs:34-83). -/
def Frame.decode : Dec Frame := ⟨fun s =>
  match s with
  | [] => .ok (.empty, [])
  | fmt :: s =>
    if fmt = FC.described then (do
      let d ← (dec : Dec Descriptor)
      Frame.decBody d) s
    else .error (.invalidFormatCode fmt)⟩

/-- `Frame::encoded_size` (definitions.rs:85-98). -/
def Frame.esize : Frame → Nat
  | .open_ v => size v
  | .begin_ v => size v
  | .attach v => size v
  | .flow v => size v
  | .transfer v => v.esize
  | .disposition v => size v
  | .detach v => size v
  | .end_ v => size v
  | .close v => size v
  | .empty => 0

/-- `Frame::encode` (definitions.rs:99-112). -/
def Frame.encode : Frame → Bytes
  | .open_ v => enc v
  | .begin_ v => enc v
  | .attach v => enc v
  | .flow v => enc v
  | .transfer v => v.tenc
  | .disposition v => enc v
  | .detach v => enc v
  | .end_ v => enc v
  | .close v => enc v
  | .empty => []

/-- `AmqpFrame` (framing.rs:11-15). -/
structure AmqpFrame where
  channel : UInt16
  performative : Frame

/-- `SaslFrame` (framing.rs:42-45). -/
structure SaslFrame where
  body : SaslFrameBody

/-- `decode_frame_header` (decode.rs:575-593); what it reads starts after the 4-byte frame size. -/
def decFrameHeader (frameType : UInt8) : Dec UInt16 := ⟨fun s =>
  match s with
  | doff :: ty :: c1 :: c0 :: _ =>
    if ty ≠ frameType then .error (.unexpectedFrameType ty)
    else if doff.toNat * 4 < 8 then .error .invalidSize
    else
      let ext := doff.toNat * 4 - 8 + 4
      if s.length < ext then .error (.incomplete ext)
      else .ok (UInt16.ofNat (beNat [c1, c0]), s.drop ext)
  | _ => .error (.incomplete 4)⟩

/-- `AmqpFrame::decode` (decode.rs:516-522). -/
def AmqpFrame.decode : Dec AmqpFrame := do
  let channel ← decFrameHeader 0
  let performative ← Frame.decode
  return { channel, performative }

/-- `SaslFrame::decode` (decode.rs:524-530). -/
def SaslFrame.decode : Dec SaslFrame := do
  let _ ← decFrameHeader 1
  let body ← (dec : Dec SaslFrameBody)
  return { body }

/-- encode.rs:829-832 -/
def AmqpFrame.esize (f : AmqpFrame) : Nat := 8 + f.performative.esize
/-- encode.rs:834-841 -/
def AmqpFrame.encode (f : AmqpFrame) : Bytes :=
  be 4 f.esize ++ [2, 0] ++ be 2 f.channel.toNat ++ f.performative.encode

/-- encode.rs:845-847 -/
def SaslFrame.esize (f : SaslFrame) : Nat := 8 + size f.body
/-- encode.rs:849-856 -/
def SaslFrame.encode (f : SaslFrame) : Bytes := be 4 f.esize ++ [2, 1] ++ be 2 0 ++ enc f.body

end Amqp
