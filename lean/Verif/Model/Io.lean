import Verif.Model.Frame
/-!
# Stream codecs

Models `AmqpCodec<T>` and `ProtocolIdCodec` (`codec/src/io.rs`).
-/

namespace Amqp

/-- `AmqpCodecError` (codec/src/error.rs:32-42). -/
inductive CodecError where
  | parse (e : Err)
  | unparsedBytesLeft
  | maxSizeExceeded
  | invalidFrameSize
deriving DecidableEq, Repr

/-- `DecodeState` (io.rs:19-23). -/
inductive DecodeState where
  | frameHeader
  | frame (size : Nat)
deriving DecidableEq, Repr

/-- What `Decoder::decode` returns: `Ok(None)`, `Ok(Some(item))` or `Err`. -/
inductive Poll (α ε : Type) where
  | pending
  | ready (a : α)
  | error (e : ε)

/-- The `Frame(size)` arm (io.rs:85-99).  The `Decode` impl of the frame type is a parameter.  On a decode error the
frame's bytes are gone from the buffer but the state is still `Frame(size)`. -/
def codecFrame (decode : Bytes → Except Err (α × Bytes)) (size : Nat) (buf : Bytes) :
    Poll α CodecError × DecodeState × Bytes :=
  if buf.length < size then (.pending, .frame size, buf)
  else match decode (buf.take size) with
    | .error e => (.error (.parse e), .frame size, buf.drop size)
    | .ok (a, left) =>
      if left = [] then (.ready a, .frameHeader, buf.drop size)
      else (.error .unparsedBytesLeft, .frame size, buf.drop size)

/-- `AmqpCodec::decode` (io.rs:62-102): from the codec state and the buffer to the result, the new state and what is
left in the buffer.  The loop goes from the header arm to the frame arm at most once, so it is written out. -/
def codecDecode (decode : Bytes → Except Err (α × Bytes)) (maxSize : Nat) (st : DecodeState) (buf : Bytes) :
    Poll α CodecError × DecodeState × Bytes :=
  match st with
  | .frameHeader =>
    if buf.length < 8 then (.pending, .frameHeader, buf)
    else
      let size := beNat (buf.take 4)
      if maxSize ≠ 0 ∧ size > maxSize then (.error .maxSizeExceeded, .frameHeader, buf)
      else if size ≤ 4 then (.error .invalidFrameSize, .frameHeader, buf)
      else if buf.length < size then (.pending, .frame (size - 4), buf.drop 4)
      else codecFrame decode (size - 4) (buf.drop 4)
  | .frame size => codecFrame decode size buf

/-- `AmqpCodec::encode` (io.rs:109-120) appends the encoding; the `debug_assert!` is not modelled (it is the claim of
`encoded_size` exactness). -/
def codecEncode (encode : α → Bytes) (item : α) (dst : Bytes) : Bytes := dst ++ encode item

/-- Calling `decode` until it returns `None` or an error, as the framed transport does.  The frame size is at least
one byte, so the buffer length is enough fuel. -/
def codecDrain (decode : Bytes → Except Err (α × Bytes)) (maxSize : Nat) :
    Nat → DecodeState → Bytes → List α × Option CodecError × DecodeState × Bytes
  | 0, st, buf => ([], none, st, buf)
  | n + 1, st, buf =>
    match codecDecode decode maxSize st buf with
    | (.pending, st, buf) => ([], none, st, buf)
    | (.error e, st, buf) => ([], some e, st, buf)
    | (.ready a, st, buf) =>
      let (as, e, st, buf) := codecDrain decode maxSize n st buf
      (a :: as, e, st, buf)

/-- Reading a stream that arrives in chunks: each chunk is appended to the buffer, then the codec is drained.
The transport stops at the first error. -/
def codecRead (decode : Bytes → Except Err (α × Bytes)) (maxSize : Nat) :
    List Bytes → DecodeState → Bytes → List α × Option CodecError
  | [], _, _ => ([], none)
  | c :: cs, st, buf =>
    match codecDrain decode maxSize ((buf ++ c).length + 1) st (buf ++ c) with
    | (as, some e, _, _) => (as, some e)
    | (as, none, st, buf) =>
      let (bs, e) := codecRead decode maxSize cs st buf
      (as ++ bs, e)

/-- `ProtocolId` (protocol/mod.rs:20-25). -/
inductive ProtocolId where
  | amqp
  | amqpTls
  | amqpSasl
deriving DecidableEq, Repr

/-- `item as u8`. -/
def ProtocolId.code : ProtocolId → UInt8
  | .amqp => 0
  | .amqpTls => 2
  | .amqpSasl => 3

/-- `ProtocolIdError` (codec/src/error.rs:44-54), the cases the codec produces. -/
inductive ProtocolIdError where
  | invalidHeader
  | incompatible
  | unknown
deriving DecidableEq, Repr

/-- `ProtocolIdCodec::decode` (io.rs:134-153). -/
def protocolIdDecode (buf : Bytes) : Poll ProtocolId ProtocolIdError × Bytes :=
  if buf.length < 8 then (.pending, buf)
  else
    let src := buf.take 8
    let rest := buf.drop 8
    if src.take 4 ≠ [0x41, 0x4d, 0x51, 0x50] then (.error .invalidHeader, rest)
    else if src.drop 5 ≠ [1, 0, 0] then (.error .incompatible, rest)
    else match src.getD 4 0 with
      | 0 => (.ready .amqp, rest)
      | 2 => (.ready .amqpTls, rest)
      | 3 => (.ready .amqpSasl, rest)
      | _ => (.error .unknown, rest)

/-- `ProtocolIdCodec::encode` (io.rs:160-166). -/
def protocolIdEncode (p : ProtocolId) : Bytes := [0x41, 0x4d, 0x51, 0x50, p.code, 1, 0, 0]

end Amqp
