/-!
# Bytes, parse errors and the decoder monad

Models `codec/src/error.rs`, `codec/src/types/mod.rs` (`Descriptor`, `Constructor`), the readers at the top of
`codec/src/codec/decode.rs` and the `decode_check_len!` macro of `codec/src/codec/mod.rs`.
-/

namespace Amqp

/-- `ntex_bytes::Bytes`: an immutable byte string. -/
abbrev Bytes := List UInt8

/-- `Symbol` (codec/src/types/symbol.rs): the bytes of the text.  The ASCII restriction of the AMQP
specification is not enforced by the code (only UTF-8 is), so it is not part of the type here either. -/
structure Symbol where
  bytes : Bytes
deriving DecidableEq, Repr

/-- `ByteString` / `Str` (codec/src/types/mod.rs): the bytes of a string.  Rust guarantees UTF-8 validity by
construction; here validity is the separate predicate `validUtf8` (see `Prim.lean`). -/
structure Str where
  bytes : Bytes
deriving DecidableEq, Repr

/-- `Descriptor` (codec/src/types/mod.rs:15-19). -/
inductive Descriptor where
  | ulong (v : UInt64)
  | symbol (s : Symbol)
deriving DecidableEq, Repr

/-- `Constructor` (codec/src/types/mod.rs:21-28). -/
inductive Constructor where
  | formatCode (c : UInt8)
  | described (d : Descriptor) (c : UInt8)
deriving DecidableEq, Repr

/-- `AmqpParseError` (codec/src/error.rs:4-30), plus two outcomes that are not Rust error values:
`panic` for a Rust panic (arithmetic underflow with overflow checks on, `unimplemented!()`), and `fuel` for
exhaustion of the recursion fuel of the model (proved unreachable). -/
inductive Err where
  | invalidSize
  | incomplete (n : Nat)
  | invalidFormatCode (c : UInt8)
  | invalidChar (n : UInt32)
  | invalidDescriptor (d : Descriptor)
  | unexpectedFrameType (t : UInt8)
  | requiredFieldOmitted (name : String)
  | unknownEnumOption (name : String)
  | uuidParse
  | datetimeParse
  | unexpectedType (name : String)
  | utf8
  | panic
  | fuel
deriving DecidableEq, Repr

/-- A Rust `fn decode(input: &mut Bytes) -> Result<T, AmqpParseError>`: consumes a prefix of the input.
(On error the Rust input may be left partially consumed; no caller looks at it, so the model drops it.) -/
structure Dec (α : Type) where
  run : Bytes → Except Err (α × Bytes)

instance : CoeFun (Dec α) (fun _ => Bytes → Except Err (α × Bytes)) := ⟨Dec.run⟩

namespace Dec

def pure' (a : α) : Dec α := ⟨fun s => .ok (a, s)⟩

def bind' (m : Dec α) (f : α → Dec β) : Dec β := ⟨fun s =>
  match m s with
  | .ok (a, r) => f a r
  | .error e => .error e⟩

instance : Monad Dec where
  pure := pure'
  bind := bind'

/-- `return Err(e)` -/
def fail (e : Err) : Dec α := ⟨fun _ => .error e⟩

/-- `decode_check_len!(input, n)` followed by `input.split_to(n)`
(codec/src/codec/mod.rs:5-11; used throughout decode.rs). -/
def splitTo (n : Nat) : Dec Bytes := ⟨fun s =>
  if s.length < n then .error (.incomplete n) else .ok (s.take n, s.drop n)⟩

/-- `decode_check_len!(input, n); let mut sub = input.split_to(n);` then `d(&mut sub)`; what `d` leaves of `sub`
is dropped (decode.rs:247-258, generated list decoders in definitions.rs). -/
def limit (n : Nat) (d : Dec α) : Dec α := ⟨fun s =>
  if s.length < n then .error (.incomplete n)
  else match d (s.take n) with
    | .ok (a, _) => .ok (a, s.drop n)
    | .error e => .error e⟩

/-- `for _ in 0..count { result.push(d(input)?) }` (decode.rs:275-278, 342-345). -/
def repeatDec : Nat → Dec α → Dec (List α)
  | 0, _ => pure []
  | k + 1, d => do
    let a ← d
    let as ← repeatDec k d
    pure (a :: as)

end Dec

/-- Big-endian value of a byte string (`byteorder::BigEndian::read_*`). -/
def beNat : Bytes → Nat
  | [] => 0
  | b :: bs => b.toNat * 256 ^ bs.length + beNat bs

/-- The `k` low-order bytes of `n`, big-endian (`BufMut::put_u8/u16/u32/u64` after an `as` cast). -/
def be : Nat → Nat → Bytes
  | 0, _ => []
  | k + 1, n => UInt8.ofNat (n / 256 ^ k) :: be k n

/-- `be_read!` (decode.rs:18-25): check, read big-endian, advance. -/
def readBE (k : Nat) : Dec Nat := ⟨fun s =>
  if s.length < k then .error (.incomplete k) else .ok (beNat (s.take k), s.drop k)⟩

/-- `read_u8` (decode.rs:27-32) and `decode_format_code` (codec/mod.rs:66-70), which are the same code. -/
def readU8 : Dec UInt8 := ⟨fun s =>
  match s with
  | [] => .error (.incomplete 1)
  | b :: s => .ok (b, s)⟩

/-- `read_i8` (decode.rs:34-39). -/
def readI8 : Dec Int8 := do return (← readU8).toInt8

/-- `read_bytes_u8` (decode.rs:41-46). -/
def readBytesU8 : Dec Bytes := do
  let len ← readU8
  Dec.splitTo len.toNat

/-- `read_bytes_u32` (decode.rs:48-54). -/
def readBytesU32 : Dec Bytes := do
  let len ← readBE 4
  Dec.splitTo len

/-! `codec::format_codes` (codec/src/codec/mod.rs:72-113). -/
namespace FC
abbrev described : UInt8 := 0x00
abbrev null : UInt8 := 0x40
abbrev boolean : UInt8 := 0x56
abbrev true_ : UInt8 := 0x41
abbrev false_ : UInt8 := 0x42
abbrev uint0 : UInt8 := 0x43
abbrev ulong0 : UInt8 := 0x44
abbrev list0 : UInt8 := 0x45
abbrev ubyte : UInt8 := 0x50
abbrev byte : UInt8 := 0x51
abbrev smalluint : UInt8 := 0x52
abbrev smallulong : UInt8 := 0x53
abbrev smallint : UInt8 := 0x54
abbrev smalllong : UInt8 := 0x55
abbrev ushort : UInt8 := 0x60
abbrev short : UInt8 := 0x61
abbrev uint : UInt8 := 0x70
abbrev int : UInt8 := 0x71
abbrev float : UInt8 := 0x72
abbrev char : UInt8 := 0x73
abbrev decimal32 : UInt8 := 0x74
abbrev ulong : UInt8 := 0x80
abbrev long : UInt8 := 0x81
abbrev double : UInt8 := 0x82
abbrev timestamp : UInt8 := 0x83
abbrev decimal64 : UInt8 := 0x84
abbrev decimal128 : UInt8 := 0x94
abbrev uuid : UInt8 := 0x98
abbrev binary8 : UInt8 := 0xa0
abbrev string8 : UInt8 := 0xa1
abbrev symbol8 : UInt8 := 0xa3
abbrev binary32 : UInt8 := 0xb0
abbrev string32 : UInt8 := 0xb1
abbrev symbol32 : UInt8 := 0xb3
abbrev list8 : UInt8 := 0xc0
abbrev map8 : UInt8 := 0xc1
abbrev list32 : UInt8 := 0xd0
abbrev map32 : UInt8 := 0xd1
abbrev array8 : UInt8 := 0xe0
abbrev array32 : UInt8 := 0xf0
end FC

/-- The traits `Encode`, `DecodeFormatted` and (through the blanket impl) `Decode`
(codec/src/codec/mod.rs:17-64). -/
class Wire (α : Type) where
  /-- `Encode::encode`: the bytes appended to the buffer -/
  enc : α → Bytes
  /-- `Encode::encoded_size` -/
  size : α → Nat
  /-- `DecodeFormatted::decode_with_format` -/
  decF : UInt8 → Dec α

export Wire (enc size decF)

/-- `impl<T: DecodeFormatted> Decode for T` (codec/src/codec/mod.rs:59-64). -/
def dec [Wire α] : Dec α := do
  let fmt ← readU8
  decF fmt

end Amqp
