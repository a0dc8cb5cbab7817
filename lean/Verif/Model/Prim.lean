import Verif.Model.Basic
/-!
# Primitive types

Models the scalar `Encode`/`ArrayEncode` impls of `codec/src/codec/encode.rs:30-448` and the scalar
`DecodeFormatted` impls of `codec/src/codec/decode.rs:65-240`.
-/

namespace Amqp
open Dec

/-- `ArrayEncode` (codec/src/codec/mod.rs:26-36).  All constructors in the code are plain format codes. -/
class ArrayWire (α : Type) where
  /-- `ARRAY_CONSTRUCTOR` -/
  arrCtor : UInt8
  /-- `array_encoded_size` -/
  arrSize : α → Nat
  /-- `array_encode` -/
  arrEnc : α → Bytes

export ArrayWire (arrCtor arrSize arrEnc)

/-- A byte array of fixed length (`[u8; N]`, `uuid::Uuid`). -/
abbrev FixedBytes (n : Nat) := { b : Bytes // b.length = n }

/-- `read_fixed_bytes` (decode.rs:629-635); also the uuid reader (decode.rs:183-185), whose
`Uuid::from_slice` cannot fail on 16 bytes. -/
def readFixed (n : Nat) : Dec (FixedBytes n) := ⟨fun s =>
  if h : s.length < n then .error (.incomplete n)
  else .ok (⟨s.take n, by simp; omega⟩, s.drop n)⟩

/-! ## bool (encode.rs:30-50, decode.rs:65-74) -/

instance : Wire Bool where
  enc b := [if b then FC.true_ else FC.false_]
  size _ := 1
  decF fmt :=
    if fmt = FC.boolean then do return (← readU8) != 0
    else if fmt = FC.true_ then pure true
    else if fmt = FC.false_ then pure false
    else fail (.invalidFormatCode fmt)

instance : ArrayWire Bool where
  arrCtor := FC.boolean
  arrSize _ := 1
  arrEnc b := [if b then 1 else 0]

/-! ## unsigned integers (encode.rs:52-138, decode.rs:76-110) -/

instance : Wire UInt8 where
  enc x := [FC.ubyte, x]
  size _ := 1 + 1
  decF fmt := if fmt = FC.ubyte then readU8 else fail (.invalidFormatCode fmt)

instance : ArrayWire UInt8 where
  arrCtor := FC.ubyte
  arrSize _ := 1
  arrEnc x := [x]

instance : Wire UInt16 where
  enc x := FC.ushort :: be 2 x.toNat
  size _ := 2 + 1
  decF fmt := if fmt = FC.ushort then do return UInt16.ofNat (← readBE 2) else fail (.invalidFormatCode fmt)

instance : ArrayWire UInt16 where
  arrCtor := FC.ushort
  arrSize _ := 2
  arrEnc x := be 2 x.toNat

instance : Wire UInt32 where
  enc x :=
    if x = 0 then [FC.uint0]
    else if x > 255 then FC.uint :: be 4 x.toNat
    else [FC.smalluint, x.toUInt8]
  size x := if x = 0 then 1 else if x > 255 then 5 else 2
  decF fmt :=
    if fmt = FC.uint then do return UInt32.ofNat (← readBE 4)
    else if fmt = FC.smalluint then do return (← readU8).toUInt32
    else if fmt = FC.uint0 then pure 0
    else fail (.invalidFormatCode fmt)

instance : ArrayWire UInt32 where
  arrCtor := FC.uint
  arrSize _ := 4
  arrEnc x := be 4 x.toNat

instance : Wire UInt64 where
  enc x :=
    if x = 0 then [FC.ulong0]
    else if x > 255 then FC.ulong :: be 8 x.toNat
    else [FC.smallulong, x.toUInt8]
  size x := if x = 0 then 1 else if x > 255 then 9 else 2
  decF fmt :=
    if fmt = FC.ulong then do return UInt64.ofNat (← readBE 8)
    else if fmt = FC.smallulong then do return (← readU8).toUInt64
    else if fmt = FC.ulong0 then pure 0
    else fail (.invalidFormatCode fmt)

instance : ArrayWire UInt64 where
  arrCtor := FC.ulong
  arrSize _ := 8
  arrEnc x := be 8 x.toNat

/-! ## signed integers (encode.rs:140-222, decode.rs:112-144).  The bytes written are the two's complement. -/

instance : Wire Int8 where
  enc x := [FC.byte, x.toUInt8]
  size _ := 1 + 1
  decF fmt := if fmt = FC.byte then readI8 else fail (.invalidFormatCode fmt)

instance : ArrayWire Int8 where
  arrCtor := FC.byte
  arrSize _ := 1
  arrEnc x := [x.toUInt8]

instance : Wire Int16 where
  enc x := FC.short :: be 2 x.toUInt16.toNat
  size _ := 2 + 1
  decF fmt :=
    if fmt = FC.short then do return (UInt16.ofNat (← readBE 2)).toInt16 else fail (.invalidFormatCode fmt)

instance : ArrayWire Int16 where
  arrCtor := FC.short
  arrSize _ := 2
  arrEnc x := be 2 x.toUInt16.toNat

instance : Wire Int32 where
  enc x :=
    if x > 127 ∨ x < -128 then FC.int :: be 4 x.toUInt32.toNat
    else [FC.smallint, x.toInt8.toUInt8]
  size x := if x > 127 ∨ x < -128 then 5 else 2
  decF fmt :=
    if fmt = FC.int then do return (UInt32.ofNat (← readBE 4)).toInt32
    else if fmt = FC.smallint then do return (← readI8).toInt32
    else fail (.invalidFormatCode fmt)

instance : ArrayWire Int32 where
  arrCtor := FC.int
  arrSize _ := 4
  arrEnc x := be 4 x.toUInt32.toNat

instance : Wire Int64 where
  enc x :=
    if x > 127 ∨ x < -128 then FC.long :: be 8 x.toUInt64.toNat
    else [FC.smalllong, x.toInt8.toUInt8]
  size x := if x > 127 ∨ x < -128 then 9 else 2
  decF fmt :=
    if fmt = FC.long then do return (UInt64.ofNat (← readBE 8)).toInt64
    else if fmt = FC.smalllong then do return (← readI8).toInt64
    else fail (.invalidFormatCode fmt)

instance : ArrayWire Int64 where
  arrCtor := FC.long
  arrSize _ := 8
  arrEnc x := be 8 x.toUInt64.toNat

/-! ## floating point (encode.rs:224-248, decode.rs:146-158): IEEE bit patterns.
`read_f32`/`put_f32` are bit casts, so the model works on the bits. -/

/-- `f32` as its bit pattern. -/
structure F32 where
  bits : UInt32
deriving DecidableEq, Repr

/-- `f64` as its bit pattern. -/
structure F64 where
  bits : UInt64
deriving DecidableEq, Repr

instance : Wire F32 where
  enc x := FC.float :: be 4 x.bits.toNat
  size _ := 4 + 1
  decF fmt := if fmt = FC.float then do return ⟨UInt32.ofNat (← readBE 4)⟩ else fail (.invalidFormatCode fmt)

instance : ArrayWire F32 where
  arrCtor := FC.float
  arrSize _ := 4
  arrEnc x := be 4 x.bits.toNat

instance : Wire F64 where
  enc x := FC.double :: be 8 x.bits.toNat
  size _ := 8 + 1
  decF fmt := if fmt = FC.double then do return ⟨UInt64.ofNat (← readBE 8)⟩ else fail (.invalidFormatCode fmt)

instance : ArrayWire F64 where
  arrCtor := FC.double
  arrSize _ := 8
  arrEnc x := be 8 x.bits.toNat

/-! ## char (encode.rs:250-260, decode.rs:160-171).  Lean's `Char`, like Rust's, is a Unicode scalar value. -/

instance : Wire Char where
  enc c := FC.char :: be 4 c.val.toNat
  size _ := 4 + 1
  decF fmt :=
    if fmt = FC.char then do
      let o ← readBE 4
      if h : (UInt32.ofNat o).isValidChar then return Char.mk (UInt32.ofNat o) h
      else fail (.invalidChar (UInt32.ofNat o))
    else fail (.invalidFormatCode fmt)

instance : ArrayWire Char where
  arrCtor := FC.char
  arrSize _ := 4
  arrEnc c := be 4 c.val.toNat

/-! ## timestamps (encode.rs:262-273, decode.rs:173-178, 611-627) -/

/-- `chrono::DateTime<Utc>`: whole seconds since the epoch (floor) and nanoseconds within the second
(values in [10^9, 2*10^9) denote a leap second, as in chrono). -/
structure Timestamp where
  secs : Int
  nanos : Nat
deriving DecidableEq, Repr

/-- Smallest and largest second of chrono's date range (years -262143 .. 262142);
chrono is a dependency outside the repository, its range is restated here. -/
def minSecs : Int := -8334601228800
def maxSecs : Int := 8210266876799

/-- `Utc.timestamp_opt(secs, nanos).earliest()` (chrono): `None` outside the date range, for
`nanos ≥ 2*10^9`, and for a leap-second value not on second 59. -/
def timestampOpt (secs : Int) (nanos : Nat) : Option Timestamp :=
  if minSecs ≤ secs ∧ secs ≤ maxSecs ∧ nanos < 2000000000 ∧ (nanos ≥ 1000000000 → secs % 60 = 59) then
    some ⟨secs, nanos⟩
  else none

/-- `timestamp() * 1000 + timestamp_subsec_millis()` (encode.rs:269-270).  No `i64` overflow inside chrono's range. -/
def timestampMillis (t : Timestamp) : Int := t.secs * 1000 + ((t.nanos / 1000000 : Nat) : Int)

/-- `datetime_from_millis` (decode.rs:611-627).  `/` on `i64` truncates towards zero (`Int.tdiv`);
`nanoseconds as u32` truncates to 32 bits, which never loses anything (the values are below 2^32). -/
def datetimeFromMillis (millis : Int) : Except Err Timestamp :=
  let seconds := millis.tdiv 1000
  if seconds < 0 then
    let nanos := ((1000 + (millis - seconds * 1000)) * 1000000).natAbs
    match timestampOpt (seconds - 1) nanos with
    | some t => .ok t
    | none => .error .datetimeParse
  else
    let nanos := ((millis - seconds * 1000) * 1000000).natAbs
    match timestampOpt seconds nanos with
    | some t => .ok t
    | none => .error .datetimeParse

/-- lift a pure check into the decoder (`.and_then(f)`) -/
def liftE (e : Except Err α) : Dec α :=
  match e with
  | .ok a => pure a
  | .error e => fail e

instance : Wire Timestamp where
  enc t := FC.timestamp :: be 8 (Int64.ofInt (timestampMillis t)).toUInt64.toNat
  size _ := 8 + 1
  decF fmt :=
    if fmt = FC.timestamp then do
      let n ← readBE 8
      liftE (datetimeFromMillis (UInt64.ofNat n).toInt64.toInt)
    else fail (.invalidFormatCode fmt)

instance : ArrayWire Timestamp where
  arrCtor := FC.timestamp
  arrSize _ := 8
  arrEnc t := be 8 (Int64.ofInt (timestampMillis t)).toUInt64.toNat

/-! ## uuid (encode.rs:275-285, decode.rs:180-188) -/

abbrev Uuid := FixedBytes 16

instance : Wire Uuid where
  enc u := FC.uuid :: u.1
  size _ := 16 + 1
  decF fmt := if fmt = FC.uuid then readFixed 16 else fail (.invalidFormatCode fmt)

instance : ArrayWire Uuid where
  arrCtor := FC.uuid
  arrSize _ := 16
  arrEnc u := u.1

/-! ## binary, string, symbol (encode.rs:287-448, decode.rs:190-240) -/

/-- The common shape of encode.rs:294-304, 325-335, 386-396, 406-416: 8-bit length unless above 255. -/
def encVar (c8 c32 : UInt8) (b : Bytes) : Bytes :=
  if b.length > 255 then c32 :: (be 4 b.length ++ b) else c8 :: (be 1 b.length ++ b)

/-- `encoded_size` of the same (encode.rs:288-292 etc.). -/
def sizeVar (b : Bytes) : Nat := (if b.length > 255 then 5 else 2) + b.length

instance : Wire Bytes where
  enc b := encVar FC.binary8 FC.binary32 b
  size b := sizeVar b
  decF fmt :=
    if fmt = FC.binary8 then readBytesU8
    else if fmt = FC.binary32 then readBytesU32
    else fail (.invalidFormatCode fmt)

instance : ArrayWire Bytes where
  arrCtor := FC.binary32
  arrSize b := 4 + b.length
  arrEnc b := be 4 b.length ++ b

/-- A continuation byte of UTF-8. -/
def isCont (b : UInt8) : Bool := 0x80 ≤ b && b ≤ 0xBF

/-- `core::str::from_utf8(bytes).is_ok()`: Unicode Table 3-7 (well-formed UTF-8 byte sequences). -/
def validUtf8 : Bytes → Bool
  | [] => true
  | b0 :: rest =>
    if b0 ≤ 0x7F then validUtf8 rest
    else match rest with
      | [] => false
      | b1 :: rest1 =>
        if 0xC2 ≤ b0 && b0 ≤ 0xDF then isCont b1 && validUtf8 rest1
        else match rest1 with
          | [] => false
          | b2 :: rest2 =>
            if b0 = 0xE0 then 0xA0 ≤ b1 && b1 ≤ 0xBF && isCont b2 && validUtf8 rest2
            else if 0xE1 ≤ b0 && b0 ≤ 0xEC || 0xEE ≤ b0 && b0 ≤ 0xEF then
              isCont b1 && isCont b2 && validUtf8 rest2
            else if b0 = 0xED then 0x80 ≤ b1 && b1 ≤ 0x9F && isCont b2 && validUtf8 rest2
            else match rest2 with
              | [] => false
              | b3 :: rest3 =>
                if b0 = 0xF0 then 0x90 ≤ b1 && b1 ≤ 0xBF && isCont b2 && isCont b3 && validUtf8 rest3
                else if 0xF1 ≤ b0 && b0 ≤ 0xF3 then isCont b1 && isCont b2 && isCont b3 && validUtf8 rest3
                else if b0 = 0xF4 then 0x80 ≤ b1 && b1 ≤ 0x8F && isCont b2 && isCont b3 && validUtf8 rest3
                else false

/-- `ByteString::try_from(bytes).map_err(|_| AmqpParseError::Utf8Error)` (decode.rs:205 etc.). -/
def checkUtf8 (b : Bytes) : Dec Bytes := if validUtf8 b then pure b else fail .utf8

/-- `ByteString` and `Str` (encode.rs:318-397, decode.rs:200-220). -/
instance : Wire Str where
  enc s := encVar FC.string8 FC.string32 s.bytes
  size s := sizeVar s.bytes
  decF fmt :=
    if fmt = FC.string8 then do return ⟨← checkUtf8 (← readBytesU8)⟩
    else if fmt = FC.string32 then do return ⟨← checkUtf8 (← readBytesU32)⟩
    else fail (.invalidFormatCode fmt)

instance : ArrayWire Str where
  arrCtor := FC.string32
  arrSize s := 4 + s.bytes.length
  arrEnc s := be 4 s.bytes.length ++ s.bytes

/-- `Symbol`, `StaticSymbol` (encode.rs:399-448, decode.rs:222-240). -/
instance : Wire Symbol where
  enc s := encVar FC.symbol8 FC.symbol32 s.bytes
  size s := sizeVar s.bytes
  decF fmt :=
    if fmt = FC.symbol8 then do return ⟨← checkUtf8 (← readBytesU8)⟩
    else if fmt = FC.symbol32 then do return ⟨← checkUtf8 (← readBytesU32)⟩
    else fail (.invalidFormatCode fmt)

instance : ArrayWire Symbol where
  arrCtor := FC.symbol32
  arrSize s := 4 + s.bytes.length
  arrEnc s := be 4 s.bytes.length ++ s.bytes

/-! ## Option, Descriptor, Constructor (encode.rs:771-825, decode.rs:473-514) -/

instance [Wire α] : Wire (Option α) where
  enc o := match o with
    | some e => enc e
    | none => [FC.null]
  size o := match o with
    | some e => size e
    | none => 1
  decF fmt :=
    if fmt = FC.null then pure none
    else do return some (← decF fmt)

/-- Encoding includes the leading 0x00; decoding expects it already consumed (decode.rs:482-498), exactly as in
the code.  Zero-valued descriptors (format code 0x44) are rejected by the decoder. -/
instance : Wire Descriptor where
  enc d := match d with
    | .ulong v => FC.described :: enc v
    | .symbol v => FC.described :: enc v
  size d := match d with
    | .ulong v => 1 + size v
    | .symbol v => 1 + size v
  decF fmt :=
    if fmt = FC.smallulong then do return .ulong (← decF fmt)
    else if fmt = FC.ulong then do return .ulong (← decF fmt)
    else if fmt = FC.symbol8 then do return .symbol (← decF fmt)
    else if fmt = FC.symbol32 then do return .symbol (← decF fmt)
    else fail (.invalidFormatCode fmt)

instance : Wire Constructor where
  enc c := match c with
    | .formatCode c => [c]
    | .described d c => enc d ++ [c]
  size c := match c with
    | .formatCode _ => 1
    | .described d _ => 1 + size d
  decF fmt :=
    if fmt = FC.described then do
      let d ← (dec : Dec Descriptor)
      let c ← readU8
      return .described d c
    else return .formatCode fmt

/-! ## Compound headers (decode.rs:532-609) -/

/-- `decode_compound8` (decode.rs:595-601).  `input[0] - 1` on `u8` panics on 0 when overflow checks are
enabled (debug profile); the model takes that reading (in release it wraps to 255). -/
def compound8 : Dec (Nat × Nat) := ⟨fun s =>
  match s with
  | [] => .error (.incomplete 2)
  | [_] => .error (.incomplete 2)
  | s :: c :: rest => if s = 0 then .error .panic else .ok ((s.toNat - 1, c.toNat), rest)⟩

/-- `decode_compound32` (decode.rs:603-609), with the same reading of `u32 - 4`. -/
def compound32 : Dec (Nat × Nat) := ⟨fun s =>
  if s.length < 8 then .error (.incomplete 8)
  else
    let size := beNat (s.take 4)
    if size < 4 then .error .panic
    else .ok ((size - 4, beNat ((s.drop 4).take 4)), s.drop 8)⟩

/-- `ListHeader` (decode.rs:532-545) as (size, count). -/
def listHeader (fmt : UInt8) : Dec (Nat × Nat) :=
  if fmt = FC.list0 then pure (0, 0)
  else if fmt = FC.list8 then compound8
  else if fmt = FC.list32 then compound32
  else fail (.invalidFormatCode fmt)

/-- `MapHeader` (decode.rs:547-559). -/
def mapHeader (fmt : UInt8) : Dec (Nat × Nat) :=
  if fmt = FC.map8 then compound8
  else if fmt = FC.map32 then compound32
  else fail (.invalidFormatCode fmt)

/-- `ArrayHeader` (decode.rs:561-573). -/
def arrayHeader (fmt : UInt8) : Dec (Nat × Nat) :=
  if fmt = FC.array8 then compound8
  else if fmt = FC.array32 then compound32
  else fail (.invalidFormatCode fmt)

/-- The header written by every compound encoder: 8-bit size/count unless `size + 1 > 255`
(encode.rs:469-477, 522-530, 594-602, 638-647; array.rs:74-82; generated lists in definitions.rs).
`size` excludes the count field and includes the element constructor for arrays. -/
def encHeader (c8 c32 : UInt8) (size count : Nat) : Bytes :=
  if size + 1 > 255 then c32 :: (be 4 (size + 4) ++ be 4 count)
  else c8 :: (be 1 (size + 1) ++ be 1 count)

/-- Length of `encHeader`: the `preamble` of the `encoded_size` functions. -/
def headerSize (size : Nat) : Nat := if size + 1 > 255 then 9 else 3

end Amqp
