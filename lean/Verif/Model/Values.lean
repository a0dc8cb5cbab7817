import Verif.Model.Compound
/-!
# Making and reading values

The functions with which an application puts its own data into a `Variant` and gets it out again: `Array`
(codec/src/types/array.rs), `DescribedCompound` and the accessors of `Variant` (codec/src/types/variant.rs).
-/

namespace Amqp
open Dec

/-- `Array::new`, `From<Vec<T>>` (array.rs:15-32, 55-57).  The counter is a `u32`; that it overflows is left out. -/
def Variant.ofVec [ArrayWire α] (l : List α) : Variant :=
  .array (UInt32.ofNat l.length) (.formatCode (arrCtor α)) (l.flatMap arrEnc)

/-- `Constructor::format_code` (types/mod.rs:31-36). -/
def Constructor.code : Constructor → UInt8
  | .formatCode c => c
  | .described _ c => c

/-- `Array::decode` (array.rs:40-48): as many items as the array says it has; what is left of the payload is not looked at. -/
def arrayItems (α : Type) [Wire α] (count : UInt32) (ctor : Constructor) (payload : Bytes) : Except Err (List α) :=
  match repeatDec count.toNat (decF ctor.code : Dec α) payload with
  | .ok (l, _) => .ok l
  | .error e => .error e

/-- `DescribedCompound::create` (variant.rs:115-123). -/
def Variant.describe [Wire α] (d : Descriptor) (a : α) : Variant := .describedCompound d (enc a)

/-- `DescribedCompound::decode` (variant.rs:143-151). -/
def describedAs (α : Type) [Wire α] (data : Bytes) : Except Err α :=
  match (dec : Dec α) data with
  | .ok (a, []) => .ok a
  | .ok _ => .error .invalidSize
  | .error e => .error e

namespace Variant

/-- `as_str`, `to_bytes_str` (variant.rs:200-206, 234-240): the bytes of the text. -/
def asText : Variant → Option Bytes
  | .string s => some s.bytes
  | .symbol s => some s.bytes
  | _ => none

/-- `as_long` (variant.rs:210-221). -/
def asLong : Variant → Option Int64
  | .ubyte v => some v.toUInt64.toInt64
  | .ushort v => some v.toUInt64.toInt64
  | .uint v => some v.toUInt64.toInt64
  | .byte v => some v.toInt64
  | .short v => some v.toInt64
  | .int v => some v.toInt64
  | .long v => some v
  | _ => none

/-- `as_ulong` (variant.rs:224-232). -/
def asUlong : Variant → Option UInt64
  | .ubyte v => some v.toUInt64
  | .ushort v => some v.toUInt64
  | .uint v => some v.toUInt64
  | .ulong v => some v
  | _ => none

end Variant
end Amqp
