import Verif.Model.Compound
/-!
# Described lists ("composite types")

The generated code of `codec/src/protocol/definitions.rs` follows one template per composite type; this file is that
template (see e.g. `decode_error_inner`/`encode_error_inner`, definitions.rs:1087-1157), `Structs.lean` its instances.
-/

namespace Amqp
open Dec

/-- The bytes of an ASCII string literal. -/
def ascii (s : String) : Bytes := s.toList.map fun c => UInt8.ofNat c.toNat

/-- `StaticSymbol("...")`. -/
def sym (s : String) : Symbol := ⟨ascii s⟩

/-- Field-by-field decoding: the state is the number of fields still to come (`count` in the generated code). -/
structure FDec (α : Type) where
  run : Nat → Dec (α × Nat)

instance : Monad FDec where
  pure a := ⟨fun n => pure (a, n)⟩
  bind m f := ⟨fun n => m.run n >>= fun an => (f an.1).run an.2⟩

/-- Required field: `if count > 0 { T::decode } else { Err(RequiredFieldOmitted(name)) }`. -/
def req [Wire α] (name : String) : FDec α := ⟨fun n =>
  if n > 0 then do return (← dec, n - 1) else fail (.requiredFieldOmitted name)⟩

/-- Optional field: `if count > 0 { Option::<T>::decode } else { None }`. -/
def opt [Wire α] : FDec (Option α) := ⟨fun n =>
  if n > 0 then do return (← dec, n - 1) else pure (none, n)⟩

/-- Field with default: `if count > 0 { Option::<T>::decode.unwrap_or(d) } else { d }`. -/
def dflt [Wire α] (d : α) : FDec α := ⟨fun n =>
  if n > 0 then do return ((← (dec : Dec (Option α))).getD d, n - 1) else pure (d, n)⟩

/-- One generated composite type. -/
class Composite (α : Type) where
  /-- descriptor code -/
  code : UInt64
  /-- symbolic descriptor -/
  name : Symbol
  /-- every field in order: its encoding and its `encoded_size` -/
  fields : α → List (Bytes × Nat)
  /-- `decode_*_inner`, the part after the list header -/
  decFields : FDec α

/-- a field for `Composite.fields` -/
def fld [Wire α] (a : α) : Bytes × Nat := (enc a, size a)

namespace Composite
variable [Composite α]

/-- `content_size` -/
def contentSize (a : α) : Nat := ((fields a).map (·.2)).sum

def content (a : α) : Bytes := (fields a).flatMap (·.1)

/-- `encode_*_inner`: `Descriptor::Ulong(code)`, list header with `FIELD_COUNT`, all fields. -/
def encode (a : α) : Bytes :=
  enc (Descriptor.ulong (code α)) ++ (encHeader FC.list8 FC.list32 (contentSize a) (fields a).length ++ content a)

/-- `encoded_size_*_inner`: the header constants 12 and 6 are those of the generated code. -/
def encodedSize (a : α) : Nat := (if contentSize a + 1 > 255 then 12 else 6) + contentSize a

/-- `decode_*_inner`: format code, list header, the fields from exactly `size` bytes; surplus is dropped. -/
def decInner : Dec α := do
  let fmt ← readU8
  let (size, count) ← listHeader fmt
  limit size (do return (← (decFields : FDec α).run count).1)

/-- `Descriptor::Ulong(code)` or the symbolic name. -/
def isMine (α : Type) [Composite α] (d : Descriptor) : Bool :=
  d == .ulong (code α) || d == .symbol (name α)

/-- `impl DecodeFormatted for X` (e.g. definitions.rs:1158-1172). -/
def decodeF (fmt : UInt8) : Dec α :=
  if fmt = FC.described then do
    let d ← (dec : Dec Descriptor)
    if isMine α d then decInner else fail (.invalidDescriptor d)
  else fail (.invalidFormatCode fmt)

/-- The `Encode`/`DecodeFormatted` impls of a composite type. -/
@[reducible] def wire (α : Type) [Composite α] : Wire α where
  enc := encode
  size := encodedSize
  decF := decodeF

end Composite

end Amqp
