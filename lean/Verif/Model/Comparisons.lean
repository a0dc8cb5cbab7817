import Verif.Model.Values
/-!
# Comparisons offered to the application
-/

namespace Amqp

/-- `PartialEq<str> for Variant` (codec/src/types/variant.rs:189-197), with `PartialEq<str>` of `Str` (types/mod.rs:215-219) and
`Symbol` (symbol.rs:72-76).  Text is compared byte by byte, as `ByteString` does. -/
def Variant.eqText (v : Variant) (t : Bytes) : Bool :=
  match v with
  | .string s => s.bytes == t
  | .symbol s => s.bytes == t
  | _ => false

/-- `Constructor::descriptor` (types/mod.rs:38-43). -/
def Constructor.descriptor : Constructor → Option Descriptor
  | .formatCode _ => none
  | .described d _ => some d

/-- `Constructor::ensure_described` (types/mod.rs:45-53). -/
def Constructor.ensureDescribed (c : Constructor) (want : Descriptor) : Except Err Unit :=
  match c with
  | .described d _ => if d = want then .ok () else .error (.invalidDescriptor d)
  | .formatCode f => .error (.invalidFormatCode f)

end Amqp
