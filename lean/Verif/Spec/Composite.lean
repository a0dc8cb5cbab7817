import Verif.Spec.Codec
import Verif.Model.Composite
/-! What AMQP 1.0 says about composite types (described lists). -/

namespace Amqp

/-- The layout of a composite type: its descriptor, its fields in wire order, which of them are mandatory (index and
name), and what a receiver sees when only some fields are present. -/
class Layout (α : Type) where
  descriptorCode : UInt64
  descriptorName : String
  /-- the encoded fields, in order -/
  fieldBytes : α → List Bytes
  /-- index and name of the mandatory fields, in order -/
  mandatory : List (Nat × String)
  /-- `keepFields keep x` is `x` with every non-mandatory field `i` for which `keep i` is false replaced by its
  default (absent, for optional fields) -/
  keepFields : (Nat → Bool) → α → α

/-- The fields as a sender that leaves some of them out may write them: field `i` is written as `null` unless
`keep i`.  (`i` counts from the first argument.) -/
def sentFields (keep : Nat → Bool) : Nat → List Bytes → List Bytes
  | _, [] => []
  | i, f :: fs => (if keep i then f else [0x40]) :: sentFields keep (i + 1) fs

/-- A list header announcing `size` bytes of content and `count` elements, in its 8-bit or 32-bit form. -/
def listHdr8 (size count : Nat) : Bytes := [0xc0, UInt8.ofNat (size + 1), UInt8.ofNat count]
def listHdr32 (size count : Nat) : Bytes := 0xd0 :: (be 4 (size + 4) ++ be 4 count)

/-- `hdr` is a list header for `size` and `count`: the empty list, or the 8-bit or 32-bit form. -/
def ListHdr (hdr : Bytes) (size count : Nat) : Prop :=
  hdr = [0x45] ∧ size = 0 ∧ count = 0 ∨
  hdr = listHdr8 size count ∧ size + 1 < 256 ∧ count < 256 ∨
  hdr = listHdr32 size count ∧ size + 4 < U32 ∧ count < U32

/-- The ways a peer may write a descriptor: numeric, in one byte or in full, or symbolic, in either symbol encoding. -/
inductive DescriptorForm (code : UInt64) (name : String) : Bytes → Prop where
  | small : code ≤ 255 → DescriptorForm code name [0x00, 0x53, code.toUInt8]
  | full : DescriptorForm code name (0x00 :: 0x80 :: be 8 code.toNat)
  | sym8 : DescriptorForm code name (0x00 :: 0xa3 :: UInt8.ofNat (ascii name).length :: ascii name)
  | sym32 : DescriptorForm code name (0x00 :: 0xb3 :: (be 4 (ascii name).length ++ ascii name))

/-- `form` introduces a value of the composite type `α`. -/
def Introduces (α : Type) [Layout α] (form : Bytes) : Prop :=
  DescriptorForm (Layout.descriptorCode α) (Layout.descriptorName α) form

end Amqp
