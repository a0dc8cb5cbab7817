import Verif.Model.Values
/-!
# Lists of described items

`ListDescribed<T>` for a type `T` of the application that implements the trait `Composite` (codec/src/codec/mod.rs:38-40): a
descriptor, and an encoding of the value without it.
-/

namespace Amqp
open Dec

/-- `Composite::descriptor` (codec/mod.rs:38-40). -/
class Described (α : Type) where
  descriptor : Descriptor

/-- `ListDescribed` (types/mod.rs:117-118). -/
structure DList (α : Type) where
  items : List α

/-- The sum of encode.rs:659-661 and 674-676. -/
def DList.content (α : Type) [Wire α] [Described α] (l : List α) : Nat :=
  (l.map fun i => size i + size (Described.descriptor α)).sum

/-- One round of the loop of decode.rs:357-364. -/
def DList.item (α : Type) [Wire α] [Described α] : Dec α := do
  match ← (dec : Dec Variant) with
  | .describedCompound d data =>
    if Described.descriptor α ≠ d then fail (.unexpectedType "Unexpected descriptor")
    else
      match describedAs α data with
      | .ok a => return a
      | .error e => fail e
  | _ => fail (.unexpectedType "Expected compound type")

/-- encode.rs:656-692, decode.rs:350-369.  The decoder ignores the size in the header. -/
instance [Wire α] [Described α] : Wire (DList α) where
  enc l := encHeader FC.list8 FC.list32 (DList.content α l.items) l.items.length ++
    l.items.flatMap fun i => enc (Described.descriptor α) ++ enc i
  size l := headerSize (DList.content α l.items) + DList.content α l.items
  decF fmt := do
    let (_, count) ← listHeader fmt
    return ⟨← repeatDec count (DList.item α)⟩

end Amqp
