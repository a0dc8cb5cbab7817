import Verif.Model.Compound
/-!
# What a decoded value holds

Measures of decoded values, written over the values alone: how much there is in a value (`weight`: one for every node of
the tree and one for every byte of text or binary data), and how deep it is nested (`depth`).  And what the collection
decoders set aside before they have seen any element (`…Reserve`): `Vec::with_capacity` and `HashMap::with_capacity` are
called with the count of the header.
-/

namespace Amqp

/-- bytes of text held by a descriptor -/
def Descriptor.weight : Descriptor → Nat
  | .ulong _ => 0
  | .symbol s => s.bytes.length

/-- bytes of text held by a constructor -/
def Constructor.weight : Constructor → Nat
  | .formatCode _ => 0
  | .described d _ => d.weight

namespace Variant
mutual
/-- Nodes of the tree plus bytes of text and binary data. -/
def weight : Variant → Nat
  | binary v => 1 + v.length
  | string v => 1 + v.bytes.length
  | symbol v => 1 + v.bytes.length
  | list l => 1 + weightList l
  | map m => 1 + weightMap m
  | array _ ctor payload => 1 + ctor.weight + payload.length
  | described d v => 1 + d.weight + weight v
  | describedCompound d data => 1 + d.weight + data.length
  | _ => 1
def weightList : List Variant → Nat
  | [] => 0
  | v :: l => weight v + weightList l
def weightMap : List (Variant × Variant) → Nat
  | [] => 0
  | (k, v) :: m => weight k + weight v + weightMap m
end

mutual
/-- Nesting depth: the number of decoder calls that are active at once when the value is decoded. -/
def depth : Variant → Nat
  | list l => 1 + depthList l
  | map m => 1 + depthMap m
  | described _ v => 1 + depth v
  | _ => 1
def depthList : List Variant → Nat
  | [] => 0
  | v :: l => max (depth v) (depthList l)
def depthMap : List (Variant × Variant) → Nat
  | [] => 0
  | (k, v) :: m => max (max (depth k) (depth v)) (depthMap m)
end
end Variant

/-- How much there is in a value of a type. -/
class Weigh (α : Type) where
  weight : α → Nat

instance : Weigh Variant := ⟨Variant.weight⟩
instance : Weigh Symbol := ⟨fun s => 1 + s.bytes.length⟩
instance : Weigh Str := ⟨fun s => 1 + s.bytes.length⟩
instance [Weigh α] : Weigh (List α) := ⟨fun l => (l.map Weigh.weight).sum⟩
instance [Weigh α] [Weigh β] : Weigh (α × β) := ⟨fun p => Weigh.weight p.1 + Weigh.weight p.2⟩
instance [Weigh κ] [Weigh ν] : Weigh (HMap κ ν) := ⟨fun m => 1 + Weigh.weight m.entries⟩
instance [Weigh κ] : Weigh (VecMap κ) := ⟨fun m => 1 + Weigh.weight m.entries⟩
instance [Weigh α] : Weigh (Arr α) := ⟨fun a => 1 + Weigh.weight a.items⟩
instance [Weigh α] : Weigh (Multiple α) := ⟨fun a => Weigh.weight a.items⟩
instance : Weigh VList := ⟨fun l => 1 + Weigh.weight l.items⟩

/-- `Vec::with_capacity(header.count as usize)` of `List` (decode.rs:340-341): the number of elements set aside, given the
format code and the input. -/
def listReserve (fmt : UInt8) (s : Bytes) : Option Nat :=
  match listHeader fmt s with
  | .ok ((_, count), _) => some count
  | .error _ => none

/-- `with_capacity(count)` of `HashMap`, `VecSymbolMap`, `VecStringMap` (decode.rs:246-251, 286-290, 303-307): after the size
of the header has been compared with the input. -/
def mapReserve (fmt : UInt8) (s : Bytes) : Option Nat :=
  match mapHeader fmt s with
  | .ok ((size, count), r) => if r.length < size then none else some (count / 2)
  | .error _ => none

/-- `Vec::with_capacity(header.count as usize)` of `Vec<T>` (decode.rs:264-274): after the size has been compared with the
input and the element constructor has been read. -/
def arrReserve (fmt : UInt8) (s : Bytes) : Option Nat :=
  match arrayHeader fmt s with
  | .ok ((size, count), r) =>
    if r.length < size then none
    else match (dec : Dec Constructor) r with
      | .ok (.formatCode _, _) => some count
      | _ => none
  | .error _ => none

end Amqp
