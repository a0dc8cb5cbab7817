import Verif.Model.Variant
/-!
# Typed compound values

Models the generic collections of `codec/src/codec/encode.rs:450-692` and `codec/src/codec/decode.rs:242-369`:
`HashMap<K, V>`, `VecSymbolMap`, `VecStringMap`, `Vec<T>`, `Multiple<T>` and `List`.
-/

namespace Amqp
open Dec

/-- `Eq + Hash` of the key types of `HashMap`. -/
class Key (κ : Type) where
  /-- hashing the key does not panic -/
  hashOk : κ → Bool
  keq : κ → κ → Bool

export Key (hashOk keq)

instance : Key Symbol := ⟨fun _ => true, fun a b => a == b⟩
instance : Key Str := ⟨fun _ => true, fun a b => a == b⟩
instance : Key Variant := ⟨Variant.hashable, Variant.keyEq⟩

/-- `collections::HashMap<K, V>`: its entries in iteration order.  The iteration order of a Rust hash map is
unspecified; every statement quantifies over all lists, hence over all orders. -/
structure HMap (κ ν : Type) where
  entries : List (κ × ν)

/-- The entries of a map, key then value (encode.rs:479-482). -/
def encEntries [Wire κ] [Wire ν] (m : List (κ × ν)) : Bytes := m.flatMap fun e => enc e.1 ++ enc e.2

/-- `map_encoded_size` (encode.rs:450-455). -/
def sizeEntries [Wire κ] [Wire ν] (m : List (κ × ν)) : Nat := (m.map fun e => size e.1 + size e.2).sum

/-- `HashMap<K, V>` (encode.rs:457-483, decode.rs:242-260). -/
instance [Wire κ] [Wire ν] [Key κ] : Wire (HMap κ ν) where
  enc m := encHeader FC.map8 FC.map32 (sizeEntries m.entries) (m.entries.length * 2) ++ encEntries m.entries
  size m := headerSize (sizeEntries m.entries) + sizeEntries m.entries
  decF fmt := do
    let (size, count) ← mapHeader fmt
    return ⟨← limit size (mapLoop hashOk keq dec dec (count / 2) [])⟩

/-- `VecSymbolMap` (`κ = Symbol`) and `VecStringMap` (`κ = Str`): pairs in order (types/mod.rs). -/
structure VecMap (κ : Type) where
  entries : List (κ × Variant)

/-- encode.rs:503-573, decode.rs:284-316: pairs are pushed without looking for duplicates. -/
instance [Wire κ] : Wire (VecMap κ) where
  enc m := encHeader FC.map8 FC.map32 (sizeEntries m.entries) (m.entries.length * 2) ++ encEntries m.entries
  size m := headerSize (sizeEntries m.entries) + sizeEntries m.entries
  decF fmt := do
    let (size, count) ← mapHeader fmt
    return ⟨← limit size (repeatDec (count / 2) (do
      let k ← dec
      let v ← dec
      return (k, v)))⟩

abbrev VecSymbolMap := VecMap Symbol
abbrev VecStringMap := VecMap Str

/-- `Vec<T>` as an AMQP array. -/
structure Arr (α : Type) where
  items : List α
deriving DecidableEq

/-- `array_encoded_size` (encode.rs:575-577). -/
def arrContentSize [ArrayWire α] (l : List α) : Nat := (l.map arrSize).sum

/-- `Vec<T>` (encode.rs:579-608, decode.rs:262-282).  The decoder checks that `size` bytes are available but then
reads from the whole input; a described element constructor is rejected. -/
instance [Wire α] [ArrayWire α] : Wire (Arr α) where
  enc a := encHeader FC.array8 FC.array32 (arrContentSize a.items + 1) a.items.length ++
    (arrCtor α :: a.items.flatMap arrEnc)
  size a := headerSize (arrContentSize a.items + 1) + 1 + arrContentSize a.items
  decF fmt := do
    let (size, count) ← arrayHeader fmt
    (⟨fun s => if s.length < size then .error (.incomplete size) else .ok ((), s)⟩ : Dec Unit)
    let ctor ← (dec : Dec Constructor)
    match ctor with
    | .formatCode c => return ⟨← repeatDec count (decF c)⟩
    | .described d _ => fail (.invalidDescriptor d)

/-- `Multiple<T>` (codec/src/types/mod.rs:56-). -/
structure Multiple (α : Type) where
  items : List α
deriving DecidableEq

/-- encode.rs:610-626: a single item is written bare, any other number as an array.
decode.rs:318-336. -/
instance [Wire α] [ArrayWire α] : Wire (Multiple α) where
  enc m := match m.items with
    | [a] => enc a
    | l => enc (Arr.mk l)
  size m := match m.items with
    | [a] => size a
    | l => size (Arr.mk l)
  decF fmt :=
    if fmt = FC.array8 ∨ fmt = FC.array32 then do
      let a ← (decF fmt : Dec (Arr α))
      return ⟨a.items⟩
    else if fmt = FC.described then do
      let d ← (decF fmt : Dec Descriptor)
      fail (.invalidDescriptor d)
    else do return ⟨[← decF fmt]⟩

/-- `List` (codec/src/types/mod.rs): a sequence of variants. -/
structure VList where
  items : List Variant

/-- encode.rs:628-654, decode.rs:338-348.  The decoder ignores the size in the header. -/
instance : Wire VList where
  enc l := encHeader FC.list8 FC.list32 (l.items.map size).sum l.items.length ++ l.items.flatMap enc
  size l := headerSize (l.items.map size).sum + (l.items.map size).sum
  decF fmt := do
    let (_, count) ← listHeader fmt
    return ⟨← repeatDec count dec⟩

end Amqp
