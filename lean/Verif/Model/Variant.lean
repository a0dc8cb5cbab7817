import Verif.Model.Prim
/-!
# The AMQP value tree

Models `Variant`, `VariantMap`, `List`, `Array`, `DescribedCompound`
(`codec/src/types/variant.rs:11-163,243-259`, `codec/src/types/array.rs`), their encoders
(`codec/src/codec/encode.rs:450-483,628-654,694-769`) and decoders (`codec/src/codec/decode.rs:242-260,338-348,371-471`).
-/

namespace Amqp
open Dec

/-- `Variant` (variant.rs:12-94).  A map is the list of its entries in iteration order.  An `Array` is kept, as in
array.rs:8-12, as (element count, constructor, raw payload). -/
inductive Variant where
  | null
  | boolean (b : Bool)
  | ubyte (v : UInt8)
  | ushort (v : UInt16)
  | uint (v : UInt32)
  | ulong (v : UInt64)
  | byte (v : Int8)
  | short (v : Int16)
  | int (v : Int32)
  | long (v : Int64)
  | float (v : F32)
  | double (v : F64)
  | decimal32 (v : FixedBytes 4)
  | decimal64 (v : FixedBytes 8)
  | decimal128 (v : FixedBytes 16)
  | char (v : Char)
  | timestamp (v : Timestamp)
  | uuid (v : Uuid)
  | binary (v : Bytes)
  | string (v : Str)
  | symbol (v : Symbol)
  | list (l : List Variant)
  | map (m : List (Variant × Variant))
  | array (count : UInt32) (ctor : Constructor) (payload : Bytes)
  | described (d : Descriptor) (v : Variant)
  | describedCompound (d : Descriptor) (data : Bytes)

namespace Variant

mutual
/-- `Encode::encoded_size` for `Variant` (encode.rs:695-724), `List` (629-636), `HashMap` (450-464),
`Array` (array.rs:61-70), `DescribedCompound` (variant.rs:155-157). -/
def vsize : Variant → Nat
  | null => 1
  | boolean b => size b
  | ubyte v => size v
  | ushort v => size v
  | uint v => size v
  | ulong v => size v
  | byte v => size v
  | short v => size v
  | int v => size v
  | long v => size v
  | float v => size v
  | double v => size v
  | decimal32 _ => 1 + 4
  | decimal64 _ => 1 + 8
  | decimal128 _ => 1 + 16
  | char v => size v
  | timestamp v => size v
  | uuid v => size v
  | binary v => size v
  | string v => size v
  | symbol v => size v
  | list l => headerSize (listSize l) + listSize l
  | map m => headerSize (mapSize m) + mapSize m
  | array _ ctor payload =>
    headerSize (size ctor + payload.length) + size ctor + payload.length
  | described d v => size d + vsize v
  | describedCompound d data => size d + data.length

/-- `self.iter().fold(0, |r, i| r + i.encoded_size())` (encode.rs:630). -/
def listSize : List Variant → Nat
  | [] => 0
  | v :: l => vsize v + listSize l

/-- `map_encoded_size` (encode.rs:450-455). -/
def mapSize : List (Variant × Variant) → Nat
  | [] => 0
  | (k, v) :: m => vsize k + vsize v + mapSize m
end

mutual
/-- `Encode::encode` for `Variant` (encode.rs:727-768), `List` (638-653), `HashMap` (466-482), `Array` (array.rs:72-85),
`DescribedCompound` (variant.rs:159-162).  Sizes in headers come from `encoded_size`, as in the code. -/
def venc : Variant → Bytes
  | null => [FC.null]
  | boolean b => enc b
  | ubyte v => enc v
  | ushort v => enc v
  | uint v => enc v
  | ulong v => enc v
  | byte v => enc v
  | short v => enc v
  | int v => enc v
  | long v => enc v
  | float v => enc v
  | double v => enc v
  | decimal32 v => FC.decimal32 :: v.1
  | decimal64 v => FC.decimal64 :: v.1
  | decimal128 v => FC.decimal128 :: v.1
  | char v => enc v
  | timestamp v => enc v
  | uuid v => enc v
  | binary v => enc v
  | string v => enc v
  | symbol v => enc v
  | list l => encHeader FC.list8 FC.list32 (listSize l) l.length ++ listEnc l
  | map m => encHeader FC.map8 FC.map32 (mapSize m) (m.length * 2) ++ mapEnc m
  | array count ctor payload =>
    encHeader FC.array8 FC.array32 (size ctor + payload.length) count.toNat ++ enc ctor ++ payload
  | described d v => enc d ++ venc v
  | describedCompound d data => enc d ++ data

def listEnc : List Variant → Bytes
  | [] => []
  | v :: l => venc v ++ listEnc l

def mapEnc : List (Variant × Variant) → Bytes
  | [] => []
  | (k, v) :: m => venc k ++ venc v ++ mapEnc m
end

mutual
/-- Whether hashing the value returns: `VariantMap::hash` is `unimplemented!()` (variant.rs:254-259) and the derived
`Hash` of `Variant` visits every component. -/
def hashable : Variant → Bool
  | list l => hashableList l
  | map _ => false
  | described _ v => hashable v
  | _ => true

def hashableList : List Variant → Bool
  | [] => true
  | v :: l => hashable v && hashableList l
end

/-- Equality of `OrderedFloat<f32>`: all NaNs are equal, `-0.0 = 0.0`. -/
def f32Eq (a b : F32) : Bool :=
  let nan (x : F32) := (x.bits &&& 0x7fffffff) > 0x7f800000
  let zero (x : F32) := (x.bits &&& 0x7fffffff) == 0
  a.bits == b.bits || (nan a && nan b) || (zero a && zero b)

/-- Equality of `OrderedFloat<f64>`. -/
def f64Eq (a b : F64) : Bool :=
  let nan (x : F64) := (x.bits &&& 0x7fffffffffffffff) > 0x7ff0000000000000
  let zero (x : F64) := (x.bits &&& 0x7fffffffffffffff) == 0
  a.bits == b.bits || (nan a && nan b) || (zero a && zero b)

mutual
/-- The derived `PartialEq` of `Variant` (variant.rs:11), on values that can be hash-map keys.  Maps cannot be keys
(hashing them panics first), so two maps are simply never equal here. -/
def keyEq : Variant → Variant → Bool
  | null, null => true
  | boolean a, boolean b => a == b
  | ubyte a, ubyte b => a == b
  | ushort a, ushort b => a == b
  | uint a, uint b => a == b
  | ulong a, ulong b => a == b
  | byte a, byte b => a == b
  | short a, short b => a == b
  | int a, int b => a == b
  | long a, long b => a == b
  | float a, float b => f32Eq a b
  | double a, double b => f64Eq a b
  | decimal32 a, decimal32 b => a == b
  | decimal64 a, decimal64 b => a == b
  | decimal128 a, decimal128 b => a == b
  | char a, char b => a == b
  | timestamp a, timestamp b => a == b
  | uuid a, uuid b => a == b
  | binary a, binary b => a == b
  | string a, string b => a == b
  | symbol a, symbol b => a == b
  | list a, list b => keyEqList a b
  | array c k p, array c' k' p' => c == c' && k == k' && p == p'
  | described d v, described d' v' => d == d' && keyEq v v'
  | describedCompound d p, describedCompound d' p' => d == d' && p == p'
  | _, _ => false

def keyEqList : List Variant → List Variant → Bool
  | [], [] => true
  | a :: l, b :: l' => keyEq a b && keyEqList l l'
  | _, _ => false
end

end Variant

/-- `HashMap::insert`: a present key keeps its entry and gets the new value, a fresh key is added.
(The iteration order after insertion is unspecified in Rust; the model appends.) -/
def mapInsert (eq : κ → κ → Bool) (m : List (κ × ν)) (k : κ) (v : ν) : List (κ × ν) :=
  if m.any (fun e => eq e.1 k) then m.map (fun e => if eq e.1 k then (e.1, v) else e)
  else m ++ [(k, v)]

/-- The loop of decode.rs:252-256; inserting a key whose hash panics is a panic. -/
def mapLoop (hashOk : κ → Bool) (eq : κ → κ → Bool) (dk : Dec κ) (dv : Dec ν) :
    Nat → List (κ × ν) → Dec (List (κ × ν))
  | 0, m => pure m
  | n + 1, m => do
    let k ← dk
    let v ← dv
    if hashOk k then mapLoop hashOk eq dk dv n (mapInsert eq m k v) else fail .panic

/-- `Array::decode_with_format` (array.rs:88-102). -/
def decArray (fmt : UInt8) : Dec Variant := do
  let (size, count) ← arrayHeader fmt
  let sub ← splitTo size
  match (dec : Dec Constructor) sub with
  | .ok (ctor, payload) => pure (.array (UInt32.ofNat count) ctor payload)
  | .error e => fail e

/-- The compound branches of the described case (decode.rs:428-460): the raw bytes, starting with the (peeked)
format code, become the payload.  `none` when the code is not a compound one; then only the code is consumed. -/
def decCompoundRaw : Dec (UInt8 × Option Bytes) := ⟨fun s =>
  match s with
  | [] => .error (.incomplete 1)
  | c :: rest =>
    if c = FC.list0 then .ok ((c, some [FC.list0]), rest)
    else if c = FC.list8 ∨ c = FC.map8 ∨ c = FC.array8 then
      match rest with
      | [] => .error (.incomplete 2)
      | sz :: _ =>
        if s.length < 2 + sz.toNat then .error (.incomplete (2 + sz.toNat))
        else .ok ((c, some (s.take (2 + sz.toNat))), s.drop (2 + sz.toNat))
    else if c = FC.list32 ∨ c = FC.map32 ∨ c = FC.array32 then
      if s.length < 5 then .error (.incomplete 5)
      else
        let sz := beNat (rest.take 4)
        if s.length < 5 + sz then .error (.incomplete (5 + sz))
        else .ok ((c, some (s.take (5 + sz))), s.drop (5 + sz))
    else .ok ((c, none), rest)⟩

/-- `Variant::decode_with_format` (decode.rs:371-471).  The first argument is recursion fuel (the Rust recursion is
bounded only by the stack); `decVariant` supplies more than enough. -/
def decVarF : Nat → UInt8 → Dec Variant
  | 0, _ => fail .fuel
  | n + 1, fmt =>
    if fmt = FC.null then pure .null
    else if fmt = FC.boolean then do return .boolean (← decF fmt)
    else if fmt = FC.false_ then pure (.boolean false)
    else if fmt = FC.true_ then pure (.boolean true)
    else if fmt = FC.uint0 then pure (.uint 0)
    else if fmt = FC.ulong0 then pure (.ulong 0)
    else if fmt = FC.ubyte then do return .ubyte (← decF fmt)
    else if fmt = FC.ushort then do return .ushort (← decF fmt)
    else if fmt = FC.uint then do return .uint (← decF fmt)
    else if fmt = FC.ulong then do return .ulong (← decF fmt)
    else if fmt = FC.byte then do return .byte (← decF fmt)
    else if fmt = FC.short then do return .short (← decF fmt)
    else if fmt = FC.int then do return .int (← decF fmt)
    else if fmt = FC.long then do return .long (← decF fmt)
    else if fmt = FC.smalluint then do return .uint (← decF fmt)
    else if fmt = FC.smallulong then do return .ulong (← decF fmt)
    else if fmt = FC.smallint then do return .int (← decF fmt)
    else if fmt = FC.smalllong then do return .long (← decF fmt)
    else if fmt = FC.float then do return .float (← decF fmt)
    else if fmt = FC.double then do return .double (← decF fmt)
    else if fmt = FC.decimal32 then do return .decimal32 (← readFixed 4)
    else if fmt = FC.decimal64 then do return .decimal64 (← readFixed 8)
    else if fmt = FC.decimal128 then do return .decimal128 (← readFixed 16)
    else if fmt = FC.char then do return .char (← decF fmt)
    else if fmt = FC.timestamp then do return .timestamp (← decF fmt)
    else if fmt = FC.uuid then do return .uuid (← decF fmt)
    else if fmt = FC.binary8 ∨ fmt = FC.binary32 then do return .binary (← decF fmt)
    else if fmt = FC.string8 ∨ fmt = FC.string32 then do return .string (← decF fmt)
    else if fmt = FC.symbol8 ∨ fmt = FC.symbol32 then do return .symbol (← decF fmt)
    else if fmt = FC.list0 then pure (.list [])
    else if fmt = FC.list8 ∨ fmt = FC.list32 then do
      let (_, count) ← listHeader fmt
      return .list (← repeatDec count (do let c ← readU8; decVarF n c))
    else if fmt = FC.array8 ∨ fmt = FC.array32 then decArray fmt
    else if fmt = FC.map8 ∨ fmt = FC.map32 then do
      let (size, count) ← mapHeader fmt
      return .map (← limit size
        (mapLoop Variant.hashable Variant.keyEq (do let c ← readU8; decVarF n c) (do let c ← readU8; decVarF n c)
          (count / 2) []))
    else if fmt = FC.described then do
      let d ← (dec : Dec Descriptor)
      let (c, raw) ← decCompoundRaw
      match raw with
      | some data => return .describedCompound d data
      | none => return .described d (← decVarF n c)
    else fail (.invalidFormatCode fmt)

/-- `Variant::decode_with_format` with fuel to spare: every recursive call has consumed at least one byte. -/
def decVariantF (fmt : UInt8) : Dec Variant := ⟨fun s => decVarF (s.length + 2) fmt s⟩

instance : Wire Variant where
  enc := Variant.venc
  size := Variant.vsize
  decF := decVariantF

end Amqp
