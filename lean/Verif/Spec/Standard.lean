import Verif.Model.Variant
/-!
# The encodings defined by AMQP 1.0

The primitive encodings of the AMQP 1.0 specification (part 1, section 1.6), written down without reference to the
encoder or decoder: which bytes after which constructor denote which value.  Floating point values are their IEEE bit
patterns, decimals and uuids their bytes.
-/

namespace Amqp.Standard

/-- An unsigned integer in network byte order. -/
def unsigned (w : Bytes) : Nat := w.foldl (fun n b => n * 256 + b.toNat) 0

/-- A two's complement integer in network byte order. -/
def signed (w : Bytes) : Int :=
  if unsigned w < 2 ^ (8 * w.length - 1) then unsigned w else unsigned w - 2 ^ (8 * w.length)

/-- UTF-8 of a sequence of Unicode characters. -/
def utf8 (cs : List Char) : Bytes := cs.flatMap String.utf8EncodeChar

/-- Data of variable width: its length in `k` bytes, then the data. -/
def varWidth (k : Nat) (w data : Bytes) : Prop :=
  ∃ len, w = len ++ data ∧ len.length = k ∧ unsigned len = data.length

/-- `form c w v`: the data `w` after the constructor `c` denotes `v`. -/
class Form (α : Type) where
  form : UInt8 → Bytes → α → Prop

export Form (form)

instance : Form Bool where
  form c w v :=
    (c = 0x41 ∧ w = [] ∧ v = true) ∨ (c = 0x42 ∧ w = [] ∧ v = false) ∨
    (c = 0x56 ∧ w = [0x01] ∧ v = true) ∨ (c = 0x56 ∧ w = [0x00] ∧ v = false)

instance : Form UInt8 where form c w v := c = 0x50 ∧ w.length = 1 ∧ v.toNat = unsigned w
instance : Form UInt16 where form c w v := c = 0x60 ∧ w.length = 2 ∧ v.toNat = unsigned w

instance : Form UInt32 where
  form c w v :=
    (c = 0x70 ∧ w.length = 4 ∧ v.toNat = unsigned w) ∨ (c = 0x52 ∧ w.length = 1 ∧ v.toNat = unsigned w) ∨
    (c = 0x43 ∧ w = [] ∧ v = 0)

instance : Form UInt64 where
  form c w v :=
    (c = 0x80 ∧ w.length = 8 ∧ v.toNat = unsigned w) ∨ (c = 0x53 ∧ w.length = 1 ∧ v.toNat = unsigned w) ∨
    (c = 0x44 ∧ w = [] ∧ v = 0)

instance : Form Int8 where form c w v := c = 0x51 ∧ w.length = 1 ∧ v.toInt = signed w
instance : Form Int16 where form c w v := c = 0x61 ∧ w.length = 2 ∧ v.toInt = signed w

instance : Form Int32 where
  form c w v := (c = 0x71 ∧ w.length = 4 ∧ v.toInt = signed w) ∨ (c = 0x54 ∧ w.length = 1 ∧ v.toInt = signed w)

instance : Form Int64 where
  form c w v := (c = 0x81 ∧ w.length = 8 ∧ v.toInt = signed w) ∨ (c = 0x55 ∧ w.length = 1 ∧ v.toInt = signed w)

instance : Form F32 where form c w v := c = 0x72 ∧ w.length = 4 ∧ v.bits.toNat = unsigned w
instance : Form F64 where form c w v := c = 0x82 ∧ w.length = 8 ∧ v.bits.toNat = unsigned w
instance : Form Char where form c w v := c = 0x73 ∧ w.length = 4 ∧ v.toNat = unsigned w
instance : Form Uuid where form c w v := c = 0x98 ∧ w = v.1

/-- Milliseconds since the Unix epoch, as a signed 64-bit integer.  Only dates the Rust type can hold. -/
instance : Form Timestamp where
  form c w v := c = 0x83 ∧ w.length = 8 ∧ v.nanos < 1000000000 ∧ v.nanos % 1000000 = 0 ∧
    minSecs ≤ v.secs ∧ v.secs ≤ maxSecs ∧ v.secs * 1000 + (v.nanos / 1000000 : Nat) = signed w

instance : Form Bytes where form c w v := (c = 0xa0 ∧ varWidth 1 w v) ∨ (c = 0xb0 ∧ varWidth 4 w v)

instance : Form Str where
  form c w v := ((c = 0xa1 ∧ varWidth 1 w v.bytes) ∨ (c = 0xb1 ∧ varWidth 4 w v.bytes)) ∧ ∃ cs, v.bytes = utf8 cs

/-- Symbols are ASCII. -/
instance : Form Symbol where
  form c w v := ((c = 0xa3 ∧ varWidth 1 w v.bytes) ∨ (c = 0xb3 ∧ varWidth 4 w v.bytes)) ∧ ∀ b ∈ v.bytes, b < 128

/-- Descriptors this library represents: an unsigned long in its one-byte or eight-byte form, or a symbol. -/
instance : Form Descriptor where
  form c w d := match d with
    | .ulong v => form c w v ∧ c ≠ 0x44
    | .symbol s => form c w s

/-- Every encoding of a value of the type is decoded to that value, whatever follows it. -/
def Reads (α : Type) [Wire α] [Form α] : Prop :=
  ∀ (c : UInt8) (w : Bytes) (v : α), form c w v → ∀ rest, (dec : Dec α) (c :: w ++ rest) = .ok (v, rest)

/-- Nothing else is decoded. -/
def OnlyReads (α : Type) [Wire α] [Form α] : Prop :=
  ∀ (s : Bytes) (v : α) (r : Bytes), (dec : Dec α) s = .ok (v, r) → ∃ c w, form c w v ∧ s = c :: w ++ r

/-- The size and count fields of a list, map or array, both in `k` bytes, and what they enclose: the size counts the
count field too. -/
def compound (k count : Nat) (w body : Bytes) : Prop :=
  ∃ sz cnt, w = sz ++ cnt ++ body ∧ sz.length = k ∧ cnt.length = k ∧ unsigned sz = k + body.length ∧
    unsigned cnt = count

/-- The one-byte and four-byte forms of a compound. -/
def compounds (c8 c32 : UInt8) (count : Nat) (c : UInt8) (w body : Bytes) : Prop :=
  (c = c8 ∧ compound 1 count w body) ∨ (c = c32 ∧ compound 4 count w body)

/-- The encodings of a scalar, as an element of a value tree. -/
def scalar (c : UInt8) (w : Bytes) : Variant → Prop
  | .null => c = 0x40 ∧ w = []
  | .boolean v => form c w v
  | .ubyte v => form c w v
  | .ushort v => form c w v
  | .uint v => form c w v
  | .ulong v => form c w v
  | .byte v => form c w v
  | .short v => form c w v
  | .int v => form c w v
  | .long v => form c w v
  | .float v => form c w v
  | .double v => form c w v
  | .decimal32 v => c = 0x74 ∧ w = v.1
  | .decimal64 v => c = 0x84 ∧ w = v.1
  | .decimal128 v => c = 0x94 ∧ w = v.1
  | .char v => form c w v
  | .timestamp v => form c w v ∧ (0 ≤ v.secs ∨ v.secs ≤ -2 ∧ v.nanos ≠ 0)
  | .uuid v => form c w v
  | .binary v => form c w v
  | .string v => form c w v
  | .symbol v => form c w v
  | _ => False

mutual
/-- `Tree c w v`: the data `w` after the constructor `c` denotes the value tree `v`.

Arrays and described compounds are kept unparsed by this library, so their contents are bytes here too.  Timestamps are
those from the epoch on, and before it those more than a second away and not on a whole second; the keys of a map are
distinct and contain no map. -/
inductive Tree : UInt8 → Bytes → Variant → Prop
  | scalar {c w v} : scalar c w v → Tree c w v
  | list0 : Tree 0x45 [] (.list [])
  | list {c w body l} : compounds 0xc0 0xd0 l.length c w body → Trees body l → Tree c w (.list l)
  | map {c w body m} : compounds 0xc1 0xd1 (2 * m.length) c w body → Pairs body m →
      m.Pairwise (fun a b => Variant.keyEq a.1 b.1 = false) → Tree c w (.map m)
  | array {c w e payload} {count : UInt32} : e ≠ 0 → compounds 0xe0 0xf0 count.toNat c w (e :: payload) →
      Tree c w (.array count (.formatCode e) payload)
  | describedArray {c w dc dw d e payload} {count : UInt32} : form dc dw (d : Descriptor) →
      compounds 0xe0 0xf0 count.toNat c w (0 :: dc :: dw ++ e :: payload) →
      Tree c w (.array count (.described d e) payload)
  | described {dc dw d c w v} : form dc dw (d : Descriptor) → Tree c w v →
      (∀ l, v ≠ .list l) → (∀ m, v ≠ .map m) → (∀ n k p, v ≠ .array n k p) →
      Tree 0 (dc :: dw ++ c :: w) (.described d v)
  | describedList0 {dc dw d} : form dc dw (d : Descriptor) →
      Tree 0 (dc :: dw ++ [0x45]) (.describedCompound d [0x45])
  | describedCompound {dc dw d c w body n} : form dc dw (d : Descriptor) →
      (compounds 0xc0 0xd0 n c w body ∨ compounds 0xc1 0xd1 n c w body ∨ compounds 0xe0 0xf0 n c w body) →
      Tree 0 (dc :: dw ++ c :: w) (.describedCompound d (c :: w))

/-- One value after the other. -/
inductive Trees : Bytes → List Variant → Prop
  | nil : Trees [] []
  | cons {c w v rest l} : Tree c w v → Trees rest l → Trees (c :: w ++ rest) (v :: l)

/-- Keys and values alternating. -/
inductive Pairs : Bytes → List (Variant × Variant) → Prop
  | nil : Pairs [] []
  | cons {c w k c' w' v rest m} : Tree c w k → k.hashable = true → Tree c' w' v → Pairs rest m →
      Pairs (c :: w ++ (c' :: w' ++ rest)) ((k, v) :: m)
end

/-- The symbols in a descriptor are ASCII. -/
def descriptorAscii : Descriptor → Prop
  | .ulong _ => True
  | .symbol s => ∀ b ∈ s.bytes, b < 128

mutual
/-- The values this library can write in standard form: symbols are ASCII, and the raw data of a described compound is a
standard list, map or array. -/
def writable : Variant → Prop
  | .symbol s => ∀ b ∈ s.bytes, b < 128
  | .list l => writables l
  | .map m => writablePairs m
  | .array _ (.described d _) _ => descriptorAscii d
  | .described d v => descriptorAscii d ∧ writable v
  | .describedCompound d data => descriptorAscii d ∧ (data = [0x45] ∨ ∃ n c w body, data = c :: w ∧
      (compounds 0xc0 0xd0 n c w body ∨ compounds 0xc1 0xd1 n c w body ∨ compounds 0xe0 0xf0 n c w body))
  | _ => True

def writables : List Variant → Prop
  | [] => True
  | v :: l => writable v ∧ writables l

def writablePairs : List (Variant × Variant) → Prop
  | [] => True
  | (k, v) :: m => writable k ∧ writable v ∧ writablePairs m
end

end Amqp.Standard
