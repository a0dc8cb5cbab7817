import Verif.Model.Values
import Verif.Lemmas.Compound
import Verif.Lemmas.Standard
import Verif.Props.Codec
/-!
# C88: what is put into an AMQP value comes out of it

`Array`, `DescribedCompound` and the accessors of `Variant` are how an application that does not use the typed fields
builds and reads values.
-/

namespace Amqp
open Dec

/-! ## Arrays -/

section arrays
variable [Wire α] [ArrayWire α] [WF α] [LawfulArray α]

theorem arrayItems_rest (l : List α) (h : ∀ a ∈ l, wf a) (hl : l.length < U32) (more : Bytes) :
    arrayItems α (UInt32.ofNat l.length) (.formatCode (arrCtor α)) (l.flatMap arrEnc ++ more) = .ok l := by
  have hc : (UInt32.ofNat l.length).toNat = l.length := by
    rw [UInt32.toNat_ofNat']; exact Nat.mod_eq_of_lt hl
  unfold arrayItems
  rw [hc, show (Constructor.formatCode (arrCtor α)).code = arrCtor α from rfl,
    repeatDec_rt l (fun a ha => LawfulArray.arr_rt a (h a ha)) more]

/-- **C88** A list of well-formed items made into an `Array` is read back from it unchanged. -/
theorem c88_array_back (l : List α) (h : ∀ a ∈ l, wf a) (hl : l.length < U32) :
    ∃ n c p, Variant.ofVec l = .array n c p ∧ arrayItems α n c p = .ok l := by
  refine ⟨_, _, _, rfl, ?_⟩
  have := arrayItems_rest l h hl []
  rwa [List.append_nil] at this

/-- The same bytes are written for an `Array` as for the list itself. -/
theorem ofVec_enc (l : List α) (hl : l.length < U32) :
    enc (Variant.ofVec l) = enc (Arr.mk l) := by
  have hc : (UInt32.ofNat l.length).toNat = l.length := by
    rw [UInt32.toNat_ofNat']; exact Nat.mod_eq_of_lt hl
  show encHeader _ _ (1 + (l.flatMap arrEnc).length) (UInt32.ofNat l.length).toNat ++ [arrCtor α] ++ _ = _
  rw [hc, arrContent_length, Nat.add_comm]
  simp only [enc, List.append_assoc, List.cons_append, List.nil_append]

/-- **C88** Whoever sends a list as an `Array` and whoever sends it as a `Vec` write the same bytes. -/
theorem c88_array_as_vec (l : List α) (h : wf (Arr.mk l)) : enc (Variant.ofVec l) = enc (Arr.mk l) := by
  have hge : l.length * 1 ≤ (l.flatMap arrEnc).length := flatMap_length_ge 1 fun x _ => LawfulArray.arr_pos x
  have := h.2
  simp only at this
  exact ofVec_enc l (by omega)

theorem ofVec_wf (l : List α) (h : wf (Arr.mk l)) : wf (Variant.ofVec l) := by
  have hge : l.length * 1 ≤ (l.flatMap arrEnc).length := flatMap_length_ge 1 fun x _ => LawfulArray.arr_pos x
  obtain ⟨-, hs⟩ := h
  simp only at hs
  refine ⟨LawfulArray.ctor_ne, ?_, fun hlt => ?_⟩
  · show 1 + _ + 4 < _; omega
  · have hlt : 1 + (l.flatMap arrEnc).length < 255 := hlt
    rw [UInt32.lt_iff_toNat_lt, UInt32.toNat_ofNat']
    have := Nat.mod_le l.length (2 ^ 32)
    show _ < 256
    omega

/-- **C88** The same across the wire: the peer decodes a value, finds an array in it, and reads the items that were put
in, whatever follows. -/
theorem c88_array_travels (l : List α) (h : wf (Arr.mk l)) (rest : Bytes) :
    ∃ n c p, (dec : Dec Variant) (enc (Variant.ofVec l) ++ rest) = .ok (.array n c p, rest) ∧
      arrayItems α n c p = .ok l := by
  have hge : l.length * 1 ≤ (l.flatMap arrEnc).length := flatMap_length_ge 1 fun x _ => LawfulArray.arr_pos x
  have hs := h.2
  simp only at hs
  obtain ⟨n, c, p, e, hd⟩ := c88_array_back l h.1 (by omega)
  exact ⟨n, c, p, e ▸ c02_variant_round_trip _ (ofVec_wf l h) rest, hd⟩

/-- **C88** A list read as an `Array` by an application and as a `Vec` by the library is the same list: what a peer wrote
as a `Vec` can be read from the value. -/
theorem c88_vec_as_array (l : List α) (h : wf (Arr.mk l)) (rest : Bytes) :
    ∃ n c p, (dec : Dec Variant) (enc (Arr.mk l) ++ rest) = .ok (.array n c p, rest) ∧ arrayItems α n c p = .ok l :=
  c88_array_as_vec l h ▸ c88_array_travels l h rest

/-- **C88** An array whose items are of a described type, which a peer may send though `Array::new` makes none: the items
are read as what they are underneath. -/
theorem c88_array_of_described (d : Descriptor) (l : List α) (hd : wf d) (h : ∀ a ∈ l, wf a)
    (hs : (enc (Constructor.described d (arrCtor α))).length + (l.flatMap arrEnc).length + 4 < U32) (rest : Bytes) :
    ∃ n p, (dec : Dec Variant)
        (enc (Variant.array (UInt32.ofNat l.length) (.described d (arrCtor α)) (l.flatMap arrEnc)) ++ rest) =
          .ok (.array n (.described d (arrCtor α)) p, rest) ∧
      arrayItems α n (.described d (arrCtor α)) p = .ok l := by
  have hge : l.length * 1 ≤ (l.flatMap arrEnc).length := flatMap_length_ge 1 fun x _ => LawfulArray.arr_pos x
  refine ⟨_, _, c02_variant_round_trip (.array (UInt32.ofNat l.length) (.described d (arrCtor α)) (l.flatMap arrEnc))
    ⟨hd, hs, fun hlt => ?_⟩ rest, ?_⟩
  · rw [UInt32.lt_iff_toNat_lt, UInt32.toNat_ofNat']
    have := Nat.mod_le l.length (2 ^ 32)
    show _ < 256
    omega
  · have := arrayItems_rest l h (by omega) []
    rw [List.append_nil] at this
    exact this

/-- **C88** Violated: `Array::decode` does not notice bytes that belong to no item.  Any payload may be lengthened
without a change in what is read. -/
theorem c88_array_excess (l : List α) (h : ∀ a ∈ l, wf a) (hl : l.length < U32) (more : Bytes) :
    arrayItems α (UInt32.ofNat l.length) (.formatCode (arrCtor α)) (l.flatMap arrEnc ++ more) = .ok l :=
  arrayItems_rest l h hl more

end arrays

-- two items; the second of three bytes
example : wf (Arr.mk [(⟨ascii "a"⟩ : Symbol), ⟨ascii "bcd"⟩]) :=
  ⟨by
    have h1 : validUtf8 (ascii "a") = true := utf8_of_ascii _ (by decide)
    have h2 : validUtf8 (ascii "bcd") = true := utf8_of_ascii _ (by decide)
    intro x hx
    simp only [List.mem_cons, List.not_mem_nil, or_false] at hx
    rcases hx with rfl | rfl
    · exact ⟨h1, by decide⟩
    · exact ⟨h2, by decide⟩, by decide⟩

example : ∃ n c p, Variant.ofVec [(7 : UInt16), 300] = .array n c p ∧ arrayItems UInt16 n c p = .ok [7, 300] :=
  c88_array_back _ (fun _ _ => trivial) (by decide)

/-- **C88** Never more items than announced, never fewer. -/
theorem c88_array_count [Wire α] (n : UInt32) (c : Constructor) (p : Bytes) (l : List α)
    (h : arrayItems α n c p = .ok l) : l.length = n.toNat := by
  have key : ∀ k (s : Bytes) (l : List α) r, repeatDec k (decF c.code : Dec α) s = .ok (l, r) → l.length = k := by
    intro k
    induction k with
    | zero => intro s l r h; cases h; rfl
    | succ k ih =>
      intro s l r h
      obtain ⟨a, s', -, h⟩ := bind_inv h
      obtain ⟨l', s'', h', h⟩ := bind_inv h
      cases h
      simp [ih _ _ _ h']
  unfold arrayItems at h
  split at h
  · rename_i l' r hr
    cases h
    exact key _ _ _ _ hr
  · cases h

/-! ## Described values -/

/-- **C88** What was made into a described value is read back from it. -/
theorem c88_described_back [Wire α] [WF α] [LawfulWire α] (d : Descriptor) (a : α) (h : wf a) :
    ∃ p, Variant.describe d a = .describedCompound d p ∧ describedAs α p = .ok a := by
  refine ⟨_, rfl, ?_⟩
  have := (LawfulWire.rt a h).dec []
  rw [List.append_nil] at this
  unfold describedAs
  rw [this]

/-- **C88** The same across the wire for the encodings a described compound is for: lists, maps and arrays. -/
theorem c88_described_travels [Wire α] [WF α] [LawfulWire α] (d : Descriptor) (a : α) (hd : wf d) (h : wf a)
    (hr : rawCompound (enc a)) (rest : Bytes) :
    ∃ p, (dec : Dec Variant) (enc (Variant.describe d a) ++ rest) = .ok (.describedCompound d p, rest) ∧
      describedAs α p = .ok a := by
  obtain ⟨p, e, hp⟩ := c88_described_back d a h
  exact ⟨p, e ▸ c02_variant_round_trip (Variant.describe d a) ⟨hd, hr⟩ rest, hp⟩

theorem rawCompound_header {c8 c32 : UInt8} {count : Nat} {body : Bytes}
    (h8 : c8 = FC.list8 ∨ c8 = FC.map8 ∨ c8 = FC.array8) (h32 : c32 = FC.list32 ∨ c32 = FC.map32 ∨ c32 = FC.array32)
    (hs : body.length + 4 < U32) : rawCompound (encHeader c8 c32 body.length count ++ body) := by
  unfold encHeader
  split
  · refine .inr (.inr ⟨c32, be 4 count ++ body, ?_, h32, ?_⟩)
    · simp [Nat.add_comm]
    · simp only [List.length_append, be_length]; omega
  · rename_i hn
    refine .inr (.inl ⟨c8, UInt8.ofNat (body.length + 1), be 1 count ++ body, by simp [be_one], h8, ?_⟩)
    rw [UInt8.toNat_ofNat']
    simp only [List.length_append, be_length]
    omega

/-- **C88** In particular for a list of values of any kind, as in the example in the code. -/
theorem c88_described_list (d : Descriptor) (l : VList) (hd : wf d) (h : wf l) (rest : Bytes) :
    ∃ p, (dec : Dec Variant) (enc (Variant.describe d l) ++ rest) = .ok (.describedCompound d p, rest) ∧
      describedAs VList p = .ok l := by
  refine c88_described_travels d l hd h ?_ rest
  have hl : (l.items.map size).sum = (l.items.flatMap enc).length := by
    have : ∀ m : List Variant, (m.map size).sum = (m.flatMap enc).length := by
      intro m
      induction m with
      | nil => rfl
      | cons a m ih =>
        rw [List.map_cons, List.sum_cons, List.flatMap_cons, List.length_append, ih, SizeWire.size_eq a]
    exact this _
  have hs := h.2
  show rawCompound (encHeader _ _ (l.items.map size).sum _ ++ _)
  rw [hl]
  exact rawCompound_header (.inl rfl) (.inl rfl) hs

-- the example of the documentation: descriptor "foo:bar", one ubyte of value 3
example : enc (Variant.describe (.symbol (sym "foo:bar")) (VList.mk [.ubyte 3])) =
    [0x00, 0xa3, 0x07] ++ ascii "foo:bar" ++ [0xc0, 0x03, 0x01, 0x50, 0x03] := by decide +kernel

/-- **C88** Violated by the documentation: the bytes given there carry the size 2, which is one too small.  A peer that
sends them is understood to have sent a value that cannot be read, with a byte left over. -/
theorem c88_documented_bytes :
    (dec : Dec Variant) ([0x00, 0xa3, 0x07] ++ ascii "foo:bar" ++ [0xc0, 0x02, 0x01, 0x50, 0x03]) =
      .ok (.describedCompound (.symbol (sym "foo:bar")) [0xc0, 0x02, 0x01, 0x50], [0x03]) ∧
    ∃ n, describedAs VList [0xc0, 0x02, 0x01, 0x50] = .error (.incomplete n) := by
  constructor
  · have hs : wf (sym "foo:bar") := ⟨utf8_of_ascii _ (by decide), by decide⟩
    have he : [0x00, 0xa3, 0x07] ++ ascii "foo:bar" ++ [0xc0, 0x02, 0x01, 0x50, 0x03] =
      enc (Variant.describedCompound (.symbol (sym "foo:bar")) [0xc0, 0x02, 0x01, 0x50]) ++ [0x03] := by decide +kernel
    rw [he]
    exact c02_variant_round_trip (.describedCompound (.symbol (sym "foo:bar")) [0xc0, 0x02, 0x01, 0x50])
      ⟨hs, .inr (.inl ⟨_, _, _, rfl, .inl rfl, rfl⟩)⟩ [0x03]
  · have h : (match describedAs VList [0xc0, 0x02, 0x01, 0x50] with
      | .error (.incomplete _) => true
      | _ => false) = true := by decide +kernel
    split at h
    · exact ⟨_, ‹_›⟩
    · cases h

/-- **C88** Unlike an array, a described value with anything after it is refused. -/
theorem c88_described_excess [Wire α] [WF α] [LawfulWire α] (a : α) (h : wf a) (more : Bytes) (hm : more ≠ []) :
    describedAs α (enc a ++ more) = .error .invalidSize := by
  unfold describedAs
  rw [(LawfulWire.rt a h).dec more]
  cases more with
  | nil => exact absurd rfl hm
  | cons b m => rfl

/-- **C88** Violated: a described compound made from a value that is none comes back as another kind of value, for which
`DescribedCompound::decode` is not offered. -/
theorem c88_described_simple (d : Descriptor) (v : Variant) (hd : wf d) (h : wf v) (hn : v.isCompound = false)
    (rest : Bytes) :
    (dec : Dec Variant) (enc (Variant.describe d v) ++ rest) = .ok (.described d v, rest) :=
  c02_variant_round_trip (.described d v) ⟨hd, h, hn⟩ rest

example : (dec : Dec Variant) (enc (Variant.describe (.ulong 9) (Variant.ubyte 3))) =
    .ok (.described (.ulong 9) (.ubyte 3), []) := by
  have := c88_described_simple (.ulong 9) (.ubyte 3) (by show (9 : UInt64) ≠ 0; decide) trivial rfl []
  rwa [List.append_nil] at this

/-! ## Numbers and text -/

/-- The integer a value stands for. -/
def Variant.integer : Variant → Option Int
  | .ubyte v => some v.toNat
  | .ushort v => some v.toNat
  | .uint v => some v.toNat
  | .ulong v => some v.toNat
  | .byte v => some v.toInt
  | .short v => some v.toInt
  | .int v => some v.toInt
  | .long v => some v.toInt
  | _ => none

/-- A value of one of the four unsigned types. -/
def Variant.Unsigned (v : Variant) : Prop :=
  (∃ n, v = .ubyte n) ∨ (∃ n, v = .ushort n) ∨ (∃ n, v = .uint n) ∨ ∃ n, v = .ulong n

theorem toInt_of_small {n : UInt64} (h : n.toNat < 2 ^ 63) : n.toInt64.toInt = n.toNat := by
  show n.toInt64.toBitVec.toInt = _
  rw [UInt64.toBitVec_toInt64, BitVec.toInt_eq_toNat_of_lt]
  · rfl
  · show 2 * n.toNat < _; omega

/-- **C88** `as_long` gives the very integer, never another one. -/
theorem c88_long (v : Variant) (n : Int64) (h : v.asLong = some n) : v.integer = some n.toInt := by
  cases v <;> simp only [Variant.asLong, Option.some.injEq, reduceCtorEq] at h <;> subst h <;>
    simp only [Variant.integer, Option.some.injEq]
  case ubyte x =>
    have := x.toNat_lt
    rw [toInt_of_small (by rw [UInt8.toNat_toUInt64]; omega), UInt8.toNat_toUInt64]
  case ushort x =>
    have := x.toNat_lt
    rw [toInt_of_small (by rw [UInt16.toNat_toUInt64]; omega), UInt16.toNat_toUInt64]
  case uint x =>
    have := x.toNat_lt
    rw [toInt_of_small (by rw [UInt32.toNat_toUInt64]; omega), UInt32.toNat_toUInt64]
  all_goals simp

/-- **C88** and `as_ulong` likewise. -/
theorem c88_ulong (v : Variant) (n : UInt64) (h : v.asUlong = some n) : v.integer = some n.toNat := by
  cases v <;> simp only [Variant.asUlong, Option.some.injEq, reduceCtorEq] at h <;> subst h <;>
    simp [Variant.integer]

/-- **C88** Every integer can be read by one of the two: `as_long` reads all but the `ulong`s, `as_ulong` all of unsigned
type. -/
theorem c88_readable (v : Variant) :
    ((v.asLong).isSome ↔ v.integer.isSome ∧ ∀ n, v ≠ .ulong n) ∧ ((v.asUlong).isSome ↔ v.Unsigned) := by
  cases v <;> simp [Variant.asLong, Variant.asUlong, Variant.integer, Variant.Unsigned]

/-- **C88** Violated for `ulong`: a small one fits an `i64` and is not given out as one; a positive number of signed type
is not given out as a `u64`. -/
theorem c88_withheld : (Variant.ulong 1).integer = some 1 ∧ (Variant.ulong 1).asLong = none ∧
    (Variant.int 1).integer = some 1 ∧ (Variant.int 1).asUlong = none := ⟨rfl, rfl, by decide, rfl⟩

example : (Variant.byte (-1)).asLong = some (-1) ∧ (Variant.ubyte 255).asLong = some 255 := by decide

/-- **C88** Text comes out of strings and symbols, as it was put in, and out of nothing else. -/
theorem c88_text (v : Variant) (b : Bytes) :
    v.asText = some b ↔ v = .string ⟨b⟩ ∨ v = .symbol ⟨b⟩ := by
  cases v <;> simp only [Variant.asText, Option.some.injEq, reduceCtorEq, or_self, iff_self,
    Variant.string.injEq, Variant.symbol.injEq, or_false, false_or]
  all_goals
    rename_i s
    cases s
    simp

end Amqp
