import Verif.Lemmas.StandardEnc
import Verif.Lemmas.Structs
/-!
# Properties of the value codec against the encodings of the AMQP specification

C50–C52.  The encodings themselves are in `Spec/Standard.lean`.
-/

namespace Amqp
open Dec Standard

/-! ## C50 -/

/-- **C50** Every standard encoding of a primitive value, whichever of its widths the sender chose, decodes to that
value. -/
theorem c50_primitives_accepted :
    Reads Bool ∧ Reads UInt8 ∧ Reads UInt16 ∧ Reads UInt32 ∧ Reads UInt64 ∧ Reads Int8 ∧
    Reads Int16 ∧ Reads Int32 ∧ Reads Int64 ∧ Reads F32 ∧ Reads F64 ∧ Reads Char ∧ Reads Uuid ∧
    Reads Bytes ∧ Reads Str ∧ Reads Symbol ∧ Reads Descriptor :=
  ⟨accepted_bool.reads, accepted_u8.reads, accepted_u16.reads, accepted_u32.reads, accepted_u64.reads,
    accepted_i8.reads, accepted_i16.reads, accepted_i32.reads, accepted_i64.reads, accepted_f32.reads,
    accepted_f64.reads, accepted_char.reads, accepted_uuid.reads, accepted_bytes.reads,
    accepted_str.reads, accepted_symbol.reads, accepted_descriptor.reads⟩

/-- **C50** Every standard encoding of a value tree decodes to that tree, whatever widths were chosen in it and whatever
follows it. -/
theorem c50_values_accepted {c : UInt8} {w : Bytes} {v : Variant} (h : Tree c w v) (rest : Bytes) :
    (dec : Dec Variant) (c :: w ++ rest) = .ok (v, rest) :=
  tree_dec h _ (by simp; omega) rest

/-- Not so for timestamps within a second before the epoch: one millisecond before it is read as one after (C19). -/
theorem c50_timestamps_not_accepted : ¬ Reads Timestamp := by
  intro h
  have hf : form 0x83 (List.replicate 8 (0xff : UInt8)) (⟨-1, 999000000⟩ : Timestamp) :=
    ⟨rfl, rfl, by decide, by decide, by decide, by decide, by decide⟩
  have := h _ _ _ hf []
  have h' : (dec : Dec Timestamp) (0x83 :: List.replicate 8 (0xff : UInt8) ++ []) = .ok (⟨0, 1000000⟩, []) := rfl
  rw [h'] at this
  simp at this

/-- Nor for the descriptor zero in its shortest form. -/
theorem c50_zero_descriptor_not_accepted :
    (dec : Dec Variant) [0x00, 0x44, 0x41] = .error (.invalidFormatCode 0x44) ∧
    (dec : Dec Variant) [0x00, 0x53, 0x00, 0x41] = .ok (.described (.ulong 0) (.boolean true), []) := ⟨rfl, rfl⟩

-- a value this library would never write this way: a list in its wide form, with a wide uint, a one-byte boolean and
-- an empty list
example : Tree 0xd0 ([0, 0, 0, 12] ++ [0, 0, 0, 3] ++ [0x70, 0, 0, 0, 7, 0x56, 1, 0x45])
    (.list [.uint 7, .boolean true, .list []]) :=
  .list (.inr ⟨rfl, _, _, rfl, rfl, rfl, by decide, by decide⟩)
    (.cons (w := [0, 0, 0, 7]) (.scalar (.inl ⟨rfl, rfl, by decide⟩))
      (.cons (w := [1]) (.scalar (.inr (.inr (.inl ⟨rfl, rfl, rfl⟩)))) (.cons (w := []) .list0 .nil)))

-- a map, an array and a described value
example : Tree 0xc1 ([0x06] ++ [0x02] ++ [0xa3, 1, 0x6b, 0x54, 0xff]) (.map [(.symbol ⟨[0x6b]⟩, .int (-1))]) :=
  .map (.inl ⟨rfl, _, _, rfl, rfl, rfl, by decide, by decide⟩)
    (.cons (w := [1, 0x6b]) (.scalar ⟨.inl ⟨rfl, [1], rfl, rfl, by decide⟩, by decide⟩) rfl
      (w' := [0xff]) (.scalar (.inr ⟨rfl, rfl, by decide⟩)) .nil)
    (by simp)
example : Tree 0 (0x80 :: [0, 0, 0, 0, 0, 0, 0, 3] ++ 0xa1 :: [1, 0x78]) (.described (.ulong 3) (.string ⟨[0x78]⟩)) :=
  .described ⟨.inl ⟨rfl, rfl, by decide⟩, by decide⟩
    (.scalar ⟨.inl ⟨rfl, [1], rfl, rfl, by decide⟩, ['x'], rfl⟩) (by simp) (by simp) (by simp)

/-! ## C51 -/

/-- **C51** Every value tree is written as a standard encoding of that tree. -/
theorem c51_values_standard (v : Variant) (h : wf v) (ha : writable v) : ∃ c w, enc v = c :: w ∧ Tree c w v :=
  enc_tree v h ha

/-- **C51** So is every primitive. -/
theorem c51_primitives_standard :
    (∀ v : Bool, ∃ c w, enc v = c :: w ∧ form c w v) ∧ (∀ v : UInt8, ∃ c w, enc v = c :: w ∧ form c w v) ∧
    (∀ v : UInt16, ∃ c w, enc v = c :: w ∧ form c w v) ∧ (∀ v : UInt32, ∃ c w, enc v = c :: w ∧ form c w v) ∧
    (∀ v : UInt64, ∃ c w, enc v = c :: w ∧ form c w v) ∧ (∀ v : Int8, ∃ c w, enc v = c :: w ∧ form c w v) ∧
    (∀ v : Int16, ∃ c w, enc v = c :: w ∧ form c w v) ∧ (∀ v : Int32, ∃ c w, enc v = c :: w ∧ form c w v) ∧
    (∀ v : Int64, ∃ c w, enc v = c :: w ∧ form c w v) ∧ (∀ v : F32, ∃ c w, enc v = c :: w ∧ form c w v) ∧
    (∀ v : F64, ∃ c w, enc v = c :: w ∧ form c w v) ∧ (∀ v : Char, ∃ c w, enc v = c :: w ∧ form c w v) ∧
    (∀ v : Uuid, ∃ c w, enc v = c :: w ∧ form c w v) ∧
    (∀ v : Timestamp, wf v → ∃ c w, enc v = c :: w ∧ form c w v) ∧
    (∀ v : Bytes, wf v → ∃ c w, enc v = c :: w ∧ form c w v) ∧
    (∀ v : Str, wf v → ∃ c w, enc v = c :: w ∧ form c w v) ∧
    (∀ v : Symbol, (∀ b ∈ v.bytes, b < 128) → v.bytes.length < U32 → ∃ c w, enc v = c :: w ∧ form c w v) :=
  ⟨enc_bool, fun v => enc_form only_u8 v trivial, fun v => enc_form only_u16 v trivial,
    fun v => enc_form only_u32 v trivial, fun v => enc_form only_u64 v trivial, fun v => enc_form only_i8 v trivial,
    fun v => enc_form only_i16 v trivial, fun v => enc_form only_i32 v trivial, fun v => enc_form only_i64 v trivial,
    fun v => enc_form only_f32 v trivial, fun v => enc_form only_f64 v trivial, fun v => enc_form only_char v trivial,
    fun v => enc_form only_uuid v trivial,
    fun v h => by obtain ⟨c, w, he, hf, _⟩ := enc_timestamp v h; exact ⟨c, w, he, hf⟩,
    fun v h => enc_form only_bytes v h, fun v h => enc_form only_str v h, enc_symbol⟩

-- the conditions are met by a non-trivial value
example : wf (Variant.list [.uint 7, .described (.ulong 3) (.string ⟨ascii "x"⟩)]) ∧
    writable (.list [.uint 7, .described (.ulong 3) (.string ⟨ascii "x"⟩)]) := by
  have h1 : validUtf8 (ascii "x") = true := utf8_of_ascii _ (by decide)
  exact ⟨⟨⟨trivial, ⟨show (3 : UInt64) ≠ 0 by decide, ⟨h1, by decide⟩, rfl⟩, trivial⟩, by decide⟩,
    by simp [writable, writables, descriptorAscii]⟩

/-! ## C52 -/

/-- **C52** The bytes of a string are accepted exactly when they are the UTF-8 encoding of some sequence of
characters. -/
theorem c52_text_is_utf8 (b : Bytes) : validUtf8 b = true ↔ ∃ cs, b = utf8 cs := validUtf8_iff b

/-- **C52** (all primitive types but booleans, symbols and timestamps) Nothing but the standard encodings of a type
decodes as a value of the type, and it decodes to no other value. -/
theorem c52_only_standard_partial :
    OnlyReads UInt8 ∧ OnlyReads UInt16 ∧ OnlyReads UInt32 ∧ OnlyReads UInt64 ∧ OnlyReads Int8 ∧
    OnlyReads Int16 ∧ OnlyReads Int32 ∧ OnlyReads Int64 ∧ OnlyReads F32 ∧ OnlyReads F64 ∧
    OnlyReads Char ∧ OnlyReads Uuid ∧ OnlyReads Bytes ∧ OnlyReads Str :=
  ⟨only_u8, only_u16, only_u32, only_u64, only_i8, only_i16, only_i32, only_i64, only_f32, only_f64, only_char,
    only_uuid, only_bytes, only_str⟩

/-- **C52** (booleans) The one-byte codes are exact; after 0x56 a zero byte is false and any other byte is true. -/
theorem c52_booleans_partial {s r : Bytes} {v : Bool} (h : (dec : Dec Bool) s = .ok (v, r)) :
    (s = 0x41 :: r ∧ v = true) ∨ (s = 0x42 :: r ∧ v = false) ∨ ∃ b, s = 0x56 :: b :: r ∧ (v = true ↔ b ≠ 0) :=
  bool_inv h

/-- **C52** (symbols) The form is exact, but the text may be any UTF-8. -/
theorem c52_symbols_partial {s r : Bytes} {v : Symbol} (h : (dec : Dec Symbol) s = .ok (v, r)) :
    ∃ c w, ((c = 0xa3 ∧ varWidth 1 w v.bytes) ∨ (c = 0xb3 ∧ varWidth 4 w v.bytes)) ∧ s = c :: w ++ r ∧
      ∃ cs, v.bytes = utf8 cs := symbol_inv h

/-- The specification allows only 0 and 1 after 0x56; 2 is accepted as true. -/
theorem c52_boolean_two_accepted : (dec : Dec Bool) [0x56, 2] = .ok (true, []) ∧ ¬ OnlyReads Bool := by
  refine ⟨rfl, fun h => ?_⟩
  obtain ⟨c, w, hf, he⟩ := h [0x56, 2] true [] rfl
  simp only [List.append_nil, List.cons.injEq] at he
  obtain ⟨rfl, rfl⟩ := he
  rcases hf with ⟨h, _⟩ | ⟨h, _⟩ | ⟨_, h, _⟩ | ⟨_, h, _⟩
  · exact absurd h (by decide)
  · exact absurd h (by decide)
  · exact absurd h (by decide)
  · exact absurd h (by decide)

/-- Symbols are ASCII in the specification; the decoder accepts `é`. -/
theorem c52_symbol_not_ascii_accepted :
    (dec : Dec Symbol) [0xa3, 2, 0xc3, 0xa9] = .ok (⟨[0xc3, 0xa9]⟩, []) ∧ ¬ OnlyReads Symbol := by
  have h0 : (dec : Dec Symbol) [0xa3, 2, 0xc3, 0xa9] = .ok (⟨[0xc3, 0xa9]⟩, []) := by
    have hu : validUtf8 [0xc3, 0xa9] = true := (validUtf8_iff _).2 ⟨['é'], by decide⟩
    have hw : wf (⟨[0xc3, 0xa9]⟩ : Symbol) := ⟨hu, by decide⟩
    exact rt_dec hw []
  refine ⟨h0, fun h => ?_⟩
  obtain ⟨c, w, hf, _⟩ := h _ _ _ h0
  exact absurd (hf.2 0xc3 (by simp)) (by decide)

end Amqp
