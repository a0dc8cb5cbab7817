import Verif.Lemmas.Dec
import Verif.Spec.Codec
/-! Round trips and exact sizes of the primitive encoders. -/

namespace Amqp
open Dec

/-- `a` survives the wire: its encoding starts with a format code from which the rest decodes back. -/
def RTF [Wire α] (a : α) : Prop :=
  ∃ c tl, enc a = c :: tl ∧ ∀ rest, (decF c : Dec α) (tl ++ rest) = .ok (a, rest)

/-- The encoding of `a` does not start with the null code. -/
def NonNull [Wire α] (a : α) : Prop := ∀ tl, enc a ≠ FC.null :: tl

class LawfulWire (α : Type) [Wire α] [WF α] : Prop where
  rt : ∀ a : α, wf a → RTF a

class NonNullWire (α : Type) [Wire α] : Prop where
  nn : ∀ a : α, NonNull a

class SizeWire (α : Type) [Wire α] : Prop where
  size_eq : ∀ a : α, (enc a).length = size a

theorem RTF.dec [Wire α] {a : α} (h : RTF a) (rest : Bytes) : (dec : Dec α) (enc a ++ rest) = .ok (a, rest) := by
  obtain ⟨c, tl, he, hd⟩ := h
  rw [he]
  exact hd rest

theorem rt_dec [Wire α] [WF α] [LawfulWire α] {a : α} (h : wf a) (rest : Bytes) :
    (dec : Dec α) (enc a ++ rest) = .ok (a, rest) := (LawfulWire.rt a h).dec rest

theorem readU8_cons (b : UInt8) (s : Bytes) : readU8 (b :: s) = .ok (b, s) := rfl

theorem be_one (n : Nat) : be 1 n = [UInt8.ofNat n] := by simp [be]

instance : LawfulWire Bool where
  rt b _ := ⟨_, [], rfl, fun rest => by cases b <;> rfl⟩

instance : LawfulWire UInt8 where
  rt b _ := ⟨_, [b], rfl, fun _ => rfl⟩

instance : LawfulWire UInt16 where
  rt b _ := ⟨_, _, rfl, fun rest => by
    simp only [decF]
    rw [if_pos trivial]
    rw [Dec.map_ok (readBE_be 2 _ b.toNat_lt rest), UInt16.ofNat_toNat]⟩

theorem rt_uint (b : UInt32) (rest : Bytes) :
    (decF FC.uint : Dec UInt32) (be 4 b.toNat ++ rest) = .ok (b, rest) := by
  simp only [decF]
  rw [if_pos trivial]
  rw [Dec.map_ok (readBE_be 4 _ b.toNat_lt rest), UInt32.ofNat_toNat]

theorem rt_ulong (b : UInt64) (rest : Bytes) :
    (decF FC.ulong : Dec UInt64) (be 8 b.toNat ++ rest) = .ok (b, rest) := by
  simp only [decF]
  rw [if_pos trivial]
  rw [Dec.map_ok (readBE_be 8 _ b.toNat_lt rest), UInt64.ofNat_toNat]

theorem rt_smalluint (b : UInt32) (h : ¬ b > 255) (rest : Bytes) :
    (decF FC.smalluint : Dec UInt32) (b.toUInt8 :: rest) = .ok (b, rest) := by
  simp only [decF]
  rw [if_neg (by decide), if_pos trivial]
  have : b.toUInt8.toUInt32 = b := by
    apply UInt32.toNat_inj.mp
    have : b.toNat ≤ 255 := by simpa [UInt32.lt_iff_toNat_lt] using h
    simp; omega
  rw [Dec.map_ok (readU8_cons _ _), this]

theorem rt_smallulong (b : UInt64) (h : ¬ b > 255) (rest : Bytes) :
    (decF FC.smallulong : Dec UInt64) (b.toUInt8 :: rest) = .ok (b, rest) := by
  simp only [decF]
  rw [if_neg (by decide), if_pos trivial]
  have : b.toUInt8.toUInt64 = b := by
    apply UInt64.toNat_inj.mp
    have : b.toNat ≤ 255 := by simpa [UInt64.lt_iff_toNat_lt] using h
    simp; omega
  rw [Dec.map_ok (readU8_cons _ _), this]

instance : LawfulWire UInt32 where
  rt b _ := by
    by_cases h0 : b = 0
    · subst h0; exact ⟨FC.uint0, [], rfl, fun rest => rfl⟩
    · by_cases h1 : b > 255
      · exact ⟨FC.uint, be 4 b.toNat, by simp [enc, h0, h1], rt_uint b⟩
      · exact ⟨FC.smalluint, [b.toUInt8], by simp [enc, h0, h1], rt_smalluint b h1⟩

instance : LawfulWire UInt64 where
  rt b _ := by
    by_cases h0 : b = 0
    · subst h0; exact ⟨FC.ulong0, [], rfl, fun rest => rfl⟩
    · by_cases h1 : b > 255
      · exact ⟨FC.ulong, be 8 b.toNat, by simp [enc, h0, h1], rt_ulong b⟩
      · exact ⟨FC.smallulong, [b.toUInt8], by simp [enc, h0, h1], rt_smallulong b h1⟩

instance : LawfulWire Int8 where
  rt b _ := ⟨_, [b.toUInt8], rfl, fun rest => by
    simp only [decF]
    rw [if_pos trivial]
    exact (Dec.map_ok (readU8_cons _ _)).trans (by simp)⟩

instance : LawfulWire Int16 where
  rt b _ := ⟨_, _, rfl, fun rest => by
    simp only [decF]
    rw [if_pos trivial]
    rw [Dec.map_ok (readBE_be 2 _ b.toUInt16.toNat_lt rest), UInt16.ofNat_toNat]
    simp⟩

theorem rt_int (b : Int32) (rest : Bytes) :
    (decF FC.int : Dec Int32) (be 4 b.toUInt32.toNat ++ rest) = .ok (b, rest) := by
  simp only [decF]
  rw [if_pos trivial]
  rw [Dec.map_ok (readBE_be 4 _ b.toUInt32.toNat_lt rest), UInt32.ofNat_toNat]
  simp

theorem rt_long (b : Int64) (rest : Bytes) :
    (decF FC.long : Dec Int64) (be 8 b.toUInt64.toNat ++ rest) = .ok (b, rest) := by
  simp only [decF]
  rw [if_pos trivial]
  rw [Dec.map_ok (readBE_be 8 _ b.toUInt64.toNat_lt rest), UInt64.ofNat_toNat]
  simp

theorem readI8_cons (b : Int8) (rest : Bytes) : readI8 (b.toUInt8 :: rest) = .ok (b, rest) := by
  exact (Dec.map_ok (readU8_cons _ _)).trans (by simp)

theorem rt_smallint (b : Int32) (h : ¬ (b > 127 ∨ b < -128)) (rest : Bytes) :
    (decF FC.smallint : Dec Int32) (b.toInt8.toUInt8 :: rest) = .ok (b, rest) := by
  simp only [decF]
  rw [if_neg (by decide), if_pos trivial]
  have : b.toInt8.toInt32 = b := by
    apply Int32.toInt_inj.mp
    have h1 : b.toInt ≤ 127 ∧ -128 ≤ b.toInt := by
      have := h
      simp only [not_or, GT.gt, Int32.lt_iff_toInt_lt] at this
      have e1 : (127 : Int32).toInt = 127 := rfl
      have e2 : (-128 : Int32).toInt = -128 := rfl
      omega
    rw [Int8.toInt_toInt32, Int32.toInt_toInt8, Int.bmod_def]
    omega
  rw [Dec.map_ok (readI8_cons _ _), this]

theorem rt_smalllong (b : Int64) (h : ¬ (b > 127 ∨ b < -128)) (rest : Bytes) :
    (decF FC.smalllong : Dec Int64) (b.toInt8.toUInt8 :: rest) = .ok (b, rest) := by
  simp only [decF]
  rw [if_neg (by decide), if_pos trivial]
  have : b.toInt8.toInt64 = b := by
    apply Int64.toInt_inj.mp
    have h1 : b.toInt ≤ 127 ∧ -128 ≤ b.toInt := by
      have := h
      simp only [not_or, GT.gt, Int64.lt_iff_toInt_lt] at this
      have e1 : (127 : Int64).toInt = 127 := rfl
      have e2 : (-128 : Int64).toInt = -128 := rfl
      omega
    rw [Int8.toInt_toInt64, Int64.toInt_toInt8, Int.bmod_def]
    omega
  rw [Dec.map_ok (readI8_cons _ _), this]

instance : LawfulWire Int32 where
  rt b _ := by
    by_cases h1 : b > 127 ∨ b < -128
    · exact ⟨FC.int, _, by simp only [enc, if_pos h1], rt_int b⟩
    · exact ⟨FC.smallint, [b.toInt8.toUInt8], by simp only [enc, if_neg h1], rt_smallint b h1⟩

instance : LawfulWire Int64 where
  rt b _ := by
    by_cases h1 : b > 127 ∨ b < -128
    · exact ⟨FC.long, _, by simp only [enc, if_pos h1], rt_long b⟩
    · exact ⟨FC.smalllong, [b.toInt8.toUInt8], by simp only [enc, if_neg h1], rt_smalllong b h1⟩

instance : LawfulWire F32 where
  rt b _ := ⟨_, _, rfl, fun rest => by
    simp only [decF]
    rw [if_pos trivial]
    rw [Dec.map_ok (readBE_be 4 _ b.bits.toNat_lt rest), UInt32.ofNat_toNat]⟩

instance : LawfulWire F64 where
  rt b _ := ⟨_, _, rfl, fun rest => by
    simp only [decF]
    rw [if_pos trivial]
    rw [Dec.map_ok (readBE_be 8 _ b.bits.toNat_lt rest), UInt64.ofNat_toNat]⟩

instance : LawfulWire Char where
  rt b _ := ⟨_, _, rfl, fun rest => by
    simp only [decF]
    rw [if_pos trivial]
    rw [Dec.bind_ok (readBE_be 4 _ b.val.toNat_lt rest)]
    have : UInt32.ofNat b.val.toNat = b.val := UInt32.ofNat_toNat
    rw [dif_pos (by rw [this]; exact b.valid)]
    rw [Dec.pure_def]
    congr 2
    apply Char.ext
    exact this⟩

/-! ### timestamps -/

theorem datetimeFromMillis_millis (t : Timestamp) (h : wfTimestamp t) :
    datetimeFromMillis (timestampMillis t) = .ok t := by
  obtain ⟨secs, nanos⟩ := t
  obtain ⟨h1, h2, h3, h4, h5⟩ := h
  simp only at h1 h2 h3 h4 h5
  have hq : nanos = nanos / 1000000 * 1000000 := by omega
  generalize hm : nanos / 1000000 = m at hq
  have hm1 : m < 1000 := by omega
  simp only [datetimeFromMillis, timestampMillis, hm]
  rcases h5 with h5 | ⟨h5, h6⟩
  · have hs : (secs * 1000 + (m : Int)).tdiv 1000 = secs := by
      rw [Int.tdiv_eq_ediv_of_nonneg (by omega)]; omega
    rw [hs, if_neg (by omega)]
    have : ((secs * 1000 + (m : Int) - secs * 1000) * 1000000).natAbs = nanos := by omega
    rw [this]
    rw [timestampOpt, if_pos ⟨h1, h2, by omega, by omega⟩]
  · have hs : (secs * 1000 + (m : Int)).tdiv 1000 = secs + 1 := by
      have : (secs * 1000 + (m : Int)) = -(-secs * 1000 - m) := by omega
      rw [this, Int.neg_tdiv, Int.tdiv_eq_ediv_of_nonneg (by omega)]
      omega
    rw [hs, if_pos (by omega)]
    have : ((1000 + (secs * 1000 + (m : Int) - (secs + 1) * 1000)) * 1000000).natAbs = nanos := by omega
    rw [this]
    rw [show secs + 1 - 1 = secs by omega, timestampOpt, if_pos ⟨h1, h2, by omega, by omega⟩]

theorem Int64_ofInt_toInt_of_small (m : Int) (h1 : -2 ^ 63 ≤ m) (h2 : m < 2 ^ 63) : (Int64.ofInt m).toInt = m := by
  rw [Int64.toInt_ofInt, Int.bmod_def]
  rw [show ((Int64.size : Nat) : Int) = 18446744073709551616 from rfl]
  omega

instance : LawfulWire Timestamp where
  rt t h := ⟨_, _, rfl, fun rest => by
    simp only [decF]
    rw [if_pos trivial]
    rw [Dec.bind_ok (readBE_be 8 _ (UInt64.toNat_lt _) rest)]
    have h' : wfTimestamp t := h
    obtain ⟨h1, h2, h3, h4, h5⟩ := h
    simp only [minSecs, maxSecs] at h1 h2
    have : (UInt64.ofNat (Int64.ofInt (timestampMillis t)).toUInt64.toNat).toInt64.toInt = timestampMillis t := by
      simp only [UInt64.ofNat_toNat]
      have : (Int64.ofInt (timestampMillis t)).toUInt64.toInt64 = Int64.ofInt (timestampMillis t) := by simp
      rw [this, Int64_ofInt_toInt_of_small]
      · simp only [timestampMillis]; omega
      · simp only [timestampMillis]; omega
    rw [this, datetimeFromMillis_millis t h']
    rfl⟩

/-! ### variable width -/

theorem readFixed_append (n : Nat) (v : FixedBytes n) (rest : Bytes) : readFixed n (v.1 ++ rest) = .ok (v, rest) := by
  obtain ⟨b, rfl⟩ := v
  simp only [readFixed, List.length_append]
  rw [dif_neg (by omega)]
  simp

instance : LawfulWire Uuid where
  rt b _ := ⟨_, _, rfl, fun rest => readFixed_append 16 b rest⟩

theorem readBytesU8_enc (b rest : Bytes) (h : ¬ b.length > 255) :
    readBytesU8 (be 1 b.length ++ b ++ rest) = .ok (b, rest) := by
  rw [be_one]
  refine (Dec.bind_ok (readU8_cons _ _)).trans ?_
  apply splitTo_append
  simp; omega

theorem readBytesU32_enc (b rest : Bytes) (h : b.length < U32) :
    readBytesU32 (be 4 b.length ++ b ++ rest) = .ok (b, rest) := by
  rw [List.append_assoc]
  refine (Dec.bind_ok (readBE_be 4 _ (by simpa using h) _)).trans ?_
  exact splitTo_append _ _ _ rfl

/-- The three variable-width types at once. -/
theorem encVar_rt {c8 c32 : UInt8} {d8 d32 : Dec Bytes} {b : Bytes} (h : b.length < U32)
    (h8 : d8 = readBytesU8) (h32 : d32 = readBytesU32) :
    (b.length > 255 ∧ encVar c8 c32 b = c32 :: (be 4 b.length ++ b) ∧
        ∀ rest, d32 ((be 4 b.length ++ b) ++ rest) = .ok (b, rest)) ∨
    (¬ b.length > 255 ∧ encVar c8 c32 b = c8 :: (be 1 b.length ++ b) ∧
        ∀ rest, d8 ((be 1 b.length ++ b) ++ rest) = .ok (b, rest)) := by
  subst h8 h32
  by_cases hl : b.length > 255
  · left
    exact ⟨hl, by simp [encVar, hl], fun rest => readBytesU32_enc b rest h⟩
  · right
    exact ⟨hl, by simp [encVar, hl], fun rest => readBytesU8_enc b rest hl⟩

instance : LawfulWire Bytes where
  rt b h := by
    rcases encVar_rt (c8 := FC.binary8) (c32 := FC.binary32) h rfl rfl with ⟨_, he, hd⟩ | ⟨_, he, hd⟩
    · exact ⟨FC.binary32, _, he, hd⟩
    · exact ⟨FC.binary8, _, he, hd⟩

theorem checkUtf8_ok {b : Bytes} (h : validUtf8 b = true) (s : Bytes) : checkUtf8 b s = .ok (b, s) := by
  simp [checkUtf8, h, Dec.pure_def]

instance : LawfulWire Str where
  rt b h := by
    rcases encVar_rt (c8 := FC.string8) (c32 := FC.string32) h.2 rfl rfl with ⟨_, he, hd⟩ | ⟨_, he, hd⟩
    · exact ⟨FC.string32, _, he, fun rest => by
        refine (Dec.bind_ok (hd rest)).trans ?_
        refine (Dec.bind_ok (checkUtf8_ok h.1 rest)).trans rfl⟩
    · exact ⟨FC.string8, _, he, fun rest => by
        refine (Dec.bind_ok (hd rest)).trans ?_
        refine (Dec.bind_ok (checkUtf8_ok h.1 rest)).trans rfl⟩

instance : LawfulWire Symbol where
  rt b h := by
    rcases encVar_rt (c8 := FC.symbol8) (c32 := FC.symbol32) h.2 rfl rfl with ⟨_, he, hd⟩ | ⟨_, he, hd⟩
    · exact ⟨FC.symbol32, _, he, fun rest => by
        refine (Dec.bind_ok (hd rest)).trans ?_
        refine (Dec.bind_ok (checkUtf8_ok h.1 rest)).trans rfl⟩
    · exact ⟨FC.symbol8, _, he, fun rest => by
        refine (Dec.bind_ok (hd rest)).trans ?_
        refine (Dec.bind_ok (checkUtf8_ok h.1 rest)).trans rfl⟩

/-! ### non-null -/

theorem encVar_nonNull {c8 c32 : UInt8} (b : Bytes) (h8 : c8 ≠ FC.null) (h32 : c32 ≠ FC.null) (tl : Bytes) :
    encVar c8 c32 b ≠ FC.null :: tl := by
  simp only [encVar]
  split <;> simp [h8, h32]

theorem cons_ne_null {c : UInt8} {l tl : Bytes} (h : c ≠ FC.null) : c :: l ≠ FC.null :: tl := by
  simp [h]

instance : NonNullWire Bool where nn b tl := by cases b <;> exact cons_ne_null (by decide)
instance : NonNullWire UInt8 where nn b tl := cons_ne_null (by decide)
instance : NonNullWire UInt16 where nn b tl := cons_ne_null (by decide)
instance : NonNullWire UInt32 where
  nn b tl := by
    simp only [enc]
    split
    · exact cons_ne_null (by decide)
    · split <;> exact cons_ne_null (by decide)
instance : NonNullWire UInt64 where
  nn b tl := by
    simp only [enc]
    split
    · exact cons_ne_null (by decide)
    · split <;> exact cons_ne_null (by decide)
instance : NonNullWire Int8 where nn b tl := cons_ne_null (by decide)
instance : NonNullWire Int16 where nn b tl := cons_ne_null (by decide)
instance : NonNullWire Int32 where nn b tl := by simp only [enc]; split <;> exact cons_ne_null (by decide)
instance : NonNullWire Int64 where nn b tl := by simp only [enc]; split <;> exact cons_ne_null (by decide)
instance : NonNullWire F32 where nn b tl := cons_ne_null (by decide)
instance : NonNullWire F64 where nn b tl := cons_ne_null (by decide)
instance : NonNullWire Char where nn b tl := cons_ne_null (by decide)
instance : NonNullWire Timestamp where nn b tl := cons_ne_null (by decide)
instance : NonNullWire Uuid where nn b tl := cons_ne_null (by decide)
instance : NonNullWire Bytes where nn b tl := encVar_nonNull b (by decide) (by decide) tl
instance : NonNullWire Str where nn b tl := encVar_nonNull b.bytes (by decide) (by decide) tl
instance : NonNullWire Symbol where nn b tl := encVar_nonNull b.bytes (by decide) (by decide) tl

instance [Wire α] [WF α] [LawfulWire α] [NonNullWire α] : LawfulWire (Option α) where
  rt o h := by
    cases o with
    | none => exact ⟨FC.null, [], rfl, fun rest => rfl⟩
    | some a =>
      obtain ⟨c, tl, he, hd⟩ := LawfulWire.rt a h
      refine ⟨c, tl, he, fun rest => ?_⟩
      have hc : c ≠ FC.null := fun hc => NonNullWire.nn a tl (by rw [he, hc])
      simp only [decF, if_neg hc]
      exact Dec.map_ok (hd rest)

/-! ### descriptors and constructors -/

/-- Descriptors are encoded with the 0x00 marker and decoded after it. -/
theorem descriptor_rt (d : Descriptor) (h : wf d) :
    ∃ c tl, enc d = FC.described :: c :: tl ∧ ∀ rest, (decF c : Dec Descriptor) (tl ++ rest) = .ok (d, rest) := by
  cases d with
  | ulong v =>
    have h0 : v ≠ 0 := h
    by_cases h1 : v > 255
    · exact ⟨FC.ulong, be 8 v.toNat, by simp [enc, h0, h1], fun rest => Dec.map_ok (rt_ulong v rest)⟩
    · exact ⟨FC.smallulong, [v.toUInt8], by simp [enc, h0, h1], fun rest => Dec.map_ok (rt_smallulong v h1 rest)⟩
  | symbol s =>
    have h : wf s := h
    rcases encVar_rt (c8 := FC.symbol8) (c32 := FC.symbol32) h.2 rfl rfl with ⟨_, he, hd⟩ | ⟨_, he, hd⟩
    · refine ⟨FC.symbol32, _, congrArg _ he, fun rest => ?_⟩
      refine Dec.map_ok (m := (decF FC.symbol32 : Dec Symbol)) ?_
      refine (Dec.bind_ok (hd rest)).trans ?_
      exact (Dec.bind_ok (checkUtf8_ok h.1 rest)).trans rfl
    · refine ⟨FC.symbol8, _, congrArg _ he, fun rest => ?_⟩
      refine Dec.map_ok (m := (decF FC.symbol8 : Dec Symbol)) ?_
      refine (Dec.bind_ok (hd rest)).trans ?_
      exact (Dec.bind_ok (checkUtf8_ok h.1 rest)).trans rfl

theorem descriptor_dec (d : Descriptor) (h : wf d) :
    ∃ tl, enc d = FC.described :: tl ∧ ∀ rest, (dec : Dec Descriptor) (tl ++ rest) = .ok (d, rest) := by
  obtain ⟨c, tl, he, hd⟩ := descriptor_rt d h
  exact ⟨c :: tl, he, hd⟩

instance : LawfulWire Constructor where
  rt c h := by
    cases c with
    | formatCode c =>
      have hc : c ≠ FC.described := h
      exact ⟨c, [], rfl, fun rest => by simp [decF, hc, Dec.pure_def]⟩
    | described d c =>
      obtain ⟨tl, he, hd⟩ := descriptor_dec d h
      refine ⟨FC.described, tl ++ [c], by simp [enc] at he ⊢; simp [he], fun rest => ?_⟩
      rw [List.append_assoc]
      exact (Dec.bind_ok (hd _)).trans rfl

/-! ### sizes -/

theorem encVar_length (c8 c32 : UInt8) (b : Bytes) : (encVar c8 c32 b).length = sizeVar b := by
  simp only [encVar, sizeVar]
  split <;> simp <;> omega

instance : SizeWire Bool where size_eq _ := rfl
instance : SizeWire UInt8 where size_eq _ := rfl
instance : SizeWire UInt16 where size_eq _ := by simp [enc, size]
instance : SizeWire UInt32 where
  size_eq _ := by
    simp only [enc, size]
    split
    · rfl
    · split <;> simp
instance : SizeWire UInt64 where
  size_eq _ := by
    simp only [enc, size]
    split
    · rfl
    · split <;> simp
instance : SizeWire Int8 where size_eq _ := rfl
instance : SizeWire Int16 where size_eq _ := by simp [enc, size]
instance : SizeWire Int32 where size_eq _ := by simp only [enc, size]; split <;> simp
instance : SizeWire Int64 where size_eq _ := by simp only [enc, size]; split <;> simp
instance : SizeWire F32 where size_eq _ := by simp [enc, size]
instance : SizeWire F64 where size_eq _ := by simp [enc, size]
instance : SizeWire Char where size_eq _ := by simp [enc, size]
instance : SizeWire Timestamp where size_eq _ := by simp [enc, size]
instance : SizeWire Uuid where size_eq b := by have := b.2; simp [enc, size, this]
instance : SizeWire Bytes where size_eq _ := encVar_length ..
instance : SizeWire Str where size_eq _ := encVar_length ..
instance : SizeWire Symbol where size_eq _ := encVar_length ..
instance [Wire α] [SizeWire α] : SizeWire (Option α) where
  size_eq o := by cases o with
    | none => rfl
    | some a => exact SizeWire.size_eq a
instance : SizeWire Descriptor where
  size_eq d := by
    cases d with
    | ulong v => have := SizeWire.size_eq v; simp only [enc, size] at this ⊢; simp [this]; omega
    | symbol v => have := SizeWire.size_eq v; simp only [enc, size] at this ⊢; simp [this]; omega
instance : SizeWire Constructor where
  size_eq c := by
    cases c with
    | formatCode c => rfl
    | described d c => have := SizeWire.size_eq d; simp only [enc, size] at this ⊢; simp [this]; omega

end Amqp
