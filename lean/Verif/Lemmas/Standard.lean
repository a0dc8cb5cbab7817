import Verif.Lemmas.Utf8
import Verif.Lemmas.Variant
/-! The primitive decoders against the standard encodings. -/

namespace Amqp
open Dec Standard

theorem foldl_unsigned (w : Bytes) (n : Nat) :
    w.foldl (fun n b => n * 256 + b.toNat) n = n * 256 ^ w.length + beNat w := by
  induction w generalizing n with
  | nil => simp [beNat]
  | cons b w ih =>
    rw [List.foldl_cons, ih, beNat, List.length_cons, Nat.pow_succ, Nat.add_mul]
    have : n * 256 * 256 ^ w.length = n * (256 ^ w.length * 256) := by
      rw [Nat.mul_assoc, Nat.mul_comm 256]
    omega

theorem unsigned_eq (w : Bytes) : unsigned w = beNat w := by
  rw [unsigned, foldl_unsigned]; simp

theorem unsigned_lt (w : Bytes) : unsigned w < 256 ^ w.length := by
  rw [unsigned_eq]; exact beNat_lt w

theorem unsigned_one (b : UInt8) : unsigned [b] = b.toNat := by simp [unsigned]

theorem readBE_ok (w rest : Bytes) {k : Nat} (h : w.length = k) : readBE k (w ++ rest) = .ok (unsigned w, rest) := by
  subst h
  simp [readBE, unsigned_eq]

theorem readBE_inv {k : Nat} {s r : Bytes} {n : Nat} (h : readBE k s = .ok (n, r)) :
    ∃ w, s = w ++ r ∧ w.length = k ∧ n = unsigned w := by
  simp only [readBE] at h
  split at h
  · simp at h
  · simp only [Except.ok.injEq, Prod.mk.injEq] at h
    refine ⟨s.take k, ?_, by simp; omega, ?_⟩
    · rw [← h.2, List.take_append_drop]
    · rw [unsigned_eq, h.1]

theorem readU8_inv {s r : Bytes} {b : UInt8} (h : readU8 s = .ok (b, r)) : s = b :: r := by
  cases s with
  | nil => simp [readU8] at h
  | cons a s =>
    simp only [readU8, Except.ok.injEq, Prod.mk.injEq] at h
    rw [h.1, h.2]

theorem splitTo_inv {n : Nat} {s r d : Bytes} (h : splitTo n s = .ok (d, r)) : s = d ++ r ∧ d.length = n := by
  simp only [splitTo] at h
  split at h
  · simp at h
  · simp only [Except.ok.injEq, Prod.mk.injEq] at h
    rw [← h.1, ← h.2]
    exact ⟨(List.take_append_drop _ _).symm, by simp; omega⟩

theorem bind_inv {m : Dec α} {f : α → Dec β} {s r : Bytes} {b : β} (h : (m >>= f) s = .ok (b, r)) :
    ∃ a r', m s = .ok (a, r') ∧ f a r' = .ok (b, r) := by
  rw [Dec.bind_def] at h
  cases hm : m s with
  | error e => rw [hm] at h; simp at h
  | ok p => obtain ⟨a, r'⟩ := p; rw [hm] at h; exact ⟨a, r', rfl, h⟩

theorem pure_inv {a b : α} {s r : Bytes} (h : (pure a : Dec α) s = .ok (b, r)) : a = b ∧ s = r := by
  rw [Dec.pure_def] at h
  simpa using h

theorem one_byte {w : Bytes} (h : w.length = 1) : ∃ b, w = [b] := by
  match w, h with
  | [b], _ => exact ⟨b, rfl⟩

theorem dec_inv [Wire α] {s r : Bytes} {v : α} (h : (dec : Dec α) s = .ok (v, r)) :
    ∃ c t, s = c :: t ∧ (decF c : Dec α) t = .ok (v, r) := by
  obtain ⟨c, t, h1, h2⟩ := bind_inv h
  exact ⟨c, t, readU8_inv h1, h2⟩

/-- `Reads` after the constructor. -/
def ReadsF (α : Type) [Wire α] [Form α] : Prop :=
  ∀ (c : UInt8) (w : Bytes) (v : α), form c w v → ∀ rest, (decF c : Dec α) (w ++ rest) = .ok (v, rest)

theorem ReadsF.reads [Wire α] [Form α] (h : ReadsF α) : Reads α := fun c w v hf rest => h c w v hf rest

theorem accepted_bool : ReadsF Bool := by
  rintro c w v (⟨rfl, rfl, rfl⟩ | ⟨rfl, rfl, rfl⟩ | ⟨rfl, rfl, rfl⟩ | ⟨rfl, rfl, rfl⟩) rest <;> rfl

theorem accepted_u8 : ReadsF UInt8 := by
  rintro c w v ⟨rfl, hl, hv⟩ rest
  obtain ⟨b, rfl⟩ := one_byte hl
  rw [unsigned_one, UInt8.toNat_inj] at hv
  subst hv; rfl

theorem accepted_u16 : ReadsF UInt16 := by
  rintro c w v ⟨rfl, hl, hv⟩ rest
  refine (Dec.map_ok (f := UInt16.ofNat) (readBE_ok w rest hl)).trans ?_
  rw [← hv]; simp

theorem accepted_u32 : ReadsF UInt32 := by
  rintro c w v (⟨rfl, hl, hv⟩ | ⟨rfl, hl, hv⟩ | ⟨rfl, rfl, rfl⟩) rest
  · refine (Dec.map_ok (f := UInt32.ofNat) (readBE_ok w rest hl)).trans ?_
    rw [← hv]; simp
  · obtain ⟨b, rfl⟩ := one_byte hl
    rw [unsigned_one] at hv
    refine (Dec.map_ok (f := UInt8.toUInt32) (readU8_cons b rest)).trans ?_
    have : b.toUInt32 = v := by rw [← UInt32.toNat_inj, hv]; simp
    rw [this]
  · rfl

theorem accepted_u64 : ReadsF UInt64 := by
  rintro c w v (⟨rfl, hl, hv⟩ | ⟨rfl, hl, hv⟩ | ⟨rfl, rfl, rfl⟩) rest
  · refine (Dec.map_ok (f := UInt64.ofNat) (readBE_ok w rest hl)).trans ?_
    rw [← hv]; simp
  · obtain ⟨b, rfl⟩ := one_byte hl
    rw [unsigned_one] at hv
    refine (Dec.map_ok (f := UInt8.toUInt64) (readU8_cons b rest)).trans ?_
    have : b.toUInt64 = v := by rw [← UInt64.toNat_inj, hv]; simp
    rw [this]
  · rfl

theorem i8_signed (b : UInt8) : b.toInt8.toInt = signed [b] := by
  have h := b.toNat_lt
  have : b.toInt8.toInt = (b.toNat : Int).bmod 256 := by
    rw [← Int8.toInt_toBitVec]; simp [BitVec.toInt_eq_toNat_bmod]
  rw [this, signed, unsigned_one, Int.bmod_def]
  simp only [List.length_cons, List.length_nil]
  split <;> split <;> omega

theorem i16_signed (w : Bytes) (h : w.length = 2) : (UInt16.ofNat (unsigned w)).toInt16.toInt = signed w := by
  have hl := unsigned_lt w
  rw [h] at hl
  have : (UInt16.ofNat (unsigned w)).toInt16.toInt = (unsigned w : Int).bmod 65536 := by
    rw [← Int16.toInt_toBitVec]; simp only [BitVec.toInt_eq_toNat_bmod]; simp
    congr 1; omega
  rw [this, signed, h, Int.bmod_def]
  split <;> split <;> omega

theorem i32_signed (w : Bytes) (h : w.length = 4) : (UInt32.ofNat (unsigned w)).toInt32.toInt = signed w := by
  have hl := unsigned_lt w
  rw [h] at hl
  have : (UInt32.ofNat (unsigned w)).toInt32.toInt = (unsigned w : Int).bmod 4294967296 := by
    rw [← Int32.toInt_toBitVec]; simp only [BitVec.toInt_eq_toNat_bmod]; simp
    congr 1; omega
  rw [this, signed, h, Int.bmod_def]
  split <;> split <;> omega

theorem i64_signed (w : Bytes) (h : w.length = 8) : (UInt64.ofNat (unsigned w)).toInt64.toInt = signed w := by
  have hl := unsigned_lt w
  rw [h] at hl
  have : (UInt64.ofNat (unsigned w)).toInt64.toInt = (unsigned w : Int).bmod 18446744073709551616 := by
    rw [← Int64.toInt_toBitVec]; simp only [BitVec.toInt_eq_toNat_bmod]; simp
    congr 1; omega
  rw [this, signed, h, Int.bmod_def]
  split <;> split <;> omega

theorem i32_signed8 (b : UInt8) : b.toInt8.toInt32.toInt = signed [b] := by
  rw [← i8_signed]; simp

theorem i64_signed8 (b : UInt8) : b.toInt8.toInt64.toInt = signed [b] := by
  rw [← i8_signed]; simp

theorem accepted_i8 : ReadsF Int8 := by
  rintro c w v ⟨rfl, hl, hv⟩ rest
  obtain ⟨b, rfl⟩ := one_byte hl
  rw [← i8_signed, Int8.toInt_inj] at hv
  subst hv; rfl

theorem accepted_i16 : ReadsF Int16 := by
  rintro c w v ⟨rfl, hl, hv⟩ rest
  refine (Dec.map_ok (f := fun n => (UInt16.ofNat n).toInt16) (readBE_ok w rest hl)).trans ?_
  rw [← i16_signed w hl, Int16.toInt_inj] at hv
  rw [hv]

theorem accepted_i32 : ReadsF Int32 := by
  rintro c w v (⟨rfl, hl, hv⟩ | ⟨rfl, hl, hv⟩) rest
  · refine (Dec.map_ok (f := fun n => (UInt32.ofNat n).toInt32) (readBE_ok w rest hl)).trans ?_
    rw [← i32_signed w hl, Int32.toInt_inj] at hv
    rw [hv]
  · obtain ⟨b, rfl⟩ := one_byte hl
    rw [← i32_signed8, Int32.toInt_inj] at hv
    subst hv; rfl

theorem accepted_i64 : ReadsF Int64 := by
  rintro c w v (⟨rfl, hl, hv⟩ | ⟨rfl, hl, hv⟩) rest
  · refine (Dec.map_ok (f := fun n => (UInt64.ofNat n).toInt64) (readBE_ok w rest hl)).trans ?_
    rw [← i64_signed w hl, Int64.toInt_inj] at hv
    rw [hv]
  · obtain ⟨b, rfl⟩ := one_byte hl
    rw [← i64_signed8, Int64.toInt_inj] at hv
    subst hv; rfl

theorem accepted_f32 : ReadsF F32 := by
  rintro c w ⟨v⟩ ⟨rfl, hl, hv⟩ rest
  refine (Dec.map_ok (f := fun n => (⟨UInt32.ofNat n⟩ : F32)) (readBE_ok w rest hl)).trans ?_
  rw [← hv]; simp

theorem accepted_f64 : ReadsF F64 := by
  rintro c w ⟨v⟩ ⟨rfl, hl, hv⟩ rest
  refine (Dec.map_ok (f := fun n => (⟨UInt64.ofNat n⟩ : F64)) (readBE_ok w rest hl)).trans ?_
  rw [← hv]; simp

theorem accepted_char : ReadsF Char := by
  rintro c w v ⟨rfl, hl, hv⟩ rest
  have hval : UInt32.ofNat (unsigned w) = v.val := by
    rw [← hv]; exact UInt32.ofNat_toNat
  simp only [decF]
  rw [if_pos trivial, Dec.bind_ok (readBE_ok w rest hl), dif_pos (by rw [hval]; exact v.valid), Dec.pure_def]
  congr 2
  exact Char.ext hval

theorem accepted_uuid : ReadsF Uuid := by
  rintro c w v ⟨rfl, rfl⟩ rest
  exact readFixed_append 16 v rest

theorem readBytesU8_ok {w data : Bytes} (h : varWidth 1 w data) (rest : Bytes) :
    readBytesU8 (w ++ rest) = .ok (data, rest) := by
  obtain ⟨len, rfl, hl, hv⟩ := h
  obtain ⟨b, rfl⟩ := one_byte hl
  rw [unsigned_one] at hv
  rw [List.append_assoc]
  exact (Dec.bind_ok (readU8_cons _ _)).trans (splitTo_append _ _ _ hv)

theorem readBytesU32_ok {w data : Bytes} (h : varWidth 4 w data) (rest : Bytes) :
    readBytesU32 (w ++ rest) = .ok (data, rest) := by
  obtain ⟨len, rfl, hl, hv⟩ := h
  rw [List.append_assoc]
  exact (Dec.bind_ok (readBE_ok _ _ hl)).trans (splitTo_append _ _ _ hv)

theorem accepted_bytes : ReadsF Bytes := by
  rintro c w v (⟨rfl, h⟩ | ⟨rfl, h⟩) rest
  · exact readBytesU8_ok h rest
  · exact readBytesU32_ok h rest

theorem accepted_str : ReadsF Str := by
  rintro c w v ⟨h, hu⟩ rest
  have hu := (validUtf8_iff _).2 hu
  rcases h with ⟨rfl, h⟩ | ⟨rfl, h⟩
  · exact (Dec.bind_ok (readBytesU8_ok h rest)).trans ((Dec.bind_ok (checkUtf8_ok hu rest)).trans rfl)
  · exact (Dec.bind_ok (readBytesU32_ok h rest)).trans ((Dec.bind_ok (checkUtf8_ok hu rest)).trans rfl)

theorem accepted_symbol : ReadsF Symbol := by
  rintro c w v ⟨h, hu⟩ rest
  have hu := validUtf8_ascii _ hu
  rcases h with ⟨rfl, h⟩ | ⟨rfl, h⟩
  · exact (Dec.bind_ok (readBytesU8_ok h rest)).trans ((Dec.bind_ok (checkUtf8_ok hu rest)).trans rfl)
  · exact (Dec.bind_ok (readBytesU32_ok h rest)).trans ((Dec.bind_ok (checkUtf8_ok hu rest)).trans rfl)

theorem accepted_descriptor : ReadsF Descriptor := by
  rintro c w (v | s) h rest
  · obtain ⟨h, hc⟩ := h
    have hd := accepted_u64 c w v h rest
    rcases h with ⟨rfl, _⟩ | ⟨rfl, _⟩ | ⟨rfl, _⟩
    · exact Dec.map_ok (f := Descriptor.ulong) hd
    · exact Dec.map_ok (f := Descriptor.ulong) hd
    · exact absurd rfl hc
  · have hd := accepted_symbol c w s h rest
    rcases h with ⟨⟨rfl, _⟩ | ⟨rfl, _⟩, _⟩
    · exact Dec.map_ok (f := Descriptor.symbol) hd
    · exact Dec.map_ok (f := Descriptor.symbol) hd

/-- Timestamps from the epoch on, and most of those before it. -/
theorem accepted_timestamp {c : UInt8} {w : Bytes} {v : Timestamp} (h : form c w v)
    (h0 : 0 ≤ v.secs ∨ v.secs ≤ -2 ∧ v.nanos ≠ 0) (rest : Bytes) :
    (decF c : Dec Timestamp) (w ++ rest) = .ok (v, rest) := by
  obtain ⟨rfl, hl, hn, hm, h1, h2, hv⟩ := h
  simp only [decF]
  rw [if_pos trivial, Dec.bind_ok (readBE_ok w rest hl), i64_signed w hl, ← hv]
  have := datetimeFromMillis_millis v ⟨h1, h2, hn, hm, h0⟩
  rw [timestampMillis] at this
  rw [this]
  rfl

/-! ### nothing else -/

theorem only_u8 : OnlyReads UInt8 := by
  intro s v r h
  obtain ⟨c, t, rfl, h'⟩ := dec_inv h
  clear h; have h := h'; clear h'
  simp only [decF] at h
  split at h
  · rename_i hc
    exact ⟨c, [v], ⟨hc, rfl, (unsigned_one v).symm⟩, by rw [readU8_inv h]; rfl⟩
  · simp [Dec.fail_def] at h

theorem only_u16 : OnlyReads UInt16 := by
  intro s v r h
  obtain ⟨c, t, rfl, h'⟩ := dec_inv h
  clear h; have h := h'; clear h'
  simp only [decF] at h
  split at h
  · rename_i hc
    obtain ⟨n, r', h1, h2⟩ := bind_inv h
    obtain ⟨w, rfl, hl, rfl⟩ := readBE_inv h1
    obtain ⟨rfl, rfl⟩ := pure_inv h2
    have := unsigned_lt w
    refine ⟨c, w, ⟨hc, hl, ?_⟩, rfl⟩
    rw [hl] at this
    simp; omega
  · simp [Dec.fail_def] at h

theorem only_u32 : OnlyReads UInt32 := by
  intro s v r h
  obtain ⟨c, t, rfl, h'⟩ := dec_inv h
  clear h; have h := h'; clear h'
  simp only [decF] at h
  split at h
  · rename_i hc
    obtain ⟨n, r', h1, h2⟩ := bind_inv h
    obtain ⟨w, rfl, hl, rfl⟩ := readBE_inv h1
    obtain ⟨rfl, rfl⟩ := pure_inv h2
    have := unsigned_lt w
    refine ⟨c, w, .inl ⟨hc, hl, ?_⟩, rfl⟩
    rw [hl] at this
    simp; omega
  split at h
  · rename_i hc
    obtain ⟨b, r', h1, h2⟩ := bind_inv h
    obtain ⟨rfl, rfl⟩ := pure_inv h2
    exact ⟨c, [b], .inr (.inl ⟨hc, rfl, by rw [unsigned_one]; simp⟩), by rw [readU8_inv h1]; rfl⟩
  split at h
  · rename_i hc
    obtain ⟨rfl, rfl⟩ := pure_inv h
    exact ⟨c, [], .inr (.inr ⟨hc, rfl, rfl⟩), rfl⟩
  · simp [Dec.fail_def] at h

theorem only_u64 : OnlyReads UInt64 := by
  intro s v r h
  obtain ⟨c, t, rfl, h'⟩ := dec_inv h
  clear h; have h := h'; clear h'
  simp only [decF] at h
  split at h
  · rename_i hc
    obtain ⟨n, r', h1, h2⟩ := bind_inv h
    obtain ⟨w, rfl, hl, rfl⟩ := readBE_inv h1
    obtain ⟨rfl, rfl⟩ := pure_inv h2
    have := unsigned_lt w
    refine ⟨c, w, .inl ⟨hc, hl, ?_⟩, rfl⟩
    rw [hl] at this
    simp; omega
  split at h
  · rename_i hc
    obtain ⟨b, r', h1, h2⟩ := bind_inv h
    obtain ⟨rfl, rfl⟩ := pure_inv h2
    exact ⟨c, [b], .inr (.inl ⟨hc, rfl, by rw [unsigned_one]; simp⟩), by rw [readU8_inv h1]; rfl⟩
  split at h
  · rename_i hc
    obtain ⟨rfl, rfl⟩ := pure_inv h
    exact ⟨c, [], .inr (.inr ⟨hc, rfl, rfl⟩), rfl⟩
  · simp [Dec.fail_def] at h

theorem readI8_inv {s r : Bytes} {v : Int8} (h : readI8 s = .ok (v, r)) : ∃ b, s = b :: r ∧ v.toInt = signed [b] := by
  obtain ⟨b, r', h1, h2⟩ := bind_inv h
  obtain ⟨rfl, rfl⟩ := pure_inv h2
  exact ⟨b, readU8_inv h1, i8_signed b⟩

theorem only_i8 : OnlyReads Int8 := by
  intro s v r h
  obtain ⟨c, t, rfl, h'⟩ := dec_inv h
  clear h; have h := h'; clear h'
  simp only [decF] at h
  split at h
  · rename_i hc
    obtain ⟨b, rfl, hv⟩ := readI8_inv h
    exact ⟨c, [b], ⟨hc, rfl, hv⟩, rfl⟩
  · simp [Dec.fail_def] at h

theorem only_i16 : OnlyReads Int16 := by
  intro s v r h
  obtain ⟨c, t, rfl, h'⟩ := dec_inv h
  clear h; have h := h'; clear h'
  simp only [decF] at h
  split at h
  · rename_i hc
    obtain ⟨n, r', h1, h2⟩ := bind_inv h
    obtain ⟨w, rfl, hl, rfl⟩ := readBE_inv h1
    obtain ⟨rfl, rfl⟩ := pure_inv h2
    exact ⟨c, w, ⟨hc, hl, i16_signed w hl⟩, rfl⟩
  · simp [Dec.fail_def] at h

theorem only_i32 : OnlyReads Int32 := by
  intro s v r h
  obtain ⟨c, t, rfl, h'⟩ := dec_inv h
  clear h; have h := h'; clear h'
  simp only [decF] at h
  split at h
  · rename_i hc
    obtain ⟨n, r', h1, h2⟩ := bind_inv h
    obtain ⟨w, rfl, hl, rfl⟩ := readBE_inv h1
    obtain ⟨rfl, rfl⟩ := pure_inv h2
    exact ⟨c, w, .inl ⟨hc, hl, i32_signed w hl⟩, rfl⟩
  split at h
  · rename_i hc
    obtain ⟨v', r', h1, h2⟩ := bind_inv h
    obtain ⟨b, rfl, hv⟩ := readI8_inv h1
    obtain ⟨rfl, rfl⟩ := pure_inv h2
    exact ⟨c, [b], .inr ⟨hc, rfl, by rw [← hv]; simp⟩, rfl⟩
  · simp [Dec.fail_def] at h

theorem only_i64 : OnlyReads Int64 := by
  intro s v r h
  obtain ⟨c, t, rfl, h'⟩ := dec_inv h
  clear h; have h := h'; clear h'
  simp only [decF] at h
  split at h
  · rename_i hc
    obtain ⟨n, r', h1, h2⟩ := bind_inv h
    obtain ⟨w, rfl, hl, rfl⟩ := readBE_inv h1
    obtain ⟨rfl, rfl⟩ := pure_inv h2
    exact ⟨c, w, .inl ⟨hc, hl, i64_signed w hl⟩, rfl⟩
  split at h
  · rename_i hc
    obtain ⟨v', r', h1, h2⟩ := bind_inv h
    obtain ⟨b, rfl, hv⟩ := readI8_inv h1
    obtain ⟨rfl, rfl⟩ := pure_inv h2
    exact ⟨c, [b], .inr ⟨hc, rfl, by rw [← hv]; simp⟩, rfl⟩
  · simp [Dec.fail_def] at h

theorem only_f32 : OnlyReads F32 := by
  intro s v r h
  obtain ⟨c, t, rfl, h'⟩ := dec_inv h
  clear h; have h := h'; clear h'
  simp only [decF] at h
  split at h
  · rename_i hc
    obtain ⟨n, r', h1, h2⟩ := bind_inv h
    obtain ⟨w, rfl, hl, rfl⟩ := readBE_inv h1
    obtain ⟨rfl, rfl⟩ := pure_inv h2
    have := unsigned_lt w
    refine ⟨c, w, ⟨hc, hl, ?_⟩, rfl⟩
    rw [hl] at this
    simp; omega
  · simp [Dec.fail_def] at h

theorem only_f64 : OnlyReads F64 := by
  intro s v r h
  obtain ⟨c, t, rfl, h'⟩ := dec_inv h
  clear h; have h := h'; clear h'
  simp only [decF] at h
  split at h
  · rename_i hc
    obtain ⟨n, r', h1, h2⟩ := bind_inv h
    obtain ⟨w, rfl, hl, rfl⟩ := readBE_inv h1
    obtain ⟨rfl, rfl⟩ := pure_inv h2
    have := unsigned_lt w
    refine ⟨c, w, ⟨hc, hl, ?_⟩, rfl⟩
    rw [hl] at this
    simp; omega
  · simp [Dec.fail_def] at h

theorem only_char : OnlyReads Char := by
  intro s v r h
  obtain ⟨c, t, rfl, h'⟩ := dec_inv h
  clear h; have h := h'; clear h'
  simp only [decF] at h
  split at h
  · rename_i hc
    obtain ⟨n, r', h1, h2⟩ := bind_inv h
    obtain ⟨w, rfl, hl, rfl⟩ := readBE_inv h1
    split at h2
    · obtain ⟨rfl, rfl⟩ := pure_inv h2
      have := unsigned_lt w
      refine ⟨c, w, ⟨hc, hl, ?_⟩, rfl⟩
      rw [hl] at this
      show (UInt32.ofNat _).toNat = _
      simp; omega
    · simp [Dec.fail_def] at h2
  · simp [Dec.fail_def] at h

theorem only_uuid : OnlyReads Uuid := by
  intro s v r h
  obtain ⟨c, t, rfl, h'⟩ := dec_inv h
  clear h; have h := h'; clear h'
  simp only [decF] at h
  split at h
  · rename_i hc
    refine ⟨c, v.1, ⟨hc, rfl⟩, ?_⟩
    simp only [readFixed] at h
    split at h
    · simp at h
    · simp only [Except.ok.injEq, Prod.mk.injEq] at h
      rw [← h.1, ← h.2]
      simp
  · simp [Dec.fail_def] at h

theorem readBytesU8_inv {s r d : Bytes} (h : readBytesU8 s = .ok (d, r)) : ∃ w, s = w ++ r ∧ varWidth 1 w d := by
  obtain ⟨b, r', h1, h2⟩ := bind_inv h
  obtain ⟨rfl, hl⟩ := splitTo_inv h2
  exact ⟨b :: d, by rw [readU8_inv h1]; rfl, [b], rfl, rfl, by rw [unsigned_one, hl]⟩

theorem readBytesU32_inv {s r d : Bytes} (h : readBytesU32 s = .ok (d, r)) : ∃ w, s = w ++ r ∧ varWidth 4 w d := by
  obtain ⟨n, r', h1, h2⟩ := bind_inv h
  obtain ⟨rfl, hl⟩ := splitTo_inv h2
  obtain ⟨w, rfl, hw, rfl⟩ := readBE_inv h1
  exact ⟨w ++ d, by simp, w, rfl, hw, hl.symm⟩

theorem only_bytes : OnlyReads Bytes := by
  intro s v r h
  obtain ⟨c, t, rfl, h'⟩ := dec_inv h
  clear h; have h := h'; clear h'
  simp only [decF] at h
  split at h
  · rename_i hc
    obtain ⟨w, rfl, hw⟩ := readBytesU8_inv h
    exact ⟨c, w, .inl ⟨hc, hw⟩, rfl⟩
  split at h
  · rename_i hc
    obtain ⟨w, rfl, hw⟩ := readBytesU32_inv h
    exact ⟨c, w, .inr ⟨hc, hw⟩, rfl⟩
  · simp [Dec.fail_def] at h

theorem checkUtf8_inv {b d s r : Bytes} (h : checkUtf8 b s = .ok (d, r)) : b = d ∧ s = r ∧ validUtf8 b = true := by
  simp only [checkUtf8] at h
  split at h
  · rename_i hv
    obtain ⟨h1, h2⟩ := pure_inv h
    exact ⟨h1, h2, hv⟩
  · simp [Dec.fail_def] at h

theorem only_str : OnlyReads Str := by
  intro s v r h
  obtain ⟨c, t, rfl, h'⟩ := dec_inv h
  clear h; have h := h'; clear h'
  simp only [decF] at h
  split at h
  · rename_i hc
    obtain ⟨d, r', h1, h2⟩ := bind_inv h
    obtain ⟨w, rfl, hw⟩ := readBytesU8_inv h1
    obtain ⟨d', r'', h3, h4⟩ := bind_inv h2
    obtain ⟨rfl, rfl, hv⟩ := checkUtf8_inv h3
    obtain ⟨rfl, rfl⟩ := pure_inv h4
    exact ⟨c, w, ⟨.inl ⟨hc, hw⟩, (validUtf8_iff _).1 hv⟩, rfl⟩
  split at h
  · rename_i hc
    obtain ⟨d, r', h1, h2⟩ := bind_inv h
    obtain ⟨w, rfl, hw⟩ := readBytesU32_inv h1
    obtain ⟨d', r'', h3, h4⟩ := bind_inv h2
    obtain ⟨rfl, rfl, hv⟩ := checkUtf8_inv h3
    obtain ⟨rfl, rfl⟩ := pure_inv h4
    exact ⟨c, w, ⟨.inr ⟨hc, hw⟩, (validUtf8_iff _).1 hv⟩, rfl⟩
  · simp [Dec.fail_def] at h

/-- A symbol is decoded from the standard form, except that it may be any UTF-8. -/
theorem symbol_inv {s r : Bytes} {v : Symbol} (h : (dec : Dec Symbol) s = .ok (v, r)) :
    ∃ c w, ((c = 0xa3 ∧ varWidth 1 w v.bytes) ∨ (c = 0xb3 ∧ varWidth 4 w v.bytes)) ∧ s = c :: w ++ r ∧
      ∃ cs, v.bytes = utf8 cs := by
  obtain ⟨c, t, rfl, h'⟩ := dec_inv h
  clear h; have h := h'; clear h'
  simp only [decF] at h
  split at h
  · rename_i hc
    obtain ⟨d, r', h1, h2⟩ := bind_inv h
    obtain ⟨w, rfl, hw⟩ := readBytesU8_inv h1
    obtain ⟨d', r'', h3, h4⟩ := bind_inv h2
    obtain ⟨rfl, rfl, hv⟩ := checkUtf8_inv h3
    obtain ⟨rfl, rfl⟩ := pure_inv h4
    exact ⟨c, w, .inl ⟨hc, hw⟩, rfl, (validUtf8_iff _).1 hv⟩
  split at h
  · rename_i hc
    obtain ⟨d, r', h1, h2⟩ := bind_inv h
    obtain ⟨w, rfl, hw⟩ := readBytesU32_inv h1
    obtain ⟨d', r'', h3, h4⟩ := bind_inv h2
    obtain ⟨rfl, rfl, hv⟩ := checkUtf8_inv h3
    obtain ⟨rfl, rfl⟩ := pure_inv h4
    exact ⟨c, w, .inr ⟨hc, hw⟩, rfl, (validUtf8_iff _).1 hv⟩
  · simp [Dec.fail_def] at h

/-- A boolean is decoded from the standard form, except that after 0x56 any byte other than 0 is true. -/
theorem bool_inv {s r : Bytes} {v : Bool} (h : (dec : Dec Bool) s = .ok (v, r)) :
    (s = 0x41 :: r ∧ v = true) ∨ (s = 0x42 :: r ∧ v = false) ∨ ∃ b, s = 0x56 :: b :: r ∧ (v = true ↔ b ≠ 0) := by
  obtain ⟨c, t, rfl, h'⟩ := dec_inv h
  clear h; have h := h'; clear h'
  simp only [decF] at h
  split at h
  · rename_i hc
    obtain ⟨b, r', h1, h2⟩ := bind_inv h
    obtain ⟨rfl, rfl⟩ := pure_inv h2
    rw [hc, readU8_inv h1]
    exact .inr (.inr ⟨b, rfl, by simp⟩)
  split at h
  · rename_i hc
    obtain ⟨rfl, rfl⟩ := pure_inv h
    exact .inl ⟨by rw [hc], rfl⟩
  split at h
  · rename_i hc
    obtain ⟨rfl, rfl⟩ := pure_inv h
    exact .inr (.inl ⟨by rw [hc], rfl⟩)
  · simp [Dec.fail_def] at h

end Amqp
