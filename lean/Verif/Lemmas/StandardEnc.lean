import Verif.Lemmas.StandardTree
/-! The encoders write standard encodings. -/

namespace Amqp
open Dec Standard

/-- What round-trips through a decoder of standard encodings is a standard encoding. -/
theorem enc_form [Wire α] [WF α] [LawfulWire α] [Form α] (ho : OnlyReads α) (v : α) (hv : wf v) :
    ∃ c w, enc v = c :: w ∧ form c w v := by
  have h := rt_dec hv []
  rw [List.append_nil] at h
  obtain ⟨c, w, hf, he⟩ := ho _ _ _ h
  exact ⟨c, w, by simpa using he, hf⟩

theorem enc_bool (v : Bool) : ∃ c w, enc v = c :: w ∧ form c w v := by
  cases v
  · exact ⟨0x42, [], rfl, .inr (.inl ⟨rfl, rfl, rfl⟩)⟩
  · exact ⟨0x41, [], rfl, .inl ⟨rfl, rfl, rfl⟩⟩

theorem enc_symbol (v : Symbol) (hv : ∀ b ∈ v.bytes, b < 128) (hl : v.bytes.length < U32) :
    ∃ c w, enc v = c :: w ∧ form c w v := by
  have hw : wf v := ⟨validUtf8_ascii _ hv, hl⟩
  have h := rt_dec hw []
  rw [List.append_nil] at h
  obtain ⟨c, w, hf, he, _⟩ := symbol_inv h
  exact ⟨c, w, by simpa using he, hf, hv⟩

theorem unsigned_be (k n : Nat) (h : n < 256 ^ k) : unsigned (be k n) = n := by
  rw [unsigned_eq, beNat_be, Nat.mod_eq_of_lt h]

theorem enc_timestamp (v : Timestamp) (h : wfTimestamp v) :
    ∃ c w, enc v = c :: w ∧ form c w v ∧ (0 ≤ v.secs ∨ v.secs ≤ -2 ∧ v.nanos ≠ 0) := by
  obtain ⟨h1, h2, h3, h4, h5⟩ := h
  refine ⟨_, _, rfl, ⟨rfl, be_length _ _, h3, h4, h1, h2, ?_⟩, h5⟩
  rw [← i64_signed _ (be_length _ _), unsigned_be _ _ (UInt64.toNat_lt _), UInt64.ofNat_toNat]
  simp only [minSecs, maxSecs] at h1 h2
  have : (Int64.ofInt (timestampMillis v)).toUInt64.toInt64 = Int64.ofInt (timestampMillis v) := by simp
  rw [this, Int64_ofInt_toInt_of_small]
  · rfl
  · simp only [timestampMillis]; omega
  · simp only [timestampMillis]; omega

theorem enc_descriptor (d : Descriptor) (hw : wf d) (ha : descriptorAscii d) :
    ∃ c w, enc d = 0 :: c :: w ∧ form c w d := by
  cases d with
  | ulong v =>
    obtain ⟨c, w, he, hf⟩ := enc_form only_u64 v trivial
    refine ⟨c, w, by simp only [enc] at he ⊢; rw [he], hf, ?_⟩
    rintro rfl
    have hv : v ≠ 0 := hw
    rcases hf with ⟨h, _⟩ | ⟨h, _⟩ | ⟨_, _, h⟩
    · exact absurd h (by decide)
    · exact absurd h (by decide)
    · exact hv h
  | symbol s =>
    obtain ⟨c, w, he, hf⟩ := enc_symbol s ha (show wf s from hw).2
    exact ⟨c, w, by simp only [enc] at he ⊢; rw [he], hf⟩

theorem encHeader_compounds {c8 c32 : UInt8} {size count : Nat} {body : Bytes} (hb : body.length = size)
    (hs : size + 4 < U32) (hc : count < U32) (hc8 : size + 1 ≤ 255 → count < 256) :
    ∃ c w, encHeader c8 c32 size count ++ body = c :: w ∧ compounds c8 c32 count c w body := by
  by_cases h : size + 1 > 255
  · refine ⟨c32, be 4 (size + 4) ++ be 4 count ++ body, by simp only [encHeader, if_pos h, List.cons_append],
      .inr ⟨rfl, _, _, rfl, be_length _ _, be_length _ _, ?_, ?_⟩⟩
    · rw [unsigned_be _ _ (by simpa using hs), hb]; omega
    · exact unsigned_be _ _ (by simpa using hc)
  · refine ⟨c8, be 1 (size + 1) ++ be 1 count ++ body, by simp only [encHeader, if_neg h, List.cons_append],
      .inl ⟨rfl, _, _, rfl, be_length _ _, be_length _ _, ?_, ?_⟩⟩
    · rw [unsigned_be _ _ (by omega), hb]; omega
    · exact unsigned_be _ _ (by have := hc8 (by omega); omega)

mutual
theorem enc_tree : ∀ v : Variant, v.wfv → writable v → ∃ c w, v.venc = c :: w ∧ Tree c w v
  | .null, _, _ => ⟨_, _, rfl, .scalar ⟨rfl, rfl⟩⟩
  | .boolean v, _, _ => by obtain ⟨c, w, he, hf⟩ := enc_bool v; exact ⟨c, w, he, .scalar hf⟩
  | .ubyte v, _, _ => by obtain ⟨c, w, he, hf⟩ := enc_form only_u8 v trivial; exact ⟨c, w, he, .scalar hf⟩
  | .ushort v, _, _ => by obtain ⟨c, w, he, hf⟩ := enc_form only_u16 v trivial; exact ⟨c, w, he, .scalar hf⟩
  | .uint v, _, _ => by obtain ⟨c, w, he, hf⟩ := enc_form only_u32 v trivial; exact ⟨c, w, he, .scalar hf⟩
  | .ulong v, _, _ => by obtain ⟨c, w, he, hf⟩ := enc_form only_u64 v trivial; exact ⟨c, w, he, .scalar hf⟩
  | .byte v, _, _ => by obtain ⟨c, w, he, hf⟩ := enc_form only_i8 v trivial; exact ⟨c, w, he, .scalar hf⟩
  | .short v, _, _ => by obtain ⟨c, w, he, hf⟩ := enc_form only_i16 v trivial; exact ⟨c, w, he, .scalar hf⟩
  | .int v, _, _ => by obtain ⟨c, w, he, hf⟩ := enc_form only_i32 v trivial; exact ⟨c, w, he, .scalar hf⟩
  | .long v, _, _ => by obtain ⟨c, w, he, hf⟩ := enc_form only_i64 v trivial; exact ⟨c, w, he, .scalar hf⟩
  | .float v, _, _ => by obtain ⟨c, w, he, hf⟩ := enc_form only_f32 v trivial; exact ⟨c, w, he, .scalar hf⟩
  | .double v, _, _ => by obtain ⟨c, w, he, hf⟩ := enc_form only_f64 v trivial; exact ⟨c, w, he, .scalar hf⟩
  | .decimal32 v, _, _ => ⟨_, _, rfl, .scalar ⟨rfl, rfl⟩⟩
  | .decimal64 v, _, _ => ⟨_, _, rfl, .scalar ⟨rfl, rfl⟩⟩
  | .decimal128 v, _, _ => ⟨_, _, rfl, .scalar ⟨rfl, rfl⟩⟩
  | .char v, _, _ => by obtain ⟨c, w, he, hf⟩ := enc_form only_char v trivial; exact ⟨c, w, he, .scalar hf⟩
  | .timestamp v, h, _ => by obtain ⟨c, w, he, hf⟩ := enc_timestamp v h; exact ⟨c, w, he, .scalar hf⟩
  | .uuid v, _, _ => by obtain ⟨c, w, he, hf⟩ := enc_form only_uuid v trivial; exact ⟨c, w, he, .scalar hf⟩
  | .binary v, h, _ => by obtain ⟨c, w, he, hf⟩ := enc_form only_bytes v h; exact ⟨c, w, he, .scalar hf⟩
  | .string v, h, _ => by obtain ⟨c, w, he, hf⟩ := enc_form only_str v h; exact ⟨c, w, he, .scalar hf⟩
  | .symbol v, h, ha => by
      obtain ⟨c, w, he, hf⟩ := enc_symbol v (by simpa only [writable] using ha) (show wf v from h).2
      exact ⟨c, w, he, .scalar hf⟩
  | .list l, h, ha => by
      simp only [Variant.wfv] at h
      simp only [writable] at ha
      have hlen := h.2
      rw [listEnc_length] at hlen
      have hge := listSize_ge l
      obtain ⟨c, w, he, hc⟩ := encHeader_compounds (c8 := FC.list8) (c32 := FC.list32) (listEnc_length l)
        (count := l.length) hlen (by omega) (by omega)
      exact ⟨c, w, he, .list hc (enc_trees l h.1 ha)⟩
  | .map m, h, ha => by
      simp only [Variant.wfv] at h
      simp only [writable] at ha
      have hlen := h.2.1
      rw [mapEnc_length] at hlen
      have hge := mapSize_ge m
      obtain ⟨c, w, he, hc⟩ := encHeader_compounds (c8 := FC.map8) (c32 := FC.map32) (mapEnc_length m)
        (count := m.length * 2) hlen (by omega) (by omega)
      rw [Nat.mul_comm m.length 2] at hc
      exact ⟨c, w, he, .map hc (enc_pairs m h.1 ha) h.2.2⟩
  | .array count ctor payload, h, ha => by
      simp only [Variant.wfv] at h
      obtain ⟨hct, hs, hcnt⟩ := h
      have hsz := SizeWire.size_eq ctor
      obtain ⟨c, w, he, hc⟩ := encHeader_compounds (c8 := FC.array8) (c32 := FC.array32)
        (body := enc ctor ++ payload) (size := size ctor + payload.length) (by simp [hsz])
        (count := count.toNat) (by omega) (by simp)
        (fun h => by
          have := hcnt (by omega)
          simpa [UInt32.lt_iff_toNat_lt] using this)
      refine ⟨c, w, by rw [← he]; simp [Variant.venc], ?_⟩
      cases ctor with
      | formatCode e => exact .array hct hc
      | described d e =>
        simp only [writable] at ha
        obtain ⟨dc, dw, hde, hdf⟩ := enc_descriptor d hct ha
        have : enc (Constructor.described d e) ++ payload = 0 :: dc :: dw ++ e :: payload := by
          simp only [enc] at hde ⊢
          rw [hde]; simp
        rw [this] at hc
        exact .describedArray hdf hc
  | .described d v, h, ha => by
      simp only [Variant.wfv] at h
      simp only [writable] at ha
      obtain ⟨hd, hv, hnc⟩ := h
      obtain ⟨c, w, he, ht⟩ := enc_tree v hv ha.2
      obtain ⟨dc, dw, hde, hdf⟩ := enc_descriptor d hd ha.1
      refine ⟨0, dc :: dw ++ c :: w, by simp only [Variant.venc]; rw [hde, he]; simp, .described hdf ht ?_ ?_ ?_⟩
      · rintro l rfl; simp [Variant.isCompound] at hnc
      · rintro l rfl; simp [Variant.isCompound] at hnc
      · rintro n k p rfl; simp [Variant.isCompound] at hnc
  | .describedCompound d data, h, ha => by
      simp only [Variant.wfv] at h
      simp only [writable] at ha
      obtain ⟨dc, dw, hde, hdf⟩ := enc_descriptor d h.1 ha.1
      rcases ha.2 with rfl | ⟨n, c, w, body, rfl, hc⟩
      · exact ⟨0, dc :: dw ++ [0x45], by simp only [Variant.venc]; rw [hde]; simp, .describedList0 hdf⟩
      · exact ⟨0, dc :: dw ++ c :: w, by simp only [Variant.venc]; rw [hde]; simp, .describedCompound hdf hc⟩

theorem enc_trees : ∀ l : List Variant, Variant.wfvList l → writables l → Trees (Variant.listEnc l) l
  | [], _, _ => by rw [Variant.listEnc]; exact .nil
  | v :: l, h, ha => by
    simp only [Variant.wfvList] at h
    simp only [writables] at ha
    obtain ⟨c, w, he, ht⟩ := enc_tree v h.1 ha.1
    rw [Variant.listEnc, he]
    exact .cons ht (enc_trees l h.2 ha.2)

theorem enc_pairs : ∀ m : List (Variant × Variant), Variant.wfvMap m → writablePairs m → Pairs (Variant.mapEnc m) m
  | [], _, _ => by rw [Variant.mapEnc]; exact .nil
  | (k, v) :: m, h, ha => by
    simp only [Variant.wfvMap] at h
    simp only [writablePairs] at ha
    obtain ⟨c, w, he, ht⟩ := enc_tree k h.1 ha.1
    obtain ⟨c', w', he', ht'⟩ := enc_tree v h.2.2.1 ha.2.1
    rw [Variant.mapEnc, he, he', List.append_assoc]
    exact .cons ht h.2.1 ht' (enc_pairs m h.2.2.2 ha.2.2)
end

end Amqp
