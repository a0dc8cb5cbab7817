import Verif.Lemmas.Standard
/-! The value tree decoder against the standard encodings. -/

namespace Amqp
open Dec Standard

/-- The code is not one of a list, map or array. -/
abbrev notCompound (c : UInt8) : Prop :=
  c ≠ FC.list0 ∧ c ≠ FC.list8 ∧ c ≠ FC.map8 ∧ c ≠ FC.array8 ∧ c ≠ FC.list32 ∧ c ≠ FC.map32 ∧ c ≠ FC.array32

theorem compoundRaw_skip {c : UInt8} (h : notCompound c) (rest : Bytes) :
    decCompoundRaw (c :: rest) = .ok ((c, none), rest) := by
  obtain ⟨h1, h2, h3, h4, h5, h6, h7⟩ := h
  simp only [decCompoundRaw, if_neg h1]
  rw [if_neg (by simp [h2, h3, h4]), if_neg (by simp [h5, h6, h7])]

/-- A scalar of a value tree is decoded like a value of its own type. -/
theorem scalar_dec {c : UInt8} {w : Bytes} {v : Variant} (h : scalar c w v) :
    notCompound c ∧ ∀ n rest, decVarF (n + 1) c (w ++ rest) = .ok (v, rest) := by
  cases v <;> simp only [scalar] at h
  case null => obtain ⟨rfl, rfl⟩ := h; exact ⟨by decide, fun n rest => rfl⟩
  case boolean v =>
    have hd := fun rest => Dec.map_ok (f := Variant.boolean) (accepted_bool c w v h rest)
    rcases h with ⟨rfl, rfl, rfl⟩ | ⟨rfl, rfl, rfl⟩ | ⟨rfl, rfl, rfl⟩ | ⟨rfl, rfl, rfl⟩ <;>
      exact ⟨by decide, fun n rest => hd rest⟩
  case ubyte v =>
    have hd := fun rest => Dec.map_ok (f := Variant.ubyte) (accepted_u8 c w v h rest)
    obtain ⟨rfl, _⟩ := h; exact ⟨by decide, fun n rest => hd rest⟩
  case ushort v =>
    have hd := fun rest => Dec.map_ok (f := Variant.ushort) (accepted_u16 c w v h rest)
    obtain ⟨rfl, _⟩ := h; exact ⟨by decide, fun n rest => hd rest⟩
  case uint v =>
    have hd := fun rest => Dec.map_ok (f := Variant.uint) (accepted_u32 c w v h rest)
    rcases h with ⟨rfl, _⟩ | ⟨rfl, _⟩ | ⟨rfl, rfl, rfl⟩ <;> exact ⟨by decide, fun n rest => hd rest⟩
  case ulong v =>
    have hd := fun rest => Dec.map_ok (f := Variant.ulong) (accepted_u64 c w v h rest)
    rcases h with ⟨rfl, _⟩ | ⟨rfl, _⟩ | ⟨rfl, rfl, rfl⟩ <;> exact ⟨by decide, fun n rest => hd rest⟩
  case byte v =>
    have hd := fun rest => Dec.map_ok (f := Variant.byte) (accepted_i8 c w v h rest)
    obtain ⟨rfl, _⟩ := h; exact ⟨by decide, fun n rest => hd rest⟩
  case short v =>
    have hd := fun rest => Dec.map_ok (f := Variant.short) (accepted_i16 c w v h rest)
    obtain ⟨rfl, _⟩ := h; exact ⟨by decide, fun n rest => hd rest⟩
  case int v =>
    have hd := fun rest => Dec.map_ok (f := Variant.int) (accepted_i32 c w v h rest)
    rcases h with ⟨rfl, _⟩ | ⟨rfl, _⟩ <;> exact ⟨by decide, fun n rest => hd rest⟩
  case long v =>
    have hd := fun rest => Dec.map_ok (f := Variant.long) (accepted_i64 c w v h rest)
    rcases h with ⟨rfl, _⟩ | ⟨rfl, _⟩ <;> exact ⟨by decide, fun n rest => hd rest⟩
  case float v =>
    have hd := fun rest => Dec.map_ok (f := Variant.float) (accepted_f32 c w v h rest)
    obtain ⟨rfl, _⟩ := h; exact ⟨by decide, fun n rest => hd rest⟩
  case double v =>
    have hd := fun rest => Dec.map_ok (f := Variant.double) (accepted_f64 c w v h rest)
    obtain ⟨rfl, _⟩ := h; exact ⟨by decide, fun n rest => hd rest⟩
  case decimal32 v =>
    obtain ⟨rfl, rfl⟩ := h
    exact ⟨by decide, fun n rest => Dec.map_ok (f := Variant.decimal32) (readFixed_append _ v rest)⟩
  case decimal64 v =>
    obtain ⟨rfl, rfl⟩ := h
    exact ⟨by decide, fun n rest => Dec.map_ok (f := Variant.decimal64) (readFixed_append _ v rest)⟩
  case decimal128 v =>
    obtain ⟨rfl, rfl⟩ := h
    exact ⟨by decide, fun n rest => Dec.map_ok (f := Variant.decimal128) (readFixed_append _ v rest)⟩
  case char v =>
    have hd := fun rest => Dec.map_ok (f := Variant.char) (accepted_char c w v h rest)
    obtain ⟨rfl, _⟩ := h; exact ⟨by decide, fun n rest => hd rest⟩
  case timestamp v =>
    have hd := fun rest => Dec.map_ok (f := Variant.timestamp) (accepted_timestamp h.1 h.2 rest)
    obtain ⟨⟨rfl, _⟩, _⟩ := h; exact ⟨by decide, fun n rest => hd rest⟩
  case uuid v =>
    have hd := fun rest => Dec.map_ok (f := Variant.uuid) (accepted_uuid c w v h rest)
    obtain ⟨rfl, _⟩ := h; exact ⟨by decide, fun n rest => hd rest⟩
  case binary v =>
    have hd := fun rest => Dec.map_ok (f := Variant.binary) (accepted_bytes c w v h rest)
    rcases h with ⟨rfl, _⟩ | ⟨rfl, _⟩ <;> exact ⟨by decide, fun n rest => hd rest⟩
  case string v =>
    have hd := fun rest => Dec.map_ok (f := Variant.string) (accepted_str c w v h rest)
    rcases h with ⟨⟨rfl, _⟩ | ⟨rfl, _⟩, _⟩ <;> exact ⟨by decide, fun n rest => hd rest⟩
  case symbol v =>
    have hd := fun rest => Dec.map_ok (f := Variant.symbol) (accepted_symbol c w v h rest)
    rcases h with ⟨⟨rfl, _⟩ | ⟨rfl, _⟩, _⟩ <;> exact ⟨by decide, fun n rest => hd rest⟩

/-! ### compound headers -/

theorem compound8_ok {count : Nat} {w body : Bytes} (h : compound 1 count w body) (rest : Bytes) :
    compound8 (w ++ rest) = .ok ((body.length, count), body ++ rest) := by
  obtain ⟨sz, cnt, rfl, h1, h2, h3, h4⟩ := h
  obtain ⟨a, rfl⟩ := one_byte h1
  obtain ⟨b, rfl⟩ := one_byte h2
  rw [unsigned_one] at h3 h4
  have h0 : a ≠ 0 := by
    intro h; rw [h] at h3; simp at h3; omega
  show (if a = 0 then _ else _) = _
  rw [if_neg h0, h3, h4]
  simp

theorem compound32_ok {count : Nat} {w body : Bytes} (h : compound 4 count w body) (rest : Bytes) :
    compound32 (w ++ rest) = .ok ((body.length, count), body ++ rest) := by
  obtain ⟨a, b, rfl, l1, l2, h3, h4⟩ := h
  rw [unsigned_eq] at h3 h4
  simp only [compound32, List.append_assoc, List.length_append, l1, l2]
  rw [if_neg (by omega)]
  have t1 : (a ++ (b ++ (body ++ rest))).take 4 = a := by rw [← l1]; simp
  have t2 : (a ++ (b ++ (body ++ rest))).drop 4 = b ++ (body ++ rest) := by rw [← l1]; simp
  have t3 : (b ++ (body ++ rest)).take 4 = b := by rw [← l2]; simp
  have t4 : (a ++ (b ++ (body ++ rest))).drop 8 = body ++ rest := by
    rw [show (8 : Nat) = 4 + 4 from rfl, ← List.drop_drop, t2]
    rw [← l2]; simp
  rw [t1, t2, t3, t4, h3, h4, if_neg (by omega)]
  simp

theorem compound_length {k count : Nat} {w body : Bytes} (h : compound k count w body) :
    w.length = 2 * k + body.length := by
  obtain ⟨a, b, rfl, l1, l2, _⟩ := h
  simp [l1, l2]; omega

theorem compounds_ok {c8 c32 : UInt8} {hdr : UInt8 → Dec (Nat × Nat)} (h8 : hdr c8 = compound8)
    (h32 : hdr c32 = compound32) {count : Nat} {c : UInt8} {w body : Bytes} (h : compounds c8 c32 count c w body) :
    (c = c8 ∨ c = c32) ∧ body.length < w.length ∧
      ∀ rest, hdr c (w ++ rest) = .ok ((body.length, count), body ++ rest) := by
  rcases h with ⟨rfl, h⟩ | ⟨rfl, h⟩
  · exact ⟨.inl rfl, by rw [compound_length h]; omega, fun rest => by rw [h8, compound8_ok h]⟩
  · exact ⟨.inr rfl, by rw [compound_length h]; omega, fun rest => by rw [h32, compound32_ok h]⟩

theorem be_add_mul (k n m : Nat) : be k (m * 256 ^ k + n) = be k n := by
  induction k generalizing m with
  | zero => rfl
  | succ k ih =>
    have hp : 0 < 256 ^ k := Nat.pow_pos (by decide)
    have e : m * 256 ^ (k + 1) = m * 256 * 256 ^ k := by rw [Nat.pow_succ, Nat.mul_assoc, Nat.mul_comm 256]
    simp only [be]
    rw [e, ih (m * 256), Nat.mul_comm (m * 256), Nat.mul_add_div hp]
    congr 1
    rw [← UInt8.toNat_inj]
    simp

theorem be_unsigned (w : Bytes) : be w.length (unsigned w) = w := by
  rw [unsigned_eq]
  induction w with
  | nil => rfl
  | cons b w ih =>
    have hl := beNat_lt w
    have hp : 0 < 256 ^ w.length := Nat.pow_pos (by decide)
    simp only [List.length_cons, be, beNat]
    have e1 : (b.toNat * 256 ^ w.length + beNat w) / 256 ^ w.length = b.toNat := by
      rw [Nat.mul_comm, Nat.mul_add_div hp, Nat.div_eq_of_lt hl, Nat.add_zero]
    rw [e1]
    rw [be_add_mul, ih]
    simp

theorem rawCompound_of {c8 c32 : UInt8} {count : Nat} {c : UInt8} {w body : Bytes}
    (h : compounds c8 c32 count c w body) (h8 : c8 = FC.list8 ∨ c8 = FC.map8 ∨ c8 = FC.array8)
    (h32 : c32 = FC.list32 ∨ c32 = FC.map32 ∨ c32 = FC.array32) : rawCompound (c :: w) := by
  rcases h with ⟨rfl, a, b, rfl, l1, l2, h3, h4⟩ | ⟨rfl, a, b, rfl, l1, l2, h3, h4⟩
  · obtain ⟨a, rfl⟩ := one_byte l1
    rw [unsigned_one] at h3
    exact .inr (.inl ⟨c, a, b ++ body, by simp, h8, by simp [l2, h3]⟩)
  · refine .inr (.inr ⟨c, b ++ body, ?_, h32, ?_⟩)
    · have : (b ++ body).length = unsigned a := by simp [l2, h3]
      rw [this, List.append_assoc]
      have := be_unsigned a
      rw [l1] at this
      rw [this]
    · have := unsigned_lt a
      rw [l1] at this
      simp only [List.length_append, l2, ← h3, U32]
      omega

/-! ### trees -/

/-- Decoded correctly with any fuel above the number of bytes. -/
def DecTree (c : UInt8) (w : Bytes) (v : Variant) : Prop :=
  ∀ n, w.length < n → ∀ rest, decVarF n c (w ++ rest) = .ok (v, rest)

theorem DecTree.dec {c : UInt8} {w : Bytes} {v : Variant} (h : DecTree c w v) {n : Nat} (hn : w.length < n)
    (rest : Bytes) : (do let c ← readU8; decVarF n c : Dec Variant) (c :: w ++ rest) = .ok (v, rest) := h n hn rest

def DecTrees (body : Bytes) (l : List Variant) : Prop :=
  ∀ n, body.length ≤ n → ∀ rest,
    repeatDec l.length (do let c ← readU8; decVarF n c : Dec Variant) (body ++ rest) = .ok (l, rest)

def DecPairs (body : Bytes) (m : List (Variant × Variant)) : Prop :=
  ∀ n, body.length ≤ n → ∀ acc, (acc ++ m).Pairwise (fun a b => Variant.keyEq a.1 b.1 = false) → ∀ rest,
    mapLoop Variant.hashable Variant.keyEq (do let c ← readU8; decVarF n c) (do let c ← readU8; decVarF n c)
      m.length acc (body ++ rest) = .ok (acc ++ m, rest)

theorem descriptor_ok {c : UInt8} {w : Bytes} {d : Descriptor} (h : form c w d) (rest : Bytes) :
    (dec : Dec Descriptor) (c :: w ++ rest) = .ok (d, rest) := accepted_descriptor c w d h rest

/-- What the described case does. -/
theorem decVarF_described (n : Nat) : decVarF (n + 1) FC.described = (do
      let d ← (dec : Dec Descriptor)
      let (c, raw) ← decCompoundRaw
      match raw with
      | some data => return .describedCompound d data
      | none => return .described d (← decVarF n c)) := rfl

theorem tree_notCompound {c : UInt8} {w : Bytes} {v : Variant} (h : Tree c w v) (hl : ∀ l, v ≠ .list l)
    (hm : ∀ m, v ≠ .map m) (ha : ∀ n k p, v ≠ .array n k p) : notCompound c := by
  cases h with
  | scalar h => exact (scalar_dec h).1
  | list0 => exact absurd rfl (hl _)
  | list => exact absurd rfl (hl _)
  | map => exact absurd rfl (hm _)
  | array => exact absurd rfl (ha _ _ _)
  | describedArray => exact absurd rfl (ha _ _ _)
  | described => decide
  | describedList0 => decide
  | describedCompound => decide

theorem tree_dec : ∀ {c : UInt8} {w : Bytes} {v : Variant}, Tree c w v → DecTree c w v := by
  intro c w v h
  refine Tree.rec (motive_1 := fun c w v _ => DecTree c w v) (motive_2 := fun b l _ => DecTrees b l)
    (motive_3 := fun b m _ => DecPairs b m) ?_ ?_ ?_ ?_ ?_ ?_ ?_ ?_ ?_ ?_ ?_ ?_ ?_ h
  · -- scalar
    intro c w v h n hn rest
    obtain ⟨n, rfl⟩ : ∃ m, n = m + 1 := ⟨n - 1, by omega⟩
    exact (scalar_dec h).2 n rest
  · -- list0
    intro n hn rest
    obtain ⟨n, rfl⟩ : ∃ m, n = m + 1 := ⟨n - 1, by omega⟩
    rfl
  · -- list
    intro c w body l h _ ih n hn rest
    obtain ⟨n, rfl⟩ : ∃ m, n = m + 1 := ⟨n - 1, by omega⟩
    obtain ⟨hc, hb, hh⟩ := compounds_ok (hdr := listHeader) rfl rfl h
    have : decVarF (n + 1) c = (do
        let (_, count) ← listHeader c
        return .list (← repeatDec count (do let c ← readU8; decVarF n c))) := by
      rcases hc with rfl | rfl <;> rfl
    rw [this, Dec.bind_ok (hh rest)]
    exact Dec.map_ok (ih n (by omega) rest)
  · -- map
    intro c w body m h _ hp ih n hn rest
    obtain ⟨n, rfl⟩ : ∃ m, n = m + 1 := ⟨n - 1, by omega⟩
    obtain ⟨hc, hb, hh⟩ := compounds_ok (hdr := mapHeader) rfl rfl h
    have : decVarF (n + 1) c = (do
        let (size, count) ← mapHeader c
        return .map (← limit size
          (mapLoop Variant.hashable Variant.keyEq (do let c ← readU8; decVarF n c) (do let c ← readU8; decVarF n c)
            (count / 2) []))) := by
      rcases hc with rfl | rfl <;> rfl
    rw [this, Dec.bind_ok (hh rest)]
    refine Dec.map_ok ?_
    simp only [Nat.mul_div_right _ (by omega : 0 < 2)]
    have := ih n (by omega) [] (by simpa using hp) []
    simp only [List.append_nil, List.nil_append] at this
    exact limit_append rfl this
  · -- array
    intro c w e payload count he h n hn rest
    obtain ⟨n, rfl⟩ : ∃ m, n = m + 1 := ⟨n - 1, by omega⟩
    obtain ⟨hc, hb, hh⟩ := compounds_ok (hdr := arrayHeader) rfl rfl h
    have : decVarF (n + 1) c = decArray c := by rcases hc with rfl | rfl <;> rfl
    rw [this, decArray, Dec.bind_ok (hh rest)]
    dsimp only
    rw [Dec.bind_ok (splitTo_append _ _ _ rfl)]
    have hd : (dec : Dec Constructor) (e :: payload) = .ok (.formatCode e, payload) := by
      show (if e = FC.described then _ else _ : Dec Constructor) payload = _
      rw [if_neg he]; rfl
    rw [hd]
    simp [Dec.pure_def]
  · -- described array
    intro c w dc dw d e payload count hd h n hn rest
    obtain ⟨n, rfl⟩ : ∃ m, n = m + 1 := ⟨n - 1, by omega⟩
    obtain ⟨hc, hb, hh⟩ := compounds_ok (hdr := arrayHeader) rfl rfl h
    have : decVarF (n + 1) c = decArray c := by rcases hc with rfl | rfl <;> rfl
    rw [this, decArray, Dec.bind_ok (hh rest)]
    dsimp only
    rw [Dec.bind_ok (splitTo_append _ _ _ rfl)]
    have hd : (dec : Dec Constructor) (0 :: dc :: dw ++ e :: payload) = .ok (.described d e, payload) := by
      refine (Dec.bind_ok (readU8_cons 0 (dc :: dw ++ e :: payload))).trans ?_
      simp only [decF]
      rw [if_pos trivial, Dec.bind_ok (descriptor_ok hd _), Dec.bind_ok (readU8_cons _ _)]
      rfl
    rw [hd]
    simp [Dec.pure_def]
  · -- described
    intro dc dw d c w v hd ht hl hm ha ih n hn rest
    simp only [List.length_append, List.length_cons] at hn
    obtain ⟨n, rfl⟩ : ∃ m, n = m + 1 := ⟨n - 1, by omega⟩
    have := decVarF_described n
    rw [show (0 : UInt8) = FC.described from rfl, this, List.append_assoc, Dec.bind_ok (descriptor_ok hd _)]
    rw [List.cons_append, Dec.bind_ok (compoundRaw_skip (tree_notCompound ht hl hm ha) _)]
    exact Dec.map_ok (ih n (by omega) rest)
  · -- described empty list
    intro dc dw d hd n hn rest
    obtain ⟨n, rfl⟩ : ∃ m, n = m + 1 := ⟨n - 1, by omega⟩
    rw [show (0 : UInt8) = FC.described from rfl, decVarF_described n, List.append_assoc,
      Dec.bind_ok (descriptor_ok hd _)]
    rfl
  · -- described compound
    intro dc dw d c w body k hd h n hn rest
    obtain ⟨n, rfl⟩ : ∃ m, n = m + 1 := ⟨n - 1, by omega⟩
    have hraw : rawCompound (c :: w) := by
      rcases h with h | h | h
      · exact rawCompound_of h (by decide) (by decide)
      · exact rawCompound_of h (by decide) (by decide)
      · exact rawCompound_of h (by decide) (by decide)
    obtain ⟨c', hc'⟩ := rawCompound_dec hraw rest
    rw [show (0 : UInt8) = FC.described from rfl, decVarF_described n, List.append_assoc,
      Dec.bind_ok (descriptor_ok hd _), Dec.bind_ok hc']
    rfl
  · intro n hn rest; rfl
  · intro c w v rest l _ _ ih1 ih2 n hn r
    simp only [List.length_append, List.length_cons] at hn
    rw [List.length_cons, repeatDec, List.append_assoc, Dec.bind_ok (ih1.dec (by omega) _),
      Dec.bind_ok (ih2 n (by omega) r)]
    rfl
  · intro n hn acc hp rest
    simp [mapLoop, Dec.pure_def]
  · intro c w k c' w' v rest m _ hh _ _ ih1 ih2 ih3 n hn acc hp r
    simp only [List.length_append, List.length_cons] at hn
    rw [List.length_cons, mapLoop, List.append_assoc, Dec.bind_ok (ih1.dec (by omega) _), List.append_assoc,
      Dec.bind_ok (ih2.dec (by omega) _), if_pos hh]
    have hfresh : ∀ e ∈ acc, Variant.keyEq e.1 k = false := by
      intro e he
      rw [List.pairwise_append] at hp
      exact hp.2.2 e he (k, v) (by simp)
    rw [mapInsert_fresh hfresh, ih3 n (by omega) _ (by simpa using hp) r]
    simp

end Amqp
