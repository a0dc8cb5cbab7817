import Verif.Spec.Standard
/-! `validUtf8` accepts exactly the UTF-8 encodings of character sequences. -/

namespace Amqp
open Standard

theorem isCont_iff (b : UInt8) : isCont b = true ↔ 0x80 ≤ b.toNat ∧ b.toNat ≤ 0xBF := by
  simp [isCont, UInt8.le_iff_toNat_le]

/-- The bytes of one character by their values: the table of `validUtf8`. -/
def utf8One : Bytes → Prop
  | [a] => a.toNat ≤ 0x7F
  | [a, b] => 0xC2 ≤ a.toNat ∧ a.toNat ≤ 0xDF ∧ isCont b = true
  | [a, b, c] => 0xE0 ≤ a.toNat ∧ a.toNat ≤ 0xEF ∧ isCont b = true ∧ isCont c = true ∧
      (a.toNat = 0xE0 → 0xA0 ≤ b.toNat) ∧ (a.toNat = 0xED → b.toNat ≤ 0x9F)
  | [a, b, c, d] => 0xF0 ≤ a.toNat ∧ a.toNat ≤ 0xF4 ∧ isCont b = true ∧ isCont c = true ∧ isCont d = true ∧
      (a.toNat = 0xF0 → 0x90 ≤ b.toNat) ∧ (a.toNat = 0xF4 → b.toNat ≤ 0x8F)
  | _ => False

theorem validUtf8_append {w : Bytes} (h : utf8One w) (r : Bytes) : validUtf8 (w ++ r) = validUtf8 r := by
  match w, h with
  | [a], h =>
    simp only [utf8One] at h
    rw [List.singleton_append, validUtf8.eq_def]
    simp only [UInt8.le_iff_toNat_le]
    rw [if_pos (by simpa using h)]
  | [a, b], h =>
    simp only [utf8One] at h
    obtain ⟨h1, h2, hb⟩ := h
    rw [List.cons_append, List.singleton_append, validUtf8.eq_def]
    simp only [UInt8.le_iff_toNat_le, hb, Bool.true_and]
    rw [if_neg (by simp; omega), if_pos (by simp; omega)]
  | [a, b, c], h =>
    simp only [utf8One] at h
    obtain ⟨h1, h2, hb, hc, h3, h4⟩ := h
    have hb' := (isCont_iff b).1 hb
    rw [List.cons_append, List.cons_append, List.singleton_append, validUtf8.eq_def]
    simp only [UInt8.le_iff_toNat_le, hb, hc, Bool.true_and, Bool.and_true, ← UInt8.toNat_inj]
    rw [if_neg (by simp; omega), if_neg (by simp; omega)]
    split
    · rename_i e
      have e : a.toNat = 0xE0 := e
      rw [show decide (UInt8.toNat 160 ≤ b.toNat) = true by simpa using h3 e,
        show decide (b.toNat ≤ UInt8.toNat 191) = true by simpa using hb'.2]
      simp
    · split
      · rfl
      · rename_i e1 e2
        have e : a.toNat = 0xED := by
          simp at e1 e2; omega
        rw [if_pos (by simpa using e), show decide (UInt8.toNat 128 ≤ b.toNat) = true by simpa using hb'.1,
          show decide (b.toNat ≤ UInt8.toNat 159) = true by simpa using h4 e]
        simp
  | [a, b, c, d], h =>
    simp only [utf8One] at h
    obtain ⟨h1, h2, hb, hc, hd, h3, h4⟩ := h
    have hb' := (isCont_iff b).1 hb
    rw [List.cons_append, List.cons_append, List.cons_append, List.singleton_append, validUtf8.eq_def]
    simp only [UInt8.le_iff_toNat_le, hb, hc, hd, Bool.true_and, Bool.and_true, ← UInt8.toNat_inj]
    rw [if_neg (by simp; omega), if_neg (by simp; omega), if_neg (by simp; omega), if_neg (by simp; omega),
      if_neg (by simp; omega)]
    split
    · rename_i e
      have e : a.toNat = 0xF0 := e
      rw [show decide (UInt8.toNat 144 ≤ b.toNat) = true by simpa using h3 e,
        show decide (b.toNat ≤ UInt8.toNat 191) = true by simpa using hb'.2]
      simp
    · split
      · rfl
      · rename_i e1 e2
        have e : a.toNat = 0xF4 := by
          simp at e1 e2; omega
        rw [if_pos (by simpa using e), show decide (UInt8.toNat 128 ≤ b.toNat) = true by simpa using hb'.1,
          show decide (b.toNat ≤ UInt8.toNat 143) = true by simpa using h4 e]
        simp

theorem utf8One_encode (c : Char) : utf8One (String.utf8EncodeChar c) := by
  have hv := c.valid
  simp only [UInt32.isValidChar, Nat.isValidChar] at hv
  simp only [String.utf8EncodeChar]
  generalize c.val.toNat = v at hv
  have hval : ∀ n, n < 256 → (UInt8.ofNat n).toNat = n := fun n hn => by simp; omega
  split
  · simp only [utf8One]; rw [hval _ (by omega)]; assumption
  · split
    · simp only [utf8One, isCont_iff]
      rw [hval _ (by omega), hval _ (by omega)]; omega
    · split
      · simp only [utf8One, isCont_iff]
        rw [hval _ (by omega), hval _ (by omega), hval _ (by omega)]; omega
      · simp only [utf8One, isCont_iff]
        rw [hval _ (by omega), hval _ (by omega), hval _ (by omega), hval _ (by omega)]; omega

/-- A character with a given value. -/
theorem exists_char (v : Nat) (h : v.isValidChar) : ∃ c : Char, c.val.toNat = v := by
  refine ⟨Char.ofNatAux v h, ?_⟩
  simp [Char.ofNatAux]

theorem ofNat_eq {n : Nat} {b : UInt8} (h : b.toNat = n) : UInt8.ofNat n = b := by
  rw [← h]; simp

theorem encode_of_utf8One {w : Bytes} (h : utf8One w) : ∃ c, w = String.utf8EncodeChar c := by
  match w, h with
  | [a], h =>
    simp only [utf8One] at h
    obtain ⟨c, hc⟩ := exists_char a.toNat (by simp only [Nat.isValidChar]; omega)
    refine ⟨c, ?_⟩
    simp only [String.utf8EncodeChar, hc]
    rw [if_pos h, ofNat_eq rfl]
  | [a, b], h =>
    simp only [utf8One, isCont_iff] at h
    obtain ⟨c, hc⟩ := exists_char ((a.toNat - 0xC0) * 64 + (b.toNat - 0x80)) (by simp only [Nat.isValidChar]; omega)
    refine ⟨c, ?_⟩
    simp only [String.utf8EncodeChar, hc]
    rw [if_neg (by omega), if_pos (by omega), ofNat_eq (b := a) (by omega), ofNat_eq (b := b) (by omega)]
  | [a, b, d], h =>
    simp only [utf8One, isCont_iff] at h
    obtain ⟨c, hc⟩ := exists_char ((a.toNat - 0xE0) * 4096 + (b.toNat - 0x80) * 64 + (d.toNat - 0x80))
      (by simp only [Nat.isValidChar]; omega)
    refine ⟨c, ?_⟩
    simp only [String.utf8EncodeChar, hc]
    rw [if_neg (by omega), if_neg (by omega), if_pos (by omega), ofNat_eq (b := a) (by omega),
      ofNat_eq (b := b) (by omega), ofNat_eq (b := d) (by omega)]
  | [a, b, d, e], h =>
    simp only [utf8One, isCont_iff] at h
    obtain ⟨c, hc⟩ := exists_char
      ((a.toNat - 0xF0) * 262144 + (b.toNat - 0x80) * 4096 + (d.toNat - 0x80) * 64 + (e.toNat - 0x80))
      (by simp only [Nat.isValidChar]; omega)
    refine ⟨c, ?_⟩
    simp only [String.utf8EncodeChar, hc]
    rw [if_neg (by omega), if_neg (by omega), if_neg (by omega), ofNat_eq (b := a) (by omega),
      ofNat_eq (b := b) (by omega), ofNat_eq (b := d) (by omega), ofNat_eq (b := e) (by omega)]

/-- A valid string starts with a character. -/
theorem validUtf8_split {s : Bytes} (h : validUtf8 s = true) (hs : s ≠ []) :
    ∃ w r, s = w ++ r ∧ utf8One w ∧ w ≠ [] := by
  match s, hs with
  | a :: rest, _ =>
    rw [validUtf8.eq_def] at h
    simp only [UInt8.le_iff_toNat_le, ← UInt8.toNat_inj] at h
    split at h
    · rename_i h1
      exact ⟨[a], rest, rfl, by simpa [utf8One] using h1, by simp⟩
    rename_i h1
    match rest, h with
    | b :: rest, h =>
      simp only at h
      split at h
      · rename_i h2
        simp at h h2
        exact ⟨[a, b], rest, rfl, by simp only [utf8One]; exact ⟨h2.1, h2.2, h.1⟩, by simp⟩
      rename_i h2
      match rest, h with
      | c :: rest, h =>
        simp only at h
        split at h
        · rename_i h3
          simp at h h3
          refine ⟨[a, b, c], rest, rfl, ?_, by simp⟩
          simp only [utf8One, isCont_iff] at h ⊢
          omega
        split at h
        · rename_i h4
          simp at h h4
          refine ⟨[a, b, c], rest, rfl, ?_, by simp⟩
          simp only [utf8One, isCont_iff] at h ⊢
          omega
        split at h
        · rename_i h4
          simp at h h4
          refine ⟨[a, b, c], rest, rfl, ?_, by simp⟩
          simp only [utf8One, isCont_iff] at h ⊢
          omega
        match rest, h with
        | d :: rest, h =>
          simp only at h
          refine ⟨[a, b, c, d], rest, rfl, ?_, by simp⟩
          split at h
          · rename_i h5
            simp at h h5
            simp only [utf8One, isCont_iff] at h ⊢
            omega
          split at h
          · rename_i h5
            simp at h h5
            simp only [utf8One, isCont_iff] at h ⊢
            omega
          split at h
          · rename_i h5
            simp at h h5
            simp only [utf8One, isCont_iff] at h ⊢
            omega
          · simp at h

theorem validUtf8_iff (s : Bytes) : validUtf8 s = true ↔ ∃ cs, s = utf8 cs := by
  constructor
  · intro h
    induction hn : s.length using Nat.strongRecOn generalizing s with
    | _ n ih =>
      by_cases hs : s = []
      · exact ⟨[], by rw [hs]; rfl⟩
      · obtain ⟨w, r, rfl, hw, hne⟩ := validUtf8_split h hs
        rw [validUtf8_append hw] at h
        have : 0 < w.length := List.length_pos_iff.2 hne
        obtain ⟨cs, rfl⟩ := ih r.length (by simp at hn; omega) r h rfl
        obtain ⟨c, rfl⟩ := encode_of_utf8One hw
        exact ⟨c :: cs, by simp [utf8]⟩
  · rintro ⟨cs, rfl⟩
    induction cs with
    | nil => rw [utf8, List.flatMap_nil, validUtf8.eq_def]
    | cons c cs ih =>
      rw [utf8, List.flatMap_cons, validUtf8_append (utf8One_encode c)]
      exact ih

/-- ASCII is UTF-8. -/
theorem validUtf8_ascii (s : Bytes) (h : ∀ b ∈ s, b < 128) : validUtf8 s = true := by
  induction s with
  | nil => rw [validUtf8.eq_def]
  | cons a s ih =>
    have : utf8One [a] := by
      have := h a (by simp)
      simp only [utf8One, UInt8.lt_iff_toNat_lt] at this ⊢
      simp at this; omega
    rw [← List.singleton_append, validUtf8_append this]
    exact ih fun b hb => h b (by simp [hb])

end Amqp
