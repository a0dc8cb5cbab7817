import Verif.Lemmas.MemoryStructs
/-! What comes out of the stream codec. -/

namespace Amqp
open Dec Weigh

/-- The frame being waited for has been compared with the limit. -/
def DecodeState.Within (maxSize : Nat) : DecodeState → Prop
  | .frameHeader => True
  | .frame size => maxSize ≠ 0 → size + 4 ≤ maxSize

theorem codecFrame_cost {d : Dec α} {w : α → Nat} (hd : Cost w 0 d) {size maxSize : Nat} (hs : maxSize ≠ 0 → size + 4 ≤ maxSize)
    (buf : Bytes) : (codecFrame d.run size buf).2.1.Within maxSize ∧
      (codecFrame d.run size buf).2.2.length ≤ buf.length ∧
      ∀ a, (codecFrame d.run size buf).1 = .ready a →
        (maxSize ≠ 0 → w a + 4 ≤ maxSize) ∧ w a + (codecFrame d.run size buf).2.2.length ≤ buf.length := by
  rw [codecFrame]
  split
  · exact ⟨hs, Nat.le_refl _, nofun⟩
  · rename_i hl
    cases h : d.run (buf.take size) with
    | error e => exact ⟨hs, by simp, nofun⟩
    | ok x =>
      obtain ⟨a, left⟩ := x
      simp only
      split
      · rename_i h0
        subst h0
        refine ⟨trivial, by simp, fun a' ha => ?_⟩
        obtain rfl := Poll.ready.inj ha
        have := hd _ _ _ h
        simp only [List.length_take, List.length_nil, List.length_drop] at this ⊢
        refine ⟨fun hm => ?_, by omega⟩
        have := hs hm
        omega
      · exact ⟨hs, by simp, nofun⟩

theorem codecDecode_cost {d : Dec α} {w : α → Nat} (hd : Cost w 0 d) {maxSize : Nat} {st : DecodeState} (hs : st.Within maxSize)
    (buf : Bytes) : (codecDecode d.run maxSize st buf).2.1.Within maxSize ∧
      (codecDecode d.run maxSize st buf).2.2.length ≤ buf.length ∧
      ∀ a, (codecDecode d.run maxSize st buf).1 = .ready a →
        (maxSize ≠ 0 → w a + 4 ≤ maxSize) ∧ w a + (codecDecode d.run maxSize st buf).2.2.length ≤ buf.length := by
  cases st with
  | frame size => exact codecFrame_cost hd hs buf
  | frameHeader =>
    rw [codecDecode]
    simp only
    split
    · exact ⟨hs, Nat.le_refl _, nofun⟩
    · split
      · exact ⟨hs, Nat.le_refl _, nofun⟩
      · rename_i hmax
        split
        · exact ⟨hs, Nat.le_refl _, nofun⟩
        · split
          · exact ⟨fun hm => by have := fun h => hmax ⟨hm, h⟩; omega, by simp, nofun⟩
          · obtain ⟨h1, h2, h3⟩ := codecFrame_cost hd (size := beNat (buf.take 4) - 4) (maxSize := maxSize)
              (fun hm => by have := fun h => hmax ⟨hm, h⟩; omega) (buf.drop 4)
            have hl : (buf.drop 4).length ≤ buf.length := by simp
            exact ⟨h1, by omega, fun a ha => ⟨(h3 a ha).1, by have := (h3 a ha).2; omega⟩⟩

theorem codecDrain_cost {d : Dec α} {w : α → Nat} (hd : Cost w 0 d) {maxSize : Nat} : ∀ (n : Nat) {st : DecodeState}
    (_ : st.Within maxSize) (buf : Bytes), (codecDrain d.run maxSize n st buf).2.2.1.Within maxSize ∧
      ((codecDrain d.run maxSize n st buf).1.map w).sum + (codecDrain d.run maxSize n st buf).2.2.2.length ≤ buf.length ∧
      ∀ a ∈ (codecDrain d.run maxSize n st buf).1, maxSize ≠ 0 → w a + 4 ≤ maxSize
  | 0, st, hs, buf => ⟨hs, by simp [codecDrain], by simp [codecDrain]⟩
  | n + 1, st, hs, buf => by
    have hc := codecDecode_cost hd hs buf
    rw [codecDrain]
    generalize codecDecode d.run maxSize st buf = x at hc
    obtain ⟨p, st', buf'⟩ := x
    cases p with
    | pending => exact ⟨hc.1, by simpa using hc.2.1, by simp⟩
    | error e => exact ⟨hc.1, by simpa using hc.2.1, by simp⟩
    | ready a =>
      have ih := codecDrain_cost hd n hc.1 buf'
      have ha := hc.2.2 a rfl
      simp only at ih ha ⊢
      generalize codecDrain d.run maxSize n st' buf' = z at ih ⊢
      obtain ⟨as, e, st2, buf2⟩ := z
      simp only at ih ⊢
      refine ⟨ih.1, ?_, ?_⟩
      · simp only [List.map_cons, List.sum_cons]
        have := ih.2.1
        omega
      · intro b hb
        rcases List.mem_cons.mp hb with rfl | hb
        · exact ha.1
        · exact ih.2.2 b hb

theorem codecRead_cost {d : Dec α} {w : α → Nat} (hd : Cost w 0 d) {maxSize : Nat} : ∀ (cs : List Bytes) {st : DecodeState}
    (_ : st.Within maxSize) (buf : Bytes),
      ((codecRead d.run maxSize cs st buf).1.map w).sum ≤ buf.length + cs.flatten.length ∧
      ∀ a ∈ (codecRead d.run maxSize cs st buf).1, maxSize ≠ 0 → w a + 4 ≤ maxSize
  | [], st, hs, buf => ⟨by simp [codecRead], by simp [codecRead]⟩
  | c :: cs, st, hs, buf => by
    have hc := codecDrain_cost hd ((buf ++ c).length + 1) hs (buf ++ c)
    rw [codecRead]
    generalize codecDrain d.run maxSize ((buf ++ c).length + 1) st (buf ++ c) = x at hc
    obtain ⟨as, e, st', buf'⟩ := x
    cases e with
    | some e =>
      refine ⟨?_, hc.2.2⟩
      have := hc.2.1
      simp only [List.length_append, List.flatten_cons] at this ⊢
      omega
    | none =>
      have ih := codecRead_cost hd cs hc.1 buf'
      have := hc.2.1
      simp only [List.length_append, List.flatten_cons, List.map_append, List.sum_append] at this ih ⊢
      refine ⟨by omega, fun a ha => ?_⟩
      rcases List.mem_append.mp ha with ha | ha
      · exact hc.2.2 a ha
      · exact ih.2 a ha

theorem repeatDec_count {d : Dec α} : ∀ (k : Nat) (s : Bytes) (l : List α) (r : Bytes), repeatDec k d s = .ok (l, r) → l.length = k
  | 0, s, l, r, h => by cases h; rfl
  | k + 1, s, l, r, h => by
    rw [repeatDec] at h
    cases h1 : d s with
    | error e => rw [Dec.bind_err h1] at h; cases h
    | ok x =>
      rw [Dec.bind_ok h1] at h
      cases h2 : repeatDec k d x.2 with
      | error e => rw [Dec.bind_err h2] at h; cases h
      | ok y =>
        rw [Dec.bind_ok h2] at h
        cases h
        rw [List.length_cons, repeatDec_count k _ _ _ h2]

theorem repeatDec_const {d : Dec α} {a : α} (h : ∀ s, d s = .ok (a, s)) (s : Bytes) : ∀ k, repeatDec k d s = .ok (List.replicate k a, s)
  | 0 => rfl
  | k + 1 => by
    rw [repeatDec, Dec.bind_ok (h s), Dec.bind_ok (repeatDec_const h s k)]
    rfl

theorem weight_pos (v : Variant) : 1 ≤ v.weight := by
  cases v <;> simp only [Variant.weight] <;> omega

theorem length_le_weight (l : List Variant) : l.length ≤ weight l := by
  show l.length ≤ (l.map Variant.weight).sum
  induction l with
  | nil => exact Nat.le_refl 0
  | cons v l ih => have := weight_pos v; simp only [List.length_cons, List.map_cons, List.sum_cons]; omega

theorem weigh_dec_cons [Wire α] (c : UInt8) (s : Bytes) : (dec : Dec α) (c :: s) = decF c s := rfl

theorem arr_decF [Wire α] [ArrayWire α] {fmt c : UInt8} {s r r' : Bytes} {size count : Nat}
    (h1 : arrayHeader fmt s = .ok ((size, count), r)) (h2 : ¬ r.length < size) (h3 : (dec : Dec Constructor) r = .ok (.formatCode c, r')) :
    (decF fmt : Dec (Arr α)) s = (do return Arr.mk (← repeatDec count (decF c)) : Dec (Arr α)) r' := by
  change (arrayHeader fmt >>= fun (x : Nat × Nat) => _) s = _
  rw [Dec.bind_ok h1]
  have h4 : (⟨fun s => if s.length < size then .error (.incomplete size) else .ok ((), s)⟩ : Dec Unit) r = .ok ((), r) := by
    simp [h2]
  simp only
  rw [Dec.bind_ok h4, Dec.bind_ok h3]

theorem multiple_decF [Wire α] [ArrayWire α] {fmt : UInt8} (h : fmt = FC.array8 ∨ fmt = FC.array32) (s : Bytes) :
    (decF fmt : Dec (Multiple α)) s = (do return Multiple.mk (← (decF fmt : Dec (Arr α))).items : Dec (Multiple α)) s := by
  change (if _ then _ else _ : Dec (Multiple α)) s = _
  rw [if_pos h]

end Amqp
