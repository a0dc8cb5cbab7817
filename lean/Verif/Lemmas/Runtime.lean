import Verif.Model.Runtime
/-!
# Slabs and maps
-/

namespace Amqp.Rt

namespace Slab
variable {α : Type}

theorem get_eq_some {s : Slab α} {k : Nat} {a : α} : s.get k = some a ↔ s.slots[k]? = some (some a) := by
  unfold get
  rcases s.slots[k]? with _ | x
  · simp
  · simp

theorem get_empty (k : Nat) : (Slab.empty : Slab α).get k = none := by simp [get, empty]

theorem get_set (s : Slab α) (k k' : Nat) (a : α) (h : s.contains k = true) :
    (s.set k a).get k' = if k = k' then some a else s.get k' := by
  unfold set
  rw [if_pos h]
  unfold get
  simp only [List.getElem?_set]
  split
  · next hk =>
    obtain ⟨x, hx⟩ := Option.isSome_iff_exists.mp h
    have hlt := (List.getElem?_eq_some_iff.mp (get_eq_some.mp hx)).1
    simp [hlt]
  · rfl

theorem get_set_some {s : Slab α} {k k' : Nat} {a x : α} (h : (s.set k a).get k' = some x) :
    (k = k' ∧ x = a) ∨ (k ≠ k' ∧ s.get k' = some x) := by
  by_cases hc : s.contains k = true
  · rw [get_set _ _ _ _ hc] at h
    split at h
    · next hk => exact .inl ⟨hk, by simpa using h.symm⟩
    · next hk => exact .inr ⟨hk, h⟩
  · rw [set, if_neg hc] at h
    refine .inr ⟨?_, h⟩
    rintro rfl
    exact hc (by simp [contains, h])

theorem get_remove (s : Slab α) (k k' : Nat) : (s.remove k).get k' = if k = k' then none else s.get k' := by
  unfold remove
  split
  · unfold get
    simp only [List.getElem?_set]
    split
    · split <;> simp
    · rfl
  · next hc =>
    split
    · next hk => subst hk; simpa [contains] using hc
    · rfl

theorem get_insert_some {s : Slab α} {k : Nat} {a x : α} (h : (s.insert a).get k = some x) :
    (s.vacantKey = k ∧ x = a) ∨ s.get k = some x := by
  unfold insert at h
  unfold vacantKey
  split at h
  · next hf =>
    rw [hf]
    simp only [get, List.getElem?_append] at h
    split at h
    · exact .inr h
    · next hlt =>
      rcases hk : k - s.slots.length with _ | j
      · rw [hk] at h
        left
        exact ⟨by simp only [List.headD_nil]; omega, by simpa using h.symm⟩
      · rw [hk] at h; simp at h
  · next j free hf =>
    rw [hf]
    simp only [get, List.getElem?_set] at h
    split at h
    · next hj =>
      split at h
      · exact .inl ⟨hj, by simpa using h.symm⟩
      · simp at h
    · exact .inr h

/-- The free list names vacant slots, each once. -/
structure Wf (s : Slab α) : Prop where
  nodup : s.free.Nodup
  vacant : ∀ k ∈ s.free, s.slots[k]? = some none

theorem wf_empty : (Slab.empty : Slab α).Wf := ⟨by simp [empty], by simp [empty]⟩

theorem Wf.vacantKey {s : Slab α} (h : s.Wf) : s.get s.vacantKey = none := by
  unfold Slab.vacantKey get
  rcases hf : s.free with _ | ⟨k, f⟩
  · simp
  · simp [h.vacant k (by simp [hf])]

theorem Wf.set {s : Slab α} (h : s.Wf) (k : Nat) (a : α) : (s.set k a).Wf := by
  unfold Slab.set
  split
  · next hc =>
    refine ⟨h.nodup, fun j hj => ?_⟩
    have hv := h.vacant j hj
    have : k ≠ j := by
      rintro rfl
      simp [contains, get, hv] at hc
    simp [List.getElem?_set, this, hv]
  · exact h

theorem Wf.remove {s : Slab α} (h : s.Wf) (k : Nat) : (s.remove k).Wf := by
  unfold Slab.remove
  split
  · next hc =>
    obtain ⟨x, hx⟩ := Option.isSome_iff_exists.mp hc
    have hx' := get_eq_some.mp hx
    have hlt := (List.getElem?_eq_some_iff.mp hx').1
    refine ⟨List.nodup_cons.mpr ⟨fun hk => ?_, h.nodup⟩, fun j hj => ?_⟩
    · have := h.vacant k hk
      rw [hx'] at this
      simp at this
    · rcases List.mem_cons.mp hj with rfl | hj
      · simp [hlt]
      · have hv := h.vacant j hj
        have : k ≠ j := by
          rintro rfl
          rw [hx'] at hv; simp at hv
        simp [List.getElem?_set, this, hv]
  · exact h

theorem Wf.insert {s : Slab α} (h : s.Wf) (a : α) : (s.insert a).Wf := by
  unfold Slab.insert
  split
  · exact ⟨by simp, by simp⟩
  · next k free hf =>
    have hn := h.nodup
    rw [hf] at hn
    obtain ⟨hk, hn⟩ := List.nodup_cons.mp hn
    refine ⟨hn, fun j hj => ?_⟩
    have hv := h.vacant j (by simp [hf, hj])
    have : k ≠ j := by rintro rfl; exact hk hj
    simp [List.getElem?_set, this, hv]

theorem get_insert {s : Slab α} (h : s.Wf) (k : Nat) (a : α) :
    (s.insert a).get k = if s.vacantKey = k then some a else s.get k := by
  unfold insert Slab.vacantKey
  split
  · next hf =>
    simp only [hf, get, List.getElem?_append, List.headD_nil]
    by_cases hlt : k < s.slots.length
    · simp [hlt, show ¬ s.slots.length = k by omega]
    · by_cases hk : s.slots.length = k
      · subst hk; simp
      · have : [some a][k - s.slots.length]? = none := List.getElem?_eq_none (by simp; omega)
        have h' : s.slots[k]? = none := List.getElem?_eq_none (by omega)
        simp [hlt, hk, this, h']
  · next j free hf =>
    have hv := h.vacant j (by simp [hf])
    have hlt := (List.getElem?_eq_some_iff.mp hv).1
    simp only [hf, get, List.getElem?_set, List.headD_cons]
    by_cases hj : j = k
    · simp [hj, hj ▸ hlt]
    · simp [hj]

end Slab

namespace Map
variable {K V : Type} [DecidableEq K]

@[simp] theorem get_empty (k : K) : (Map.empty : Map K V).get k = none := rfl

theorem find_filter (l : List (K × V)) (k k' : K) :
    (l.filter fun e => ¬ e.1 = k).find? (fun e => decide (e.1 = k')) =
      if k = k' then none else l.find? fun e => decide (e.1 = k') := by
  induction l with
  | nil => simp
  | cons e l ih =>
    simp only [List.filter_cons, List.find?_cons] at ih ⊢
    by_cases h : k = k'
    · subst h
      by_cases h' : e.1 = k
      · simpa [h'] using ih
      · simpa [h'] using ih
    · simp only [if_neg h] at ih ⊢
      by_cases h' : e.1 = k
      · have : ¬ e.1 = k' := fun hk => h (h'.symm.trans hk)
        simpa [h', this, h] using ih
      · by_cases h'' : e.1 = k'
        · have hk : ¬ k' = k := fun hk => h hk.symm
          simp [h'', hk]
        · simpa [h', h''] using ih

theorem get_erase (m : Map K V) (k k' : K) : (m.erase k).get k' = if k = k' then none else m.get k' := by
  unfold get erase
  rw [find_filter]
  split <;> rfl

theorem get_insert (m : Map K V) (k k' : K) (v : V) :
    (m.insert k v).get k' = if k = k' then some v else m.get k' := by
  have := get_erase m k k'
  unfold get at this ⊢
  unfold insert
  rw [List.find?_cons]
  by_cases h : k = k'
  · simp [h]
  · simp only [h, decide_false, if_false] at this ⊢
    exact this

theorem get_mapVals (m : Map K V) (f : K → V → V) (k : K) : (m.mapVals f).get k = (m.get k).map (f k) := by
  unfold get mapVals
  rw [List.find?_map]
  simp only [Option.map_map, Function.comp_def]
  induction m.entries with
  | nil => rfl
  | cons e l ih =>
    simp only [List.find?_cons]
    by_cases h : e.1 = k
    · simp [h]
    · simpa [h] using ih

/-- At most one entry per key. -/
def Wf (m : Map K V) : Prop := (m.entries.map Prod.fst).Nodup

omit [DecidableEq K] in
theorem wf_empty : (Map.empty : Map K V).Wf := List.nodup_nil

theorem Wf.erase {m : Map K V} (h : m.Wf) (k : K) : (m.erase k).Wf :=
  h.sublist (List.filter_sublist.map _)

theorem Wf.insert {m : Map K V} (h : m.Wf) (k : K) (v : V) : (m.insert k v).Wf := by
  refine List.nodup_cons.mpr ⟨?_, h.erase k⟩
  intro hk
  obtain ⟨e, he, rfl⟩ := List.mem_map.mp hk
  have := (List.mem_filter.mp he).2
  simp at this

omit [DecidableEq K] in
theorem Wf.mapVals {m : Map K V} (h : m.Wf) (f : K → V → V) : (m.mapVals f).Wf := by
  unfold Wf Map.mapVals
  rw [List.map_map]
  exact h

theorem mem_of_get {m : Map K V} {k : K} {v : V} (h : m.get k = some v) : (k, v) ∈ m.entries := by
  obtain ⟨e, he, rfl⟩ := Option.map_eq_some_iff.mp h
  have hk : e.1 = k := by simpa using List.find?_some he
  rw [← hk]
  exact List.mem_of_find?_eq_some he

theorem Wf.get_of_mem {m : Map K V} (h : m.Wf) {k : K} {v : V} (he : (k, v) ∈ m.entries) : m.get k = some v := by
  unfold Map.get
  unfold Wf at h
  generalize m.entries = es at h he
  induction es with
  | nil => simp at he
  | cons e l ih =>
    rw [List.find?_cons]
    rw [List.map_cons, List.nodup_cons] at h
    rcases List.mem_cons.mp he with rfl | he
    · simp
    · have hne : e.1 ≠ k := by
        rintro rfl
        exact h.1 (List.mem_map.mpr ⟨_, he, rfl⟩)
      simpa [hne] using ih h.2 he

theorem Wf.mem_iff {m : Map K V} (h : m.Wf) {k : K} {v : V} : (k, v) ∈ m.entries ↔ m.get k = some v :=
  ⟨h.get_of_mem, mem_of_get⟩

end Map
end Amqp.Rt
