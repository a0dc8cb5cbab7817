import Verif.Spec.Memory
import Verif.Lemmas.Panic
/-! Decoded values hold no more than the bytes they were decoded from. -/

namespace Amqp
open Dec

/-- What the decoder returns, measured by `w`, plus what it leaves, is at most the input plus `k`. -/
def Cost (w : α → Nat) (k : Nat) (d : Dec α) : Prop :=
  ∀ s a r, d s = .ok (a, r) → w a + r.length ≤ s.length + k

theorem Cost.pure {w : α → Nat} {k : Nat} {a : α} (h : w a ≤ k) : Cost w k (pure a : Dec α) := by
  intro s a' r hd; cases hd; omega
theorem Cost.fail {w : α → Nat} {k : Nat} {e : Err} : Cost w k (fail e : Dec α) := fun s a r h => nomatch h
theorem Cost.ite {w : α → Nat} {k : Nat} {p : Prop} [Decidable p] {a b : Dec α} (ha : Cost w k a) (hb : Cost w k b) :
    Cost w k (if p then a else b) := by split <;> assumption
theorem Cost.mono {w : α → Nat} {k k' : Nat} {d : Dec α} (h : Cost w k d) (hk : k ≤ k') : Cost w k' d :=
  fun s a r hd => Nat.le_trans (h s a r hd) (by omega)
theorem Cost.weaken {w w' : α → Nat} {k : Nat} {d : Dec α} (h : Cost w k d) (hw : ∀ a, w' a ≤ w a) : Cost w' k d :=
  fun s a r hd => by have := h s a r hd; have := hw a; omega

/-- What the first decoder returned has been paid for by what it read. -/
theorem Cost.bind {w : α → Nat} {w' : β → Nat} {k k' : Nat} {m : Dec α} {f : α → Dec β} (hm : Cost w k m)
    (hf : ∀ a, Cost w' (k' + w a) (f a)) : Cost w' (k + k') (m >>= f) := by
  intro s b r hd
  cases h : m s with
  | error e => rw [Dec.bind_err h] at hd; cases hd
  | ok x =>
    obtain ⟨a, r1⟩ := x
    rw [Dec.bind_ok h] at hd
    have h1 := hm s a r1 h
    have h2 := hf a r1 b r hd
    omega

theorem Cost.of_good {d : Dec α} (h : Good d) : Cost (fun _ => 0) 0 d := fun s a r hd => by
  have := h.len hd; simpa using this

theorem Cost.map {w : α → Nat} {w' : β → Nat} {k k' : Nat} {m : Dec α} {f : α → β} (hm : Cost w k m)
    (hf : ∀ a, w' (f a) ≤ w a + k') : Cost w' (k + k') (do return f (← m)) :=
  hm.bind fun a => Cost.pure (by have := hf a; omega)

theorem Cost.readU8 : Cost (fun _ => 1) 0 readU8 := by
  intro s a r h
  cases s with
  | nil => cases h
  | cons b s => cases h; simp; omega

theorem Cost.readThen {w : α → Nat} {f : UInt8 → Dec α} (h : ∀ c, Cost w 1 (f c)) : Cost w 0 (Amqp.readU8 >>= f) :=
  Cost.readU8.bind (k' := 0) h

theorem Cost.splitTo (n : Nat) : Cost (fun a : Bytes => a.length) 0 (splitTo n) := by
  intro s a r h
  simp only [Dec.splitTo] at h
  split at h
  · cases h
  · cases h; simp; omega

theorem Cost.limit {w : α → Nat} {k : Nat} {d : Dec α} (n : Nat) (hd : Cost w k d) : Cost w k (limit n d) := by
  intro s a r h
  simp only [Dec.limit] at h
  split at h
  · cases h
  · rename_i hn
    cases hh : d (s.take n) with
    | error e => rw [hh] at h; simp at h
    | ok x =>
      obtain ⟨b, r'⟩ := x
      rw [hh] at h
      simp only [Except.ok.injEq, Prod.mk.injEq] at h
      have := hd _ _ _ hh
      rw [← h.1, ← h.2]
      simp only [List.length_take, List.length_drop] at this ⊢
      omega

theorem Cost.repeatDec {w : α → Nat} {d : Dec α} (hd : Cost w 0 d) :
    ∀ n, Cost (fun l : List α => (l.map w).sum) 0 (repeatDec n d)
  | 0 => Cost.pure (by simp)
  | n + 1 => hd.bind (k' := 0) fun a => ((Cost.repeatDec hd n).bind (k' := w a) fun l => Cost.pure (by simp)).mono (by omega)

theorem Cost.readBytesU8 : Cost (fun a : Bytes => 1 + a.length) 0 readBytesU8 :=
  Cost.readU8.bind (k' := 0) fun n => fun s a r h => by have := Cost.splitTo _ s a r h; dsimp only at this ⊢; omega
theorem Cost.readBytesU32 : Cost (fun a : Bytes => 4 + a.length) 0 readBytesU32 := by
  refine Cost.bind (w := fun _ => 4) (k' := 0) (fun s a r h => ?_) fun n => fun s a r h => by have := Cost.splitTo _ s a r h; dsimp only at this ⊢; omega
  simp only [readBE] at h
  split at h
  · cases h
  · cases h; simp only [List.length_drop]; omega

theorem Cost.checkUtf8 (b : Bytes) : Cost (fun a : Bytes => a.length) b.length (checkUtf8 b) := .ite (.pure (Nat.le_refl _)) .fail

/-- The three kinds of text and binary values: at least the bytes they hold are read. -/
theorem Cost.decBytes (fmt : UInt8) : Cost (fun a : Bytes => a.length) 0 (decF fmt : Dec Bytes) :=
  .ite (Cost.readBytesU8.weaken fun _ => by omega) (.ite (Cost.readBytesU32.weaken fun _ => by omega) .fail)
theorem Cost.decStr (fmt : UInt8) : Cost (fun a : Str => 1 + a.bytes.length) 0 (decF fmt : Dec Str) :=
  .ite (Cost.readBytesU8.bind (k' := 0) fun b => ((Cost.checkUtf8 b).map (k' := 1) fun a => by dsimp only; omega).mono (by omega))
    (.ite (Cost.readBytesU32.bind (k' := 0) fun b => ((Cost.checkUtf8 b).map (k' := 1) fun a => by dsimp only; omega).mono (by omega)) .fail)
theorem Cost.decSymbol (fmt : UInt8) : Cost (fun a : Symbol => 1 + a.bytes.length) 0 (decF fmt : Dec Symbol) :=
  .ite (Cost.readBytesU8.bind (k' := 0) fun b => ((Cost.checkUtf8 b).map (k' := 1) fun a => by dsimp only; omega).mono (by omega))
    (.ite (Cost.readBytesU32.bind (k' := 0) fun b => ((Cost.checkUtf8 b).map (k' := 1) fun a => by dsimp only; omega).mono (by omega)) .fail)

theorem Cost.decDescriptor (fmt : UInt8) : Cost Descriptor.weight 0 (decF fmt : Dec Descriptor) :=
  .ite ((Cost.of_good (.decF fmt)).map (k' := 0) fun _ => Nat.le_refl 0) <|
  .ite ((Cost.of_good (.decF fmt)).map (k' := 0) fun _ => Nat.le_refl 0) <|
  .ite ((Cost.decSymbol fmt).map (k' := 0) fun a => by show a.bytes.length ≤ _; omega) <|
  .ite ((Cost.decSymbol fmt).map (k' := 0) fun a => by show a.bytes.length ≤ _; omega) .fail

theorem Cost.decConstructor (fmt : UInt8) : Cost Constructor.weight 0 (decF fmt : Dec Constructor) :=
  .ite (Cost.bind (w := Descriptor.weight) (k := 0) (k' := 0)
      (Cost.readThen fun c => (Cost.decDescriptor c).mono (by omega)) fun d =>
        (Cost.readU8.bind (k' := d.weight) fun c => Cost.pure (by show d.weight ≤ _; omega)).mono (by omega))
    (.pure (Nat.le_refl 0))

/-! ### Variant -/

theorem weightMap_append (a b : List (Variant × Variant)) :
    Variant.weightMap (a ++ b) = Variant.weightMap a + Variant.weightMap b := by
  induction a with
  | nil => simp [Variant.weightMap]
  | cons e a ih => obtain ⟨k, v⟩ := e; simp [Variant.weightMap, ih]; omega

theorem weightList_sum (l : List Variant) : Variant.weightList l = (l.map Variant.weight).sum := by
  induction l with
  | nil => rfl
  | cons v l ih => simp [Variant.weightList, ih]

theorem weightMap_sum (l : List (Variant × Variant)) :
    Variant.weightMap l = (l.map fun e => e.1.weight + e.2.weight).sum := by
  induction l with
  | nil => rfl
  | cons v l ih => obtain ⟨k, v⟩ := v; simp [Variant.weightMap, ih]

/-- Equality of keys is symmetric and transitive (in this combined form). -/
def Euclid (eq : κ → κ → Bool) : Prop := ∀ a b k, eq a k = true → eq b k = true → eq a b = true

theorem f32Eq_euclid : Euclid Variant.f32Eq := by
  intro a b k
  simp only [Variant.f32Eq, Bool.or_eq_true, Bool.and_eq_true, beq_iff_eq, decide_eq_true_eq]
  rintro ((h | h) | h) ((h' | h') | h') <;> simp_all
theorem f64Eq_euclid : Euclid Variant.f64Eq := by
  intro a b k
  simp only [Variant.f64Eq, Bool.or_eq_true, Bool.and_eq_true, beq_iff_eq, decide_eq_true_eq]
  rintro ((h | h) | h) ((h' | h') | h') <;> simp_all

mutual
theorem keyEq_euclid : ∀ (k a b : Variant), a.keyEq k = true → b.keyEq k = true → a.keyEq b = true
  | .null, a, b, ha, hb => by
    cases a <;> first | (simp only [Variant.keyEq] at ha; done) | (cases b <;> first | (simp only [Variant.keyEq] at hb; done) | simp_all [Variant.keyEq])
  | .boolean _, a, b, ha, hb => by
    cases a <;> first | (simp [Variant.keyEq] at ha; done) | (cases b <;> first | (simp [Variant.keyEq] at hb; done) | simp_all [Variant.keyEq])
  | .ubyte _, a, b, ha, hb => by
    cases a <;> first | (simp [Variant.keyEq] at ha; done) | (cases b <;> first | (simp [Variant.keyEq] at hb; done) | simp_all [Variant.keyEq])
  | .ushort _, a, b, ha, hb => by
    cases a <;> first | (simp [Variant.keyEq] at ha; done) | (cases b <;> first | (simp [Variant.keyEq] at hb; done) | simp_all [Variant.keyEq])
  | .uint _, a, b, ha, hb => by
    cases a <;> first | (simp [Variant.keyEq] at ha; done) | (cases b <;> first | (simp [Variant.keyEq] at hb; done) | simp_all [Variant.keyEq])
  | .ulong _, a, b, ha, hb => by
    cases a <;> first | (simp [Variant.keyEq] at ha; done) | (cases b <;> first | (simp [Variant.keyEq] at hb; done) | simp_all [Variant.keyEq])
  | .byte _, a, b, ha, hb => by
    cases a <;> first | (simp [Variant.keyEq] at ha; done) | (cases b <;> first | (simp [Variant.keyEq] at hb; done) | simp_all [Variant.keyEq])
  | .short _, a, b, ha, hb => by
    cases a <;> first | (simp [Variant.keyEq] at ha; done) | (cases b <;> first | (simp [Variant.keyEq] at hb; done) | simp_all [Variant.keyEq])
  | .int _, a, b, ha, hb => by
    cases a <;> first | (simp [Variant.keyEq] at ha; done) | (cases b <;> first | (simp [Variant.keyEq] at hb; done) | simp_all [Variant.keyEq])
  | .long _, a, b, ha, hb => by
    cases a <;> first | (simp [Variant.keyEq] at ha; done) | (cases b <;> first | (simp [Variant.keyEq] at hb; done) | simp_all [Variant.keyEq])
  | .decimal32 _, a, b, ha, hb => by
    cases a <;> first | (simp [Variant.keyEq] at ha; done) | (cases b <;> first | (simp [Variant.keyEq] at hb; done) | simp_all [Variant.keyEq])
  | .decimal64 _, a, b, ha, hb => by
    cases a <;> first | (simp [Variant.keyEq] at ha; done) | (cases b <;> first | (simp [Variant.keyEq] at hb; done) | simp_all [Variant.keyEq])
  | .decimal128 _, a, b, ha, hb => by
    cases a <;> first | (simp [Variant.keyEq] at ha; done) | (cases b <;> first | (simp [Variant.keyEq] at hb; done) | simp_all [Variant.keyEq])
  | .char _, a, b, ha, hb => by
    cases a <;> first | (simp [Variant.keyEq] at ha; done) | (cases b <;> first | (simp [Variant.keyEq] at hb; done) | simp_all [Variant.keyEq])
  | .timestamp _, a, b, ha, hb => by
    cases a <;> first | (simp [Variant.keyEq] at ha; done) | (cases b <;> first | (simp [Variant.keyEq] at hb; done) | simp_all [Variant.keyEq])
  | .uuid _, a, b, ha, hb => by
    cases a <;> first | (simp [Variant.keyEq] at ha; done) | (cases b <;> first | (simp [Variant.keyEq] at hb; done) | simp_all [Variant.keyEq])
  | .binary _, a, b, ha, hb => by
    cases a <;> first | (simp [Variant.keyEq] at ha; done) | (cases b <;> first | (simp [Variant.keyEq] at hb; done) | simp_all [Variant.keyEq])
  | .string _, a, b, ha, hb => by
    cases a <;> first | (simp [Variant.keyEq] at ha; done) | (cases b <;> first | (simp [Variant.keyEq] at hb; done) | simp_all [Variant.keyEq])
  | .symbol _, a, b, ha, hb => by
    cases a <;> first | (simp [Variant.keyEq] at ha; done) | (cases b <;> first | (simp [Variant.keyEq] at hb; done) | simp_all [Variant.keyEq])
  | .float _, a, b, ha, hb => by
    cases a <;> first | (simp [Variant.keyEq] at ha; done) | (cases b <;> first | (simp [Variant.keyEq] at hb; done) | (rw [Variant.keyEq] at *; exact f32Eq_euclid _ _ _ ha hb))
  | .double _, a, b, ha, hb => by
    cases a <;> first | (simp [Variant.keyEq] at ha; done) | (cases b <;> first | (simp [Variant.keyEq] at hb; done) | (rw [Variant.keyEq] at *; exact f64Eq_euclid _ _ _ ha hb))
  | .map _, a, b, ha, hb => by cases a <;> simp [Variant.keyEq] at ha
  | .array _ _ _, a, b, ha, hb => by
    cases a <;> first | (simp [Variant.keyEq] at ha; done) | (cases b <;> first | (simp [Variant.keyEq] at hb; done) | simp_all [Variant.keyEq])
  | .describedCompound _ _, a, b, ha, hb => by
    cases a <;> first | (simp [Variant.keyEq] at ha; done) | (cases b <;> first | (simp [Variant.keyEq] at hb; done) | simp_all [Variant.keyEq])
  | .list l, a, b, ha, hb => by
    cases a <;> first | (simp [Variant.keyEq] at ha; done) | (cases b <;> first | (simp [Variant.keyEq] at hb; done) | (rw [Variant.keyEq] at *; exact keyEqList_euclid l _ _ ha hb))
  | .described d v, a, b, ha, hb => by
    cases a <;> first | (simp [Variant.keyEq] at ha; done) | (cases b <;> first | (simp [Variant.keyEq] at hb; done) | (
      rw [Variant.keyEq, Bool.and_eq_true, beq_iff_eq] at *; exact ⟨ha.1.trans hb.1.symm, keyEq_euclid v _ _ ha.2 hb.2⟩))

theorem keyEqList_euclid : ∀ (k a b : List Variant), Variant.keyEqList a k = true → Variant.keyEqList b k = true →
    Variant.keyEqList a b = true
  | [], a, b, ha, hb => by cases a <;> cases b <;> simp_all [Variant.keyEqList]
  | v :: l, a, b, ha, hb => by
    cases a with
    | nil => simp [Variant.keyEqList] at ha
    | cons x a =>
      cases b with
      | nil => simp [Variant.keyEqList] at hb
      | cons y b =>
        rw [Variant.keyEqList, Bool.and_eq_true] at *
        exact ⟨keyEq_euclid v _ _ ha.1 hb.1, keyEqList_euclid l _ _ ha.2 hb.2⟩
end

/-- No two entries with equal keys. -/
def Apart (eq : κ → κ → Bool) (m : List (κ × ν)) : Prop := m.Pairwise fun a b => eq a.1 b.1 = false

/-- weight of the entries of a map -/
abbrev wEntries (w : κ → Nat) (w' : ν → Nat) (m : List (κ × ν)) : Nat := (m.map fun e => w e.1 + w' e.2).sum

theorem replace_none {eq : κ → κ → Bool} {k : κ} {v : ν} {m : List (κ × ν)} (h : ∀ e ∈ m, eq e.1 k = false) :
    (m.map fun e => if eq e.1 k then (e.1, v) else e) = m := by
  induction m with
  | nil => rfl
  | cons e m ih =>
    rw [List.map_cons, ih fun x hx => h x (List.mem_cons_of_mem _ hx), h e (List.mem_cons_self ..)]
    rfl

theorem replace_weight {w : κ → Nat} {w' : ν → Nat} {eq : κ → κ → Bool} (he : Euclid eq) {k : κ} {v : ν}
    {m : List (κ × ν)} (hm : Apart eq m) :
    wEntries w w' (m.map fun e => if eq e.1 k then (e.1, v) else e) ≤ wEntries w w' m + w' v := by
  induction m with
  | nil => simp [wEntries]
  | cons e m ih =>
    obtain ⟨h1, h2⟩ := List.pairwise_cons.mp hm
    by_cases hk : eq e.1 k = true
    · have hn : ∀ x ∈ m, eq x.1 k = false := fun x hx => by
        cases hx' : eq x.1 k with
        | false => rfl
        | true => have := he _ _ _ hk hx'; rw [h1 x hx] at this; cases this
      rw [List.map_cons, replace_none hn, if_pos hk]
      simp only [wEntries, List.map_cons, List.sum_cons]
      omega
    · have := ih h2
      rw [List.map_cons, if_neg hk]
      simp only [wEntries, List.map_cons, List.sum_cons] at this ⊢
      omega

theorem mapInsert_weight {w : κ → Nat} {w' : ν → Nat} {eq : κ → κ → Bool} (he : Euclid eq) {k : κ} {v : ν}
    {m : List (κ × ν)} (hm : Apart eq m) :
    wEntries w w' (mapInsert eq m k v) ≤ wEntries w w' m + (w k + w' v) := by
  rw [mapInsert]
  split
  · have := replace_weight (w := w) (w' := w') he (k := k) (v := v) hm; omega
  · simp [wEntries]

theorem mapInsert_apart {eq : κ → κ → Bool} {k : κ} {v : ν} {m : List (κ × ν)} (hm : Apart eq m) :
    Apart eq (mapInsert eq m k v) := by
  rw [mapInsert]
  split
  · refine List.pairwise_map.mpr (hm.imp fun {a b} h => ?_)
    split <;> split <;> exact h
  · rename_i h
    refine List.pairwise_append.mpr ⟨hm, List.pairwise_singleton .., fun a ha b hb => ?_⟩
    obtain rfl := List.mem_singleton.mp hb
    cases hk : eq a.1 k with
    | false => rfl
    | true => exact absurd (List.any_eq_true.mpr ⟨a, ha, hk⟩) h

theorem Cost.mapLoop {w : κ → Nat} {w' : ν → Nat} {ho : κ → Bool} {eq : κ → κ → Bool} (he : Euclid eq)
    {dk : Dec κ} {dv : Dec ν} (hk : Cost w 0 dk) (hv : Cost w' 0 dv) :
    ∀ n m, Apart eq m → Cost (wEntries w w') (wEntries w w' m) (mapLoop ho eq dk dv n m)
  | 0, m, _ => Cost.pure (Nat.le_refl _)
  | n + 1, m, hm => by
    rw [Amqp.mapLoop]
    refine (hk.bind (k' := wEntries w w' m) fun k => (hv.bind (k' := wEntries w w' m + w k) fun v => ?_).mono (by omega)).mono (by omega)
    refine .ite ((Cost.mapLoop he hk hv n _ (mapInsert_apart hm)).mono ?_) .fail
    have := mapInsert_weight (w := w) (w' := w') he (k := k) (v := v) hm
    omega

theorem Cost.decArray (fmt : UInt8) : Cost Variant.weight 1 (decArray fmt) := by
  refine (Cost.bind (k := 0) (k' := 1) (Cost.of_good (Good.arrayHeader fmt)) fun ⟨size, count⟩ => ?_).mono (by omega)
  refine (Cost.bind (k := 0) (k' := 1) (Cost.splitTo size) fun sub => ?_).mono (by omega)
  cases h : (dec : Dec Constructor) sub with
  | error e => exact Cost.fail
  | ok x =>
    obtain ⟨ctor, payload⟩ := x
    refine Cost.pure ?_
    have := Cost.readThen (fun c => (Cost.decConstructor c).mono (Nat.zero_le 1)) sub ctor payload h
    simp only [Variant.weight]
    omega

theorem decCompoundRaw_cost {s r : Bytes} {c : UInt8} {raw : Option Bytes} (h : decCompoundRaw s = .ok ((c, raw), r)) :
    (raw.getD []).length + r.length ≤ s.length ∧ r.length + 1 ≤ s.length := by
  cases s with
  | nil => simp [decCompoundRaw] at h
  | cons a s =>
    simp only [decCompoundRaw] at h
    split at h
    · simp only [Except.ok.injEq, Prod.mk.injEq] at h
      obtain ⟨⟨rfl, rfl⟩, rfl⟩ := h
      simp; omega
    · split at h
      · split at h
        · simp at h
        · split at h
          · simp at h
          · rename_i hl
            simp only [Except.ok.injEq, Prod.mk.injEq] at h
            obtain ⟨⟨rfl, rfl⟩, rfl⟩ := h
            simp only [Option.getD_some, List.length_take, List.length_drop] at hl ⊢
            omega
      · split at h
        · split at h
          · simp at h
          · split at h
            · simp at h
            · rename_i hl
              simp only [Except.ok.injEq, Prod.mk.injEq] at h
              obtain ⟨⟨rfl, rfl⟩, rfl⟩ := h
              simp only [Option.getD_some, List.length_take, List.length_drop] at hl ⊢
              omega
        · simp only [Except.ok.injEq, Prod.mk.injEq] at h
          obtain ⟨⟨rfl, rfl⟩, rfl⟩ := h
          simp

theorem Cost.node {f : α → Variant} [Wire α] [GoodWire α] (fmt : UInt8) (h : ∀ a, (f a).weight = 1) :
    Cost Variant.weight 1 (do return f (← decF fmt)) :=
  ((Cost.of_good (.decF fmt)).map (k' := 1) fun a => by rw [h]; omega).mono (by omega)
theorem Cost.nodeFixed (n : Nat) {f : FixedBytes n → Variant} (h : ∀ a, (f a).weight = 1) :
    Cost Variant.weight 1 (do return f (← readFixed n)) :=
  ((Cost.of_good (.readFixed n)).map (k' := 1) fun a => by rw [h]; omega).mono (by omega)

theorem decVarF_cost : ∀ (n : Nat) (fmt : UInt8), Cost Variant.weight 1 (decVarF n fmt)
  | 0, _ => Cost.fail
  | n + 1, fmt => by
    have hrec : Cost Variant.weight 0 (do let c ← readU8; decVarF n c) := Cost.readThen fun c => decVarF_cost n c
    have N : ∀ {α : Type} [Wire α] [GoodWire α] {f : α → Variant}, (∀ a, (f a).weight = 1) →
        Cost Variant.weight 1 (do return f (← decF fmt)) := Cost.node fmt
    rw [decVarF]
    refine .ite (.pure (by simp [Variant.weight])) <| .ite (N fun _ => by simp [Variant.weight]) <|
      .ite (.pure (by simp [Variant.weight])) <| .ite (.pure (by simp [Variant.weight])) <|
      .ite (.pure (by simp [Variant.weight])) <| .ite (.pure (by simp [Variant.weight])) <|
      .ite (N fun _ => by simp [Variant.weight]) <| .ite (N fun _ => by simp [Variant.weight]) <|
      .ite (N fun _ => by simp [Variant.weight]) <| .ite (N fun _ => by simp [Variant.weight]) <|
      .ite (N fun _ => by simp [Variant.weight]) <| .ite (N fun _ => by simp [Variant.weight]) <|
      .ite (N fun _ => by simp [Variant.weight]) <| .ite (N fun _ => by simp [Variant.weight]) <|
      .ite (N fun _ => by simp [Variant.weight]) <| .ite (N fun _ => by simp [Variant.weight]) <|
      .ite (N fun _ => by simp [Variant.weight]) <| .ite (N fun _ => by simp [Variant.weight]) <|
      .ite (N fun _ => by simp [Variant.weight]) <| .ite (N fun _ => by simp [Variant.weight]) <|
      .ite (.nodeFixed 4 fun _ => by simp [Variant.weight]) <| .ite (.nodeFixed 8 fun _ => by simp [Variant.weight]) <|
      .ite (.nodeFixed 16 fun _ => by simp [Variant.weight]) <|
      .ite (N fun _ => by simp [Variant.weight]) <| .ite (N fun _ => by simp [Variant.weight]) <|
      .ite (N fun _ => by simp [Variant.weight]) <| .ite ?bin <| .ite ?str <| .ite ?sym <|
      .ite (.pure (by simp [Variant.weight, Variant.weightList])) <| .ite ?list <| .ite (.decArray fmt) <| .ite ?map <|
      .ite ?desc .fail
    case bin => exact ((Cost.decBytes fmt).map (k' := 1) fun a => by simp only [Variant.weight]; omega).mono (by omega)
    case str => exact ((Cost.decStr fmt).map (k' := 0) fun a => by simp only [Variant.weight]; omega).mono (by omega)
    case sym => exact ((Cost.decSymbol fmt).map (k' := 0) fun a => by simp only [Variant.weight]; omega).mono (by omega)
    case list =>
      refine (Cost.bind (k := 0) (k' := 1) (Cost.of_good (Good.listHeader fmt)) fun ⟨size, count⟩ => ?_).mono (by omega)
      refine ((Cost.repeatDec hrec count).map (k' := 1) fun l => ?_).mono (by omega)
      simp only [Variant.weight, weightList_sum]
      omega
    case map =>
      refine (Cost.bind (k := 0) (k' := 1) (Cost.of_good (Good.mapHeader fmt)) fun ⟨size, count⟩ => ?_).mono (by omega)
      refine (Cost.map (k' := 1) (Cost.limit size (Cost.mapLoop (ho := Variant.hashable) (fun a b k => keyEq_euclid k a b) hrec hrec
        (count / 2) [] List.Pairwise.nil)) fun l => ?_).mono (by simp [wEntries])
      simp only [Variant.weight, weightMap_sum, wEntries]
      omega
    case desc =>
      refine (Cost.bind (k := 0) (k' := 1) (Cost.readThen fun c => (Cost.decDescriptor c).mono (Nat.zero_le 1)) fun d => ?_).mono (by omega)
      intro s v r hd
      cases h : decCompoundRaw s with
      | error e => rw [Dec.bind_err h] at hd; cases hd
      | ok x =>
        obtain ⟨⟨c, raw⟩, r1⟩ := x
        rw [Dec.bind_ok h] at hd
        obtain ⟨h1, h2⟩ := decCompoundRaw_cost h
        cases raw with
        | some data =>
          cases hd
          simp only [Variant.weight, Option.getD_some] at h1 ⊢
          omega
        | none =>
          have := (Cost.map (f := fun v => Variant.described d v) (w' := Variant.weight) (decVarF_cost n c) (k' := 1 + d.weight)
            fun a => by simp only [Variant.weight]; omega) r1 v r hd
          omega

mutual
theorem depth_le_weight : ∀ v : Variant, v.depth ≤ v.weight
  | .list l => by have := depthList_le l; simp only [Variant.depth, Variant.weight]; omega
  | .map m => by have := depthMap_le m; simp only [Variant.depth, Variant.weight]; omega
  | .described d v => by have := depth_le_weight v; simp only [Variant.depth, Variant.weight]; omega
  | .null | .boolean _ | .ubyte _ | .ushort _ | .uint _ | .ulong _ | .byte _ | .short _ | .int _ | .long _ | .float _
  | .double _ | .decimal32 _ | .decimal64 _ | .decimal128 _ | .char _ | .timestamp _ | .uuid _ | .binary _ | .string _
  | .symbol _ | .array _ _ _ | .describedCompound _ _ => by simp only [Variant.depth, Variant.weight]; omega
theorem depthList_le : ∀ l : List Variant, Variant.depthList l ≤ Variant.weightList l
  | [] => Nat.le_refl 0
  | v :: l => by
    have := depth_le_weight v; have := depthList_le l
    simp only [Variant.depthList, Variant.weightList]; omega
theorem depthMap_le : ∀ m : List (Variant × Variant), Variant.depthMap m ≤ Variant.weightMap m
  | [] => Nat.le_refl 0
  | (k, v) :: m => by
    have := depth_le_weight k; have := depth_le_weight v; have := depthMap_le m
    simp only [Variant.depthMap, Variant.weightMap]; omega
end

/-! ### The typed collections -/

/-- Types whose values hold no more than the bytes they are read from, the format code included. -/
class CostWire (α : Type) [Wire α] [Weigh α] : Prop where
  cost : ∀ fmt, Cost (Weigh.weight : α → Nat) 1 (decF fmt : Dec α)

/-- …and even without the format code: elements of arrays have none. -/
class CostElem (α : Type) [Wire α] [Weigh α] : Prop where
  cost : ∀ fmt, Cost (Weigh.weight : α → Nat) 0 (decF fmt : Dec α)

instance [Wire α] [Weigh α] [CostElem α] : CostWire α := ⟨fun fmt => (CostElem.cost fmt).mono (Nat.zero_le 1)⟩
instance : CostElem Symbol := ⟨Cost.decSymbol⟩
instance : CostElem Str := ⟨Cost.decStr⟩
instance : CostWire Variant := ⟨fun fmt s v r h => decVarF_cost _ fmt s v r h⟩

theorem Cost.dec [Wire α] [Weigh α] [CostWire α] : Cost (Weigh.weight : α → Nat) 0 (Amqp.dec : Dec α) :=
  Cost.readThen CostWire.cost

/-- Key types whose equality is symmetric and transitive. -/
class LawfulKey (κ : Type) [Key κ] : Prop where
  euclid : Euclid (keq : κ → κ → Bool)
instance : LawfulKey Symbol := ⟨fun a b k h h' => by simp only [keq, beq_iff_eq] at *; rw [h, h']⟩
instance : LawfulKey Str := ⟨fun a b k h h' => by simp only [keq, beq_iff_eq] at *; rw [h, h']⟩
instance : LawfulKey Variant := ⟨fun a b k => keyEq_euclid k a b⟩

instance [Wire κ] [Wire ν] [Key κ] [LawfulKey κ] [Weigh κ] [Weigh ν] [CostWire κ] [CostWire ν] : CostWire (HMap κ ν) where
  cost fmt := by
    refine (Cost.bind (k := 0) (k' := 1) (Cost.of_good (Good.mapHeader fmt)) fun ⟨size, count⟩ => ?_).mono (by omega)
    exact (Cost.map (k' := 1) (Cost.limit size (Cost.mapLoop LawfulKey.euclid Cost.dec Cost.dec
        (count / 2) [] List.Pairwise.nil)) fun l => by
          show 1 + wEntries _ _ l ≤ _
          omega).mono (by simp [wEntries])

instance [Wire κ] [Weigh κ] [CostWire κ] : CostWire (VecMap κ) where
  cost fmt := by
    refine (Cost.bind (k := 0) (k' := 1) (Cost.of_good (Good.mapHeader fmt)) fun ⟨size, count⟩ => ?_).mono (by omega)
    refine (Cost.map (k' := 1) (Cost.limit size (Cost.repeatDec (w := fun e : κ × Variant => Weigh.weight e.1 + Weigh.weight e.2)
      (Cost.bind (k := 0) (k' := 0) Cost.dec fun k => (Cost.bind (k := 0) Cost.dec fun v => Cost.pure ?_).mono (Nat.le_of_eq (Nat.zero_add _))) (count / 2))) fun l => ?_).mono (by omega)
    · exact Nat.le_of_eq (by dsimp only; omega)
    · show 1 + (l.map fun e : κ × Variant => Weigh.weight e.1 + Weigh.weight e.2).sum ≤ _
      omega

instance [Wire α] [ArrayWire α] [Weigh α] [CostElem α] : CostWire (Arr α) where
  cost fmt := by
    refine (Cost.bind (k := 0) (k' := 1) (Cost.of_good (Good.arrayHeader fmt)) fun ⟨size, count⟩ => ?_).mono (by omega)
    refine (Cost.bind (w := fun _ => 0) (k := 0) (k' := 1) ?_ fun _ => ?_).mono (by omega)
    · intro s a r h
      simp only at h
      split at h
      · cases h
      · cases h; simp
    · refine (Cost.bind (w := fun _ => 0) (k := 0) (k' := 1) (Cost.of_good Good.dec) fun ctor => ?_).mono (by omega)
      cases ctor with
      | formatCode c =>
        exact (Cost.map (k' := 1) (Cost.repeatDec (CostElem.cost c) count) fun l => by
          show 1 + (l.map Weigh.weight).sum ≤ _; omega).mono (by omega)
      | described d _ => exact Cost.fail

instance [Wire α] [ArrayWire α] [Weigh α] [CostElem α] : CostWire (Multiple α) where
  cost fmt := by
    refine .ite ?_ (.ite (Cost.bind (w := fun _ => 0) (k := 0) (k' := 1) (Cost.of_good (.decF fmt)) fun _ => .fail) ?_)
    · exact (Cost.map (k' := 0) (CostWire.cost (α := Arr α) fmt) fun a => by
        show (a.items.map Weigh.weight).sum ≤ 1 + (a.items.map Weigh.weight).sum + 0; omega)
    · exact (Cost.map (k' := 1) (CostElem.cost fmt) fun a => by
        show ([a].map Weigh.weight).sum ≤ _; simp).mono (by omega)

instance : CostWire VList where
  cost fmt := by
    refine (Cost.bind (k := 0) (k' := 1) (Cost.of_good (Good.listHeader fmt)) fun ⟨size, count⟩ => ?_).mono (by omega)
    exact (Cost.map (k' := 1) (Cost.repeatDec Cost.dec count) fun l => by
          show 1 + (l.map Weigh.weight).sum ≤ _; omega).mono (by omega)

end Amqp
