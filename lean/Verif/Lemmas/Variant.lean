import Verif.Lemmas.Prim
/-! Value trees: exact size, locality, fuel independence and round trip. -/

namespace Amqp
open Dec

/-! ### sizes -/

theorem encHeader_length (c8 c32 : UInt8) (s c : Nat) : (encHeader c8 c32 s c).length = headerSize s := by
  simp only [encHeader, headerSize]
  split <;> simp

mutual
theorem venc_length : ∀ v : Variant, v.venc.length = v.vsize
  | .null => rfl
  | .boolean b => SizeWire.size_eq b
  | .ubyte v => SizeWire.size_eq v
  | .ushort v => SizeWire.size_eq v
  | .uint v => SizeWire.size_eq v
  | .ulong v => SizeWire.size_eq v
  | .byte v => SizeWire.size_eq v
  | .short v => SizeWire.size_eq v
  | .int v => SizeWire.size_eq v
  | .long v => SizeWire.size_eq v
  | .float v => SizeWire.size_eq v
  | .double v => SizeWire.size_eq v
  | .decimal32 v => by have := v.2; simp [Variant.venc, Variant.vsize, this]
  | .decimal64 v => by have := v.2; simp [Variant.venc, Variant.vsize, this]
  | .decimal128 v => by have := v.2; simp [Variant.venc, Variant.vsize, this]
  | .char v => SizeWire.size_eq v
  | .timestamp v => SizeWire.size_eq v
  | .uuid v => SizeWire.size_eq v
  | .binary v => SizeWire.size_eq v
  | .string v => SizeWire.size_eq v
  | .symbol v => SizeWire.size_eq v
  | .list l => by simp [Variant.venc, Variant.vsize, encHeader_length, listEnc_length l]
  | .map m => by simp [Variant.venc, Variant.vsize, encHeader_length, mapEnc_length m]
  | .array _ ctor _ => by
    have := SizeWire.size_eq ctor
    simp [Variant.venc, Variant.vsize, encHeader_length, this]; omega
  | .described d v => by
    have := SizeWire.size_eq d
    simp [Variant.venc, Variant.vsize, this, venc_length v]
  | .describedCompound d data => by
    have := SizeWire.size_eq d
    simp [Variant.venc, Variant.vsize, this]

theorem listEnc_length : ∀ l : List Variant, (Variant.listEnc l).length = Variant.listSize l
  | [] => rfl
  | v :: l => by simp [Variant.listEnc, Variant.listSize, venc_length v, listEnc_length l]

theorem mapEnc_length : ∀ m : List (Variant × Variant), (Variant.mapEnc m).length = Variant.mapSize m
  | [] => rfl
  | (k, v) :: m => by
    simp [Variant.mapEnc, Variant.mapSize, venc_length k, venc_length v, mapEnc_length m]; omega
end

instance : SizeWire Variant where size_eq := venc_length

/-! ### locality -/

/-- `d'` does whatever `d` does, on any extension of what `d` consumed, unless `d` ran out of fuel, which
happens only on inputs of length at least `k`. -/
structure Ref (d d' : Dec α) (k : Nat) : Prop where
  ok : ∀ s a r, d s = .ok (a, r) → ∃ p, s = p ++ r ∧ ∀ t, d' (p ++ t) = .ok (a, t)
  err : ∀ s e, d s = .error e → e.isIncomplete = false → e ≠ .fuel → ∀ t, d' (s ++ t) = .error e
  inc : ∀ s e, d s = .error e → e ≠ .fuel → d' s = .error e
  fuel : ∀ s, s.length < k → d s ≠ .error .fuel

theorem Good.ref {d : Dec α} (h : Good d) (k : Nat) : Ref d d k where
  ok := h.ok
  err s e hs he _ t := h.err s e hs he t
  inc _ _ hs _ := hs
  fuel s _ := h.fuel s

theorem Ref.append {d d' : Dec α} (h : Ref d d' k) {s a r} (hd : d s = .ok (a, r)) (t : Bytes) :
    d' (s ++ t) = .ok (a, r ++ t) := by
  obtain ⟨p, rfl, hp⟩ := h.ok s a r hd
  simpa using hp (r ++ t)

theorem Ref.bindGen {m m' : Dec α} {f f' : α → Dec β} {k k' : Nat} (hm : Ref m m' k')
    (hf : ∀ a, Ref (f a) (f' a) k) (_hk : k ≤ k')
    (hlen : ∀ s a r, s.length < k' → m s = .ok (a, r) → r.length < k) : Ref (m >>= f) (m' >>= f') k' where
  ok s b r' h := by
    rw [Dec.bind_def] at h
    cases hms : m s with
    | error e => simp [hms] at h
    | ok ar =>
      obtain ⟨a, r⟩ := ar
      simp only [hms] at h
      obtain ⟨p, rfl, hp⟩ := hm.ok _ _ _ hms
      obtain ⟨q, rfl, hq⟩ := (hf a).ok _ _ _ h
      refine ⟨p ++ q, by simp, fun t => ?_⟩
      rw [List.append_assoc, Dec.bind_ok (hp (q ++ t)), hq]
  err s e h he hne t := by
    rw [Dec.bind_def] at h
    cases hms : m s with
    | error e' =>
      simp only [hms, Except.error.injEq] at h
      subst h
      exact Dec.bind_err (hm.err _ _ hms he hne t)
    | ok ar =>
      obtain ⟨a, r⟩ := ar
      simp only [hms] at h
      rw [Dec.bind_ok (hm.append hms t)]
      exact (hf a).err _ _ h he hne t
  inc s e h hne := by
    rw [Dec.bind_def] at h
    cases hms : m s with
    | error e' =>
      simp only [hms, Except.error.injEq] at h
      subst h
      exact Dec.bind_err (hm.inc _ _ hms hne)
    | ok ar =>
      obtain ⟨a, r⟩ := ar
      simp only [hms] at h
      have := hm.append hms []
      simp only [List.append_nil] at this
      rw [Dec.bind_ok this]
      exact (hf a).inc _ _ h hne
  fuel s hs := by
    rw [Dec.bind_def]
    cases hms : m s with
    | error e' =>
      simp only [ne_eq, Except.error.injEq]
      intro h
      exact hm.fuel s hs (by rw [hms, h])
    | ok ar => exact (hf ar.1).fuel ar.2 (hlen s ar.1 ar.2 hs hms)

theorem Ref.bind {m m' : Dec α} {f f' : α → Dec β} {k : Nat} (hm : Ref m m' k)
    (hf : ∀ a, Ref (f a) (f' a) k) : Ref (m >>= f) (m' >>= f') k :=
  hm.bindGen hf (Nat.le_refl k) fun s a r hs hd => by
    obtain ⟨p, rfl, _⟩ := hm.ok _ _ _ hd
    simp at hs; omega

theorem Ref.mono {d d' : Dec α} {k k' : Nat} (h : Ref d d' k) (hk : k' ≤ k) : Ref d d' k' where
  ok := h.ok
  err := h.err
  inc := h.inc
  fuel s hs := h.fuel s (by omega)

theorem Ref.readU8_bind {f f' : UInt8 → Dec β} {k : Nat} (hf : ∀ a, Ref (f a) (f' a) k) :
    Ref (readU8 >>= f) (readU8 >>= f') (k + 1) :=
  (Good.readU8.ref (k + 1)).bindGen hf (by omega) fun s a r hs hd => by
    cases s with
    | nil => simp [readU8] at hd
    | cons b s =>
      simp only [readU8, Except.ok.injEq, Prod.mk.injEq] at hd
      obtain ⟨_, rfl⟩ := hd
      simp at hs; omega

theorem Ref.repeatDec {d d' : Dec α} {k : Nat} (hd : Ref d d' k) (n : Nat) :
    Ref (repeatDec n d) (repeatDec n d') k := by
  induction n with
  | zero => exact (Good.pure _).ref k
  | succ n ih => exact hd.bind fun _ => ih.bind fun _ => (Good.pure _).ref k

theorem Ref.limit {d d' : Dec α} {k : Nat} (hd : Ref d d' k) (n : Nat) : Ref (limit n d) (limit n d') k where
  ok s a r h := by
    simp only [Dec.limit] at h
    split at h
    · simp at h
    · cases hds : d (s.take n) with
      | error e => simp [hds] at h
      | ok ar =>
        simp only [hds, Except.ok.injEq, Prod.mk.injEq] at h
        obtain ⟨rfl, rfl⟩ := h
        refine ⟨s.take n, by simp, fun t => ?_⟩
        have hl : (s.take n).length = n := by simp; omega
        have := hd.append hds []
        simp only [List.append_nil] at this
        exact limit_append hl.symm this
  err s e h he hne t := by
    simp only [Dec.limit] at h
    split at h
    · simp at h; subst h; simp [Err.isIncomplete] at he
    · simp only [Dec.limit, List.length_append]
      rw [if_neg (by omega), List.take_append_of_le_length (by omega)]
      cases hds : d (s.take n) with
      | ok ar => simp [hds] at h
      | error e' =>
        simp only [hds, Except.error.injEq] at h
        subst h
        rw [hd.inc _ _ hds hne]
  inc s e h hne := by
    simp only [Dec.limit] at h ⊢
    split at h
    · rename_i hn; rw [if_pos hn]; exact h
    · rename_i hn
      rw [if_neg hn]
      cases hds : d (s.take n) with
      | ok ar => simp [hds] at h
      | error e' =>
        simp only [hds, Except.error.injEq] at h
        subst h
        rw [hd.inc _ _ hds hne]
  fuel s hs := by
    simp only [Dec.limit]
    split
    · simp
    · cases hds : d (s.take n) with
      | ok ar => simp
      | error e' =>
        simp only [ne_eq, Except.error.injEq]
        intro h
        exact hd.fuel (s.take n) (by have := List.length_take_le' n s; omega) (by rw [hds, h])

theorem Ref.mapLoop {ho : κ → Bool} {eq : κ → κ → Bool} {dk dk' : Dec κ} {dv dv' : Dec ν} {k : Nat}
    (hk : Ref dk dk' k) (hv : Ref dv dv' k) (n : Nat) (m : List (κ × ν)) :
    Ref (mapLoop ho eq dk dv n m) (mapLoop ho eq dk' dv' n m) k := by
  induction n generalizing m with
  | zero => exact (Good.pure _).ref k
  | succ n ih =>
    refine hk.bind fun a => hv.bind fun b => ?_
    split
    · exact ih _
    · exact (Good.fail (by simp)).ref k

theorem Good.mapLoop {ho : κ → Bool} {eq : κ → κ → Bool} {dk : Dec κ} {dv : Dec ν}
    (hk : Good dk) (hv : Good dv) (n : Nat) (m : List (κ × ν)) : Good (mapLoop ho eq dk dv n m) := by
  induction n generalizing m with
  | zero => exact Good.pure _
  | succ n ih =>
    refine hk.bind fun a => hv.bind fun b => ?_
    split
    · exact ih _
    · exact Good.fail (by simp)

theorem Good.decArray (fmt : UInt8) : Good (decArray fmt) := by
  refine (Good.arrayHeader fmt).bind fun sc => (Good.splitTo _).bind fun sub => ?_
  have hg := (Good.dec (α := Constructor)).fuel sub
  cases h : (Amqp.dec : Dec Constructor) sub with
  | ok a => exact Good.pure _
  | error e => exact Good.fail (by rintro rfl; exact hg h)

theorem Good.decCompoundRaw : Good decCompoundRaw where
  ok s a r h := by
    cases s with
    | nil => simp [Amqp.decCompoundRaw] at h
    | cons c rest =>
      simp only [Amqp.decCompoundRaw] at h
      by_cases h1 : c = FC.list0
      · simp only [h1, ↓reduceIte, Except.ok.injEq, Prod.mk.injEq] at h
        obtain ⟨rfl, rfl⟩ := h
        exact ⟨[c], rfl, fun t => by simp [Amqp.decCompoundRaw, h1]⟩
      · rw [if_neg h1] at h
        by_cases h2 : c = FC.list8 ∨ c = FC.map8 ∨ c = FC.array8
        · rw [if_pos h2] at h
          cases rest with
          | nil => simp at h
          | cons sz rest =>
            simp only at h
            split at h
            · simp at h
            · rename_i hn
              simp only [Except.ok.injEq, Prod.mk.injEq] at h
              obtain ⟨rfl, rfl⟩ := h
              refine ⟨(c :: sz :: rest).take (2 + sz.toNat), by simp, fun t => ?_⟩
              have he : (c :: sz :: rest).take (2 + sz.toNat) = c :: sz :: rest.take sz.toNat := by
                rw [Nat.add_comm]; rfl
              have hl : (rest.take sz.toNat).length = sz.toNat := by simp at hn ⊢; omega
              have he2 : (c :: sz :: (rest.take sz.toNat ++ t)).take (2 + sz.toNat) = c :: sz :: rest.take sz.toNat := by
                rw [Nat.add_comm]
                show c :: sz :: (rest.take sz.toNat ++ t).take sz.toNat = _
                rw [List.take_append_of_le_length (by omega), List.take_take, Nat.min_self]
              have he3 : (c :: sz :: (rest.take sz.toNat ++ t)).drop (2 + sz.toNat) = t := by
                rw [Nat.add_comm]
                show (rest.take sz.toNat ++ t).drop sz.toNat = _
                rw [List.drop_append_of_le_length (by omega)]
                simp
              rw [he]
              simp only [List.cons_append, Amqp.decCompoundRaw, if_neg h1, if_pos h2]
              rw [if_neg (by simp only [List.length_cons, List.length_append, hl]; omega), he2, he3]
        · rw [if_neg h2] at h
          by_cases h3 : c = FC.list32 ∨ c = FC.map32 ∨ c = FC.array32
          · rw [if_pos h3] at h
            split at h
            · simp at h
            · rename_i hn5
              split at h
              · simp at h
              · rename_i hn
                simp only [Except.ok.injEq, Prod.mk.injEq] at h
                obtain ⟨rfl, rfl⟩ := h
                generalize hsz : beNat (rest.take 4) = sz at hn
                refine ⟨(c :: rest).take (5 + sz), by simp, fun t => ?_⟩
                have he : (c :: rest).take (5 + sz) = c :: rest.take (4 + sz) := by
                  rw [show 5 + sz = (4 + sz) + 1 by omega]; rfl
                have hl : (rest.take (4 + sz)).length = 4 + sz := by simp at hn ⊢; omega
                have hb : beNat ((rest.take (4 + sz) ++ t).take 4) = sz := by
                  rw [List.take_append_of_le_length (by omega), List.take_take, Nat.min_eq_left (by omega), hsz]
                have he2 : (c :: (rest.take (4 + sz) ++ t)).take (5 + sz) = c :: rest.take (4 + sz) := by
                  rw [show 5 + sz = (4 + sz) + 1 by omega]
                  show c :: (rest.take (4 + sz) ++ t).take (4 + sz) = _
                  rw [List.take_append_of_le_length (by omega), List.take_take, Nat.min_self]
                have he3 : (c :: (rest.take (4 + sz) ++ t)).drop (5 + sz) = t := by
                  rw [show 5 + sz = (4 + sz) + 1 by omega]
                  show (rest.take (4 + sz) ++ t).drop (4 + sz) = _
                  rw [List.drop_append_of_le_length (by omega)]
                  simp
                rw [he]
                simp only [List.cons_append, Amqp.decCompoundRaw, if_neg h1, if_neg h2, if_pos h3, hb]
                rw [if_neg (by simp only [List.length_cons, List.length_append, hl]; omega),
                  if_neg (by simp only [List.length_cons, List.length_append, hl]; omega), he2, he3]
          · rw [if_neg h3] at h
            simp only [Except.ok.injEq, Prod.mk.injEq] at h
            obtain ⟨rfl, rfl⟩ := h
            exact ⟨[c], rfl, fun t => by simp only [List.cons_append, List.nil_append, Amqp.decCompoundRaw,
              if_neg h1, if_neg h2, if_neg h3]⟩
  err s e h he t := by
    exfalso
    cases s with
    | nil => simp [Amqp.decCompoundRaw] at h; subst h; simp [Err.isIncomplete] at he
    | cons c rest =>
      simp only [Amqp.decCompoundRaw] at h
      split at h
      · simp at h
      · split at h
        · split at h
          · simp at h; subst h; simp [Err.isIncomplete] at he
          · split at h
            · simp at h; subst h; simp [Err.isIncomplete] at he
            · simp at h
        · split at h
          · split at h
            · simp at h; subst h; simp [Err.isIncomplete] at he
            · split at h
              · simp at h; subst h; simp [Err.isIncomplete] at he
              · simp at h
          · simp at h
  fuel s := by
    cases s with
    | nil => simp [Amqp.decCompoundRaw]
    | cons c rest =>
      simp only [Amqp.decCompoundRaw]
      split
      · simp
      · split
        · split
          · simp
          · split <;> simp
        · split
          · split
            · simp
            · split <;> simp
          · simp

theorem Ref.ite {c : Prop} [Decidable c] {a b a' b' : Dec α} {k : Nat} (ha : Ref a a' k) (hb : Ref b b' k) :
    Ref (if c then a else b) (if c then a' else b') k := by
  split <;> assumption

theorem decCompoundRaw_lt {s : Bytes} {a : UInt8 × Option Bytes} {r : Bytes}
    (h : decCompoundRaw s = .ok (a, r)) : r.length < s.length := by
  cases s with
  | nil => simp [decCompoundRaw] at h
  | cons c rest =>
    simp only [decCompoundRaw] at h
    split at h
    · simp at h; obtain ⟨_, rfl⟩ := h; simp
    · split at h
      · split at h
        · simp at h
        · split at h
          · simp at h
          · simp only [Except.ok.injEq, Prod.mk.injEq] at h; obtain ⟨_, rfl⟩ := h; simp; omega
      · split at h
        · split at h
          · simp at h
          · split at h
            · simp at h
            · simp only [Except.ok.injEq, Prod.mk.injEq] at h; obtain ⟨_, rfl⟩ := h; simp; omega
        · simp at h; obtain ⟨_, rfl⟩ := h; simp

/-- More fuel changes nothing, and fuel above the input length is never exhausted. -/
theorem decVarF_ref (n m : Nat) (h : n ≤ m) (fmt : UInt8) : Ref (decVarF n fmt) (decVarF m fmt) n := by
  induction n generalizing m fmt with
  | zero =>
    exact {
      ok := fun s a r h => by simp [decVarF, Dec.fail_def] at h
      err := fun s e h _ hne => by simp [decVarF, Dec.fail_def] at h; exact absurd h.symm hne
      inc := fun s e h hne => by simp [decVarF, Dec.fail_def] at h; exact absurd h.symm hne
      fuel := fun s hs => by omega }
  | succ n ih =>
    cases m with
    | zero => omega
    | succ m =>
      have ih' : ∀ c, Ref (decVarF n c) (decVarF m c) n := fun c => ih m (by omega) c
      have hrec : Ref (do let c ← readU8; decVarF n c) (do let c ← readU8; decVarF m c) (n + 1) :=
        Ref.readU8_bind ih'
      have mp : ∀ {α : Type} [Wire α] [GoodWire α] (f : α → Variant),
          Ref (do return f (← (decF fmt : Dec α))) (do return f (← (decF fmt : Dec α))) (n + 1) :=
        fun f => (Good.bind (Good.decF fmt) fun _ => Good.pure _).ref _
      simp only [decVarF]
      refine .ite ((Good.pure _).ref _) (.ite (mp _) (.ite ((Good.pure _).ref _) (.ite ((Good.pure _).ref _)
        (.ite ((Good.pure _).ref _) (.ite ((Good.pure _).ref _) (.ite (mp _) (.ite (mp _) (.ite (mp _) (.ite (mp _)
        (.ite (mp _) (.ite (mp _) (.ite (mp _) (.ite (mp _) (.ite (mp _) (.ite (mp _) (.ite (mp _) (.ite (mp _)
        (.ite (mp _) (.ite (mp _) (.ite ?_ (.ite ?_ (.ite ?_ (.ite (mp _) (.ite (mp _) (.ite (mp _) (.ite (mp _)
        (.ite (mp _) (.ite (mp _) (.ite ((Good.pure _).ref _) (.ite ?_ (.ite ((Good.decArray fmt).ref _) (.ite ?_ (.ite ?_
        ((Good.fail (by simp)).ref _))))))))))))))))))))))))))))))))))
      · exact (Good.bind (Good.readFixed 4) fun _ => Good.pure _).ref _
      · exact (Good.bind (Good.readFixed 8) fun _ => Good.pure _).ref _
      · exact (Good.bind (Good.readFixed 16) fun _ => Good.pure _).ref _
      · exact ((Good.listHeader fmt).ref _).bind fun sc => (hrec.repeatDec _).bind fun _ => (Good.pure _).ref _
      · exact ((Good.mapHeader fmt).ref _).bind fun sc =>
          ((hrec.mapLoop hrec _ _).limit _).bind fun _ => (Good.pure _).ref _
      · refine (Good.dec.ref _).bind fun d => ?_
        refine (Good.decCompoundRaw.ref _).bindGen (k := n) (fun cr => ?_) (by omega) fun s a r hs hd => ?_
        · obtain ⟨c, raw⟩ := cr
          cases raw with
          | some data => exact (Good.pure _).ref _
          | none => exact (ih' c).bind fun _ => (Good.pure _).ref _
        · have := decCompoundRaw_lt hd; omega

theorem decVarF_fuel (n m : Nat) (h : n ≤ m) (fmt : UInt8) (s : Bytes) (hs : s.length < n) :
    decVarF m fmt s = decVarF n fmt s := by
  have hr := decVarF_ref n m h fmt
  cases hd : decVarF n fmt s with
  | ok ar =>
    have := hr.append hd []
    simpa using this
  | error e => exact hr.inc _ _ hd fun he => hr.fuel s hs (by rw [hd, he])

instance : GoodWire Variant where
  good fmt := by
    constructor
    · intro s a r h
      obtain ⟨p, hs, hp⟩ := (decVarF_ref (s.length + 2) (s.length + 2) (Nat.le_refl _) fmt).ok s a r h
      refine ⟨p, hs, fun t => ?_⟩
      have h1 := (decVarF_ref (s.length + 2) (s.length + 2 + (p ++ t).length) (by omega) fmt).ok s a r h
      obtain ⟨p', hs', hp'⟩ := h1
      have : p' = p := by rw [hs] at hs'; exact (List.append_cancel_right hs').symm
      subst this
      have h2 := hp' t
      rw [decVarF_fuel ((p' ++ t).length + 2) _ (by omega) fmt _ (by omega)] at h2
      exact h2
    · intro s e h he t
      have hne : e ≠ .fuel := fun hf =>
        (decVarF_ref (s.length + 2) (s.length + 2) (Nat.le_refl _) fmt).fuel s (by omega) (by rw [← hf]; exact h)
      exact (decVarF_ref (s.length + 2) ((s ++ t).length + 2) (by simp) fmt).err s e h he hne t
    · intro s
      exact (decVarF_ref (s.length + 2) (s.length + 2) (Nat.le_refl _) fmt).fuel s (by omega)

/-! ### round trip -/

theorem compound8_enc (size count : Nat) (h1 : size + 1 ≤ 255) (h2 : count < 256) (rest : Bytes) :
    compound8 (be 1 (size + 1) ++ be 1 count ++ rest) = .ok ((size, count), rest) := by
  rw [be_one, be_one]
  have hs : (UInt8.ofNat (size + 1)).toNat = size + 1 := by simp; omega
  have hc : (UInt8.ofNat count).toNat = count := by simp; omega
  have h0 : UInt8.ofNat (size + 1) ≠ 0 := by
    intro h; have := congrArg UInt8.toNat h; rw [hs] at this; simp at this
  show (if UInt8.ofNat (size + 1) = 0 then _ else _) = _
  rw [if_neg h0, hs, hc]
  simp

theorem compound32_enc (size count : Nat) (h1 : size + 4 < U32) (h2 : count < U32) (rest : Bytes) :
    compound32 (be 4 (size + 4) ++ be 4 count ++ rest) = .ok ((size, count), rest) := by
  have l1 := be_length 4 (size + 4)
  have l2 := be_length 4 count
  generalize ha : be 4 (size + 4) = a at l1
  generalize hb : be 4 count = b at l2
  have va : beNat a = size + 4 := by rw [← ha, beNat_be]; exact Nat.mod_eq_of_lt (by simpa using h1)
  have vb : beNat b = count := by rw [← hb, beNat_be]; exact Nat.mod_eq_of_lt (by simpa using h2)
  simp only [compound32, List.append_assoc, List.length_append, l1, l2]
  rw [if_neg (by omega)]
  have t1 : (a ++ (b ++ rest)).take 4 = a := by rw [← l1]; simp
  have t2 : (a ++ (b ++ rest)).drop 4 = b ++ rest := by rw [← l1]; simp
  have t3 : (b ++ rest).take 4 = b := by rw [← l2]; simp
  have t4 : (a ++ (b ++ rest)).drop 8 = rest := by
    rw [show (8 : Nat) = 4 + 4 from rfl, ← List.drop_drop, t2]
    rw [← l2]; simp
  rw [t1, t2, t3, t4, va, vb, if_neg (by omega)]
  simp

/-- A compound header is read back, through whichever of the two codes was written. -/
theorem encHeader_rt {c8 c32 : UInt8} {hdr : UInt8 → Dec (Nat × Nat)} {size count : Nat}
    (h8 : hdr c8 = compound8) (h32 : hdr c32 = compound32)
    (hs : size + 4 < U32) (hc : count < U32) (hc8 : size + 1 ≤ 255 → count < 256) :
    ∃ c tl, encHeader c8 c32 size count = c :: tl ∧ (c = c8 ∨ c = c32) ∧
      ∀ rest, hdr c (tl ++ rest) = .ok ((size, count), rest) := by
  by_cases h : size + 1 > 255
  · refine ⟨c32, be 4 (size + 4) ++ be 4 count, by simp [encHeader, h], .inr rfl, fun rest => ?_⟩
    rw [h32, compound32_enc size count hs hc]
  · refine ⟨c8, be 1 (size + 1) ++ be 1 count, by simp [encHeader, h], .inl rfl, fun rest => ?_⟩
    rw [h8, compound8_enc size count (by omega) (hc8 (by omega))]

mutual
theorem vsize_pos : ∀ v : Variant, 1 ≤ v.vsize
  | .null => by simp [Variant.vsize]
  | .boolean b => by simp [Variant.vsize, size]
  | .ubyte v => by simp [Variant.vsize, size]
  | .ushort v => by simp [Variant.vsize, size]
  | .uint v => by simp only [Variant.vsize, size]; split <;> try split <;> simp
                  all_goals simp
  | .ulong v => by simp only [Variant.vsize, size]; split <;> try split <;> simp
                   all_goals simp
  | .byte v => by simp [Variant.vsize, size]
  | .short v => by simp [Variant.vsize, size]
  | .int v => by simp only [Variant.vsize, size]; split <;> simp
  | .long v => by simp only [Variant.vsize, size]; split <;> simp
  | .float v => by simp [Variant.vsize, size]
  | .double v => by simp [Variant.vsize, size]
  | .decimal32 v => by simp [Variant.vsize]
  | .decimal64 v => by simp [Variant.vsize]
  | .decimal128 v => by simp [Variant.vsize]
  | .char v => by simp [Variant.vsize, size]
  | .timestamp v => by simp [Variant.vsize, size]
  | .uuid v => by simp [Variant.vsize, size]
  | .binary v => by simp only [Variant.vsize, size, sizeVar]; split <;> omega
  | .string v => by simp only [Variant.vsize, size, sizeVar]; split <;> omega
  | .symbol v => by simp only [Variant.vsize, size, sizeVar]; split <;> omega
  | .list l => by simp only [Variant.vsize, headerSize]; split <;> omega
  | .map m => by simp only [Variant.vsize, headerSize]; split <;> omega
  | .array _ _ _ => by simp only [Variant.vsize, headerSize]; split <;> omega
  | .described d v => by have := vsize_pos v; simp only [Variant.vsize]; omega
  | .describedCompound d data => by cases d <;> simp only [Variant.vsize, size] <;> omega
end

theorem listSize_ge : ∀ l : List Variant, l.length ≤ Variant.listSize l
  | [] => by simp [Variant.listSize]
  | v :: l => by
    have := listSize_ge l
    have := vsize_pos v
    simp [Variant.listSize]; omega

theorem mapSize_ge : ∀ m : List (Variant × Variant), m.length * 2 ≤ Variant.mapSize m
  | [] => by simp [Variant.mapSize]
  | (k, v) :: m => by
    have := mapSize_ge m
    have := vsize_pos k
    have := vsize_pos v
    simp [Variant.mapSize]; omega

/-- Round trip of `v` at every sufficient fuel. -/
def RTV (v : Variant) : Prop :=
  ∃ c tl, v.venc = c :: tl ∧ ∀ n, v.vsize ≤ n → ∀ rest, decVarF n c (tl ++ rest) = .ok (v, rest)

theorem RTV.dec {v : Variant} (h : RTV v) {n : Nat} (hn : v.vsize ≤ n) (rest : Bytes) :
    (do let c ← readU8; decVarF n c : Dec Variant) (v.venc ++ rest) = .ok (v, rest) := by
  obtain ⟨c, tl, he, hd⟩ := h
  rw [he]
  exact hd n hn rest

theorem repeatDec_enc {n : Nat} : ∀ l : List Variant, (∀ v ∈ l, RTV v) → Variant.listSize l ≤ n →
    ∀ rest, repeatDec l.length (do let c ← readU8; decVarF n c : Dec Variant) (Variant.listEnc l ++ rest)
      = .ok (l, rest)
  | [], _, _, rest => rfl
  | v :: l, h, hn, rest => by
    simp only [Variant.listSize] at hn
    simp only [Variant.listEnc, List.append_assoc, List.length_cons, repeatDec]
    rw [Dec.bind_ok ((h v (by simp)).dec (by omega) _)]
    rw [Dec.bind_ok (repeatDec_enc l (fun w hw => h w (by simp [hw])) (by omega) rest)]
    rfl

theorem mapInsert_fresh {eq : κ → κ → Bool} {m : List (κ × ν)} {k : κ} {v : ν}
    (h : ∀ e ∈ m, eq e.1 k = false) : mapInsert eq m k v = m ++ [(k, v)] := by
  have : m.any (fun e => eq e.1 k) = false := by
    rw [List.any_eq_false]
    intro e he; simp [h e he]
  simp [mapInsert, this]

theorem mapLoop_enc {n : Nat} : ∀ (m acc : List (Variant × Variant)),
    (∀ e ∈ m, RTV e.1 ∧ RTV e.2 ∧ e.1.hashable = true) → Variant.mapSize m ≤ n →
    (acc ++ m).Pairwise (fun a b => Variant.keyEq a.1 b.1 = false) →
    ∀ rest, mapLoop Variant.hashable Variant.keyEq (do let c ← readU8; decVarF n c) (do let c ← readU8; decVarF n c)
      m.length acc (Variant.mapEnc m ++ rest) = .ok (acc ++ m, rest)
  | [], acc, _, _, _, rest => by simp [mapLoop, Dec.pure_def, Variant.mapEnc]
  | (k, v) :: m, acc, h, hn, hp, rest => by
    simp only [Variant.mapSize] at hn
    simp only [Variant.mapEnc, List.append_assoc, List.length_cons, mapLoop]
    obtain ⟨hk, hv, hh⟩ := h (k, v) (by simp)
    simp only at hk hv hh
    rw [Dec.bind_ok (hk.dec (by omega) _), Dec.bind_ok (hv.dec (by omega) _)]
    rw [if_pos hh]
    have hfresh : ∀ e ∈ acc, Variant.keyEq e.1 k = false := by
      intro e he
      rw [List.pairwise_append] at hp
      exact hp.2.2 e he (k, v) (by simp)
    rw [mapInsert_fresh hfresh]
    have := mapLoop_enc (n := n) m (acc ++ [(k, v)]) (fun e he => h e (by simp [he])) (by omega) (by simpa using hp) rest
    rw [this]
    simp

theorem rawCompound_dec {data : Bytes} (h : rawCompound data) (rest : Bytes) :
    ∃ c, decCompoundRaw (data ++ rest) = .ok ((c, some data), rest) := by
  rcases h with rfl | ⟨c, sz, tl, rfl, hc, hl⟩ | ⟨c, tl, rfl, hc, hl⟩
  · exact ⟨FC.list0, rfl⟩
  · have h1 : c ≠ FC.list0 := by rcases hc with rfl | rfl | rfl <;> decide
    refine ⟨c, ?_⟩
    simp only [List.cons_append, decCompoundRaw, if_neg h1, if_pos hc, List.length_cons, List.length_append]
    rw [if_neg (by omega), Nat.add_comm 2, ← hl]
    show Except.ok ((c, some (c :: sz :: (tl ++ rest).take tl.length)), (tl ++ rest).drop tl.length) = _
    simp
  · have h1 : c ≠ FC.list0 := by rcases hc with rfl | rfl | rfl <;> decide
    have h2 : ¬ (c = FC.list8 ∨ c = FC.map8 ∨ c = FC.array8) := by rcases hc with rfl | rfl | rfl <;> decide
    refine ⟨c, ?_⟩
    have l1 := be_length 4 tl.length
    have vb : beNat (be 4 tl.length) = tl.length := by
      rw [beNat_be]; exact Nat.mod_eq_of_lt (by simpa using hl)
    generalize hb : be 4 tl.length = b at l1 vb
    simp only [List.cons_append, decCompoundRaw, if_neg h1, if_neg h2, if_pos hc, List.length_cons, List.length_append,
      List.append_assoc]
    have t1 : (b ++ (tl ++ rest)).take 4 = b := by rw [← l1]; simp
    rw [if_neg (by omega), t1, vb, if_neg (by omega)]
    rw [show 5 + tl.length = (4 + tl.length) + 1 by omega]
    show Except.ok ((c, some (c :: (b ++ (tl ++ rest)).take (4 + tl.length))), (b ++ (tl ++ rest)).drop (4 + tl.length)) = _
    have t2 : (b ++ (tl ++ rest)).take (4 + tl.length) = b ++ tl := by
      rw [← List.append_assoc, show 4 + tl.length = (b ++ tl).length by simp [l1], List.take_left]
    have t3 : (b ++ (tl ++ rest)).drop (4 + tl.length) = rest := by
      rw [← List.append_assoc, show 4 + tl.length = (b ++ tl).length by simp [l1], List.drop_left]
    rw [t2, t3]

/-- The first byte of a non-compound value is not a compound format code, so `decCompoundRaw` only skips it. -/
theorem venc_head_not_compound {v : Variant} (h : v.isCompound = false) :
    ∀ c tl, v.venc = c :: tl → ∀ rest, decCompoundRaw (c :: rest) = .ok ((c, none), rest) := by
  have key : ∀ c : UInt8, (c ≠ FC.list0 ∧ c ≠ FC.list8 ∧ c ≠ FC.map8 ∧ c ≠ FC.array8 ∧ c ≠ FC.list32 ∧ c ≠ FC.map32 ∧
      c ≠ FC.array32) → ∀ rest, decCompoundRaw (c :: rest) = .ok ((c, none), rest) := by
    rintro c ⟨h1, h2, h3, h4, h5, h6, h7⟩ rest
    simp only [decCompoundRaw, if_neg h1]
    rw [if_neg (by simp [h2, h3, h4]), if_neg (by simp [h5, h6, h7])]
  intro c tl he
  apply key
  have hv : ∀ (c8 c32 : UInt8) (b : Bytes), encVar c8 c32 b = c :: tl → c = c8 ∨ c = c32 := by
    intro c8 c32 b hb
    simp only [encVar] at hb
    split at hb <;> simp only [List.cons.injEq] at hb
    · exact .inr hb.1.symm
    · exact .inl hb.1.symm
  cases v with
  | null => simp [Variant.venc] at he; obtain ⟨rfl, _⟩ := he; decide
  | boolean b =>
    simp [Variant.venc, enc] at he; obtain ⟨rfl, _⟩ := he; cases b <;> decide
  | ubyte v => simp [Variant.venc, enc] at he; obtain ⟨rfl, _⟩ := he; decide
  | ushort v => simp [Variant.venc, enc] at he; obtain ⟨rfl, _⟩ := he; decide
  | uint v =>
    simp only [Variant.venc, enc] at he
    split at he
    · simp at he; obtain ⟨rfl, _⟩ := he; decide
    · split at he <;> simp at he <;> obtain ⟨rfl, _⟩ := he <;> decide
  | ulong v =>
    simp only [Variant.venc, enc] at he
    split at he
    · simp at he; obtain ⟨rfl, _⟩ := he; decide
    · split at he <;> simp at he <;> obtain ⟨rfl, _⟩ := he <;> decide
  | byte v => simp [Variant.venc, enc] at he; obtain ⟨rfl, _⟩ := he; decide
  | short v => simp [Variant.venc, enc] at he; obtain ⟨rfl, _⟩ := he; decide
  | int v =>
    simp only [Variant.venc, enc] at he
    split at he <;> simp at he <;> obtain ⟨rfl, _⟩ := he <;> decide
  | long v =>
    simp only [Variant.venc, enc] at he
    split at he <;> simp at he <;> obtain ⟨rfl, _⟩ := he <;> decide
  | float v => simp [Variant.venc, enc] at he; obtain ⟨rfl, _⟩ := he; decide
  | double v => simp [Variant.venc, enc] at he; obtain ⟨rfl, _⟩ := he; decide
  | decimal32 v => simp [Variant.venc] at he; obtain ⟨rfl, _⟩ := he; decide
  | decimal64 v => simp [Variant.venc] at he; obtain ⟨rfl, _⟩ := he; decide
  | decimal128 v => simp [Variant.venc] at he; obtain ⟨rfl, _⟩ := he; decide
  | char v => simp [Variant.venc, enc] at he; obtain ⟨rfl, _⟩ := he; decide
  | timestamp v => simp [Variant.venc, enc] at he; obtain ⟨rfl, _⟩ := he; decide
  | uuid v => simp [Variant.venc, enc] at he; obtain ⟨rfl, _⟩ := he; decide
  | binary v => rcases hv _ _ _ he with rfl | rfl <;> decide
  | string v => rcases hv _ _ _ he with rfl | rfl <;> decide
  | symbol v => rcases hv _ _ _ he with rfl | rfl <;> decide
  | list l => simp [Variant.isCompound] at h
  | map m => simp [Variant.isCompound] at h
  | array _ _ _ => simp [Variant.isCompound] at h
  | described d v =>
    have : c = FC.described := by
      cases d <;> simp [Variant.venc, enc] at he <;> exact he.1.symm
    subst this; decide
  | describedCompound d data =>
    have : c = FC.described := by
      cases d <;> simp [Variant.venc, enc] at he <;> exact he.1.symm
    subst this; decide

/-- Lift a primitive round trip into the tree. -/
theorem RTV.of_prim {α : Type} [Wire α] {a : α} {f : α → Variant} (h : RTF a) (he : (f a).venc = enc a)
    (hd : ∀ n c tl, enc a = c :: tl → decVarF (n + 1) c = (do return f (← (decF c : Dec α)))) : RTV (f a) := by
  obtain ⟨c, tl, hc, hr⟩ := h
  refine ⟨c, tl, by rw [he, hc], fun n hn rest => ?_⟩
  cases n with
  | zero => have := vsize_pos (f a); omega
  | succ n => rw [hd n c tl hc]; exact Dec.map_ok (hr rest)

theorem headerSize_ge (s : Nat) : 3 ≤ headerSize s := by
  simp only [headerSize]; split <;> omega

mutual
theorem rtv : ∀ v : Variant, v.wfv → RTV v
  | .null, _ => ⟨FC.null, [], rfl, fun n hn rest => by
      cases n with
      | zero => simp [Variant.vsize] at hn
      | succ n => rfl⟩
  | .boolean b, _ => by
      refine ⟨if b then FC.true_ else FC.false_, [], by cases b <;> rfl, fun n hn rest => ?_⟩
      cases n with
      | zero => simp [Variant.vsize, size] at hn
      | succ n => cases b <;> rfl
  | .ubyte v, _ => RTV.of_prim (f := .ubyte) (LawfulWire.rt v trivial) rfl fun n c tl h => by
      simp [enc] at h; obtain ⟨rfl, _⟩ := h; rfl
  | .ushort v, _ => RTV.of_prim (f := .ushort) (LawfulWire.rt v trivial) rfl fun n c tl h => by
      simp [enc] at h; obtain ⟨rfl, _⟩ := h; rfl
  | .uint v, _ => RTV.of_prim (f := .uint) (LawfulWire.rt v trivial) rfl fun n c tl h => by
      simp only [enc] at h
      split at h
      · simp at h; obtain ⟨rfl, _⟩ := h; rfl
      · split at h <;> simp at h <;> obtain ⟨rfl, _⟩ := h <;> rfl
  | .ulong v, _ => RTV.of_prim (f := .ulong) (LawfulWire.rt v trivial) rfl fun n c tl h => by
      simp only [enc] at h
      split at h
      · simp at h; obtain ⟨rfl, _⟩ := h; rfl
      · split at h <;> simp at h <;> obtain ⟨rfl, _⟩ := h <;> rfl
  | .byte v, _ => RTV.of_prim (f := .byte) (LawfulWire.rt v trivial) rfl fun n c tl h => by
      simp [enc] at h; obtain ⟨rfl, _⟩ := h; rfl
  | .short v, _ => RTV.of_prim (f := .short) (LawfulWire.rt v trivial) rfl fun n c tl h => by
      simp [enc] at h; obtain ⟨rfl, _⟩ := h; rfl
  | .int v, _ => RTV.of_prim (f := .int) (LawfulWire.rt v trivial) rfl fun n c tl h => by
      simp only [enc] at h
      split at h <;> simp at h <;> obtain ⟨rfl, _⟩ := h <;> rfl
  | .long v, _ => RTV.of_prim (f := .long) (LawfulWire.rt v trivial) rfl fun n c tl h => by
      simp only [enc] at h
      split at h <;> simp at h <;> obtain ⟨rfl, _⟩ := h <;> rfl
  | .float v, _ => RTV.of_prim (f := .float) (LawfulWire.rt v trivial) rfl fun n c tl h => by
      simp [enc] at h; obtain ⟨rfl, _⟩ := h; rfl
  | .double v, _ => RTV.of_prim (f := .double) (LawfulWire.rt v trivial) rfl fun n c tl h => by
      simp [enc] at h; obtain ⟨rfl, _⟩ := h; rfl
  | .decimal32 v, _ => ⟨FC.decimal32, v.1, rfl, fun n hn rest => by
      cases n with
      | zero => simp [Variant.vsize] at hn
      | succ n => exact Dec.map_ok (f := Variant.decimal32) (readFixed_append _ v rest)⟩
  | .decimal64 v, _ => ⟨FC.decimal64, v.1, rfl, fun n hn rest => by
      cases n with
      | zero => simp [Variant.vsize] at hn
      | succ n => exact Dec.map_ok (f := Variant.decimal64) (readFixed_append _ v rest)⟩
  | .decimal128 v, _ => ⟨FC.decimal128, v.1, rfl, fun n hn rest => by
      cases n with
      | zero => simp [Variant.vsize] at hn
      | succ n => exact Dec.map_ok (f := Variant.decimal128) (readFixed_append _ v rest)⟩
  | .char v, _ => RTV.of_prim (f := .char) (LawfulWire.rt v trivial) rfl fun n c tl h => by
      simp [enc] at h; obtain ⟨rfl, _⟩ := h; rfl
  | .timestamp v, h => RTV.of_prim (f := .timestamp) (LawfulWire.rt v h) rfl fun n c tl h => by
      simp [enc] at h; obtain ⟨rfl, _⟩ := h; rfl
  | .uuid v, _ => RTV.of_prim (f := .uuid) (LawfulWire.rt v trivial) rfl fun n c tl h => by
      simp [enc] at h; obtain ⟨rfl, _⟩ := h; rfl
  | .binary v, h => RTV.of_prim (f := .binary) (LawfulWire.rt v h) rfl fun n c tl h => by
      simp only [enc, encVar] at h
      split at h <;> simp at h <;> obtain ⟨rfl, _⟩ := h <;> rfl
  | .string v, h => RTV.of_prim (f := .string) (LawfulWire.rt v h) rfl fun n c tl h => by
      simp only [enc, encVar] at h
      split at h <;> simp at h <;> obtain ⟨rfl, _⟩ := h <;> rfl
  | .symbol v, h => RTV.of_prim (f := .symbol) (LawfulWire.rt v h) rfl fun n c tl h => by
      simp only [enc, encVar] at h
      split at h <;> simp at h <;> obtain ⟨rfl, _⟩ := h <;> rfl
  | .list l, h => by
      simp only [Variant.wfv] at h
      have hl := rtvList l h.1
      have hlen := h.2
      rw [listEnc_length] at hlen
      have hge := listSize_ge l
      obtain ⟨c, tl, he, hc, hd⟩ := encHeader_rt (c8 := FC.list8) (c32 := FC.list32) (hdr := listHeader)
        (size := Variant.listSize l) (count := l.length) rfl rfl hlen (by omega) (by omega)
      refine ⟨c, tl ++ Variant.listEnc l, by simp [Variant.venc, he], fun n hn rest => ?_⟩
      have hs := headerSize_ge (Variant.listSize l)
      simp only [Variant.vsize] at hn
      cases n with
      | zero => omega
      | succ n =>
        have : decVarF (n + 1) c = (do
            let (_, count) ← listHeader c
            return .list (← repeatDec count (do let c ← readU8; decVarF n c))) := by
          rcases hc with rfl | rfl <;> rfl
        rw [this, List.append_assoc, Dec.bind_ok (hd _)]
        exact Dec.map_ok (repeatDec_enc l hl (by omega) rest)
  | .map m, h => by
      simp only [Variant.wfv] at h
      have hm := rtvMap m h.1
      have hlen := h.2.1
      rw [mapEnc_length] at hlen
      have hge := mapSize_ge m
      obtain ⟨c, tl, he, hc, hd⟩ := encHeader_rt (c8 := FC.map8) (c32 := FC.map32) (hdr := mapHeader)
        (size := Variant.mapSize m) (count := m.length * 2) rfl rfl hlen (by omega) (by omega)
      refine ⟨c, tl ++ Variant.mapEnc m, by simp [Variant.venc, he], fun n hn rest => ?_⟩
      have hs := headerSize_ge (Variant.mapSize m)
      simp only [Variant.vsize] at hn
      cases n with
      | zero => omega
      | succ n =>
        have : decVarF (n + 1) c = (do
            let (size, count) ← mapHeader c
            return .map (← limit size
              (mapLoop Variant.hashable Variant.keyEq (do let c ← readU8; decVarF n c) (do let c ← readU8; decVarF n c)
                (count / 2) []))) := by
          rcases hc with rfl | rfl <;> rfl
        rw [this, List.append_assoc, Dec.bind_ok (hd _)]
        refine Dec.map_ok ?_
        simp only [Nat.mul_div_left _ (by omega : 0 < 2)]
        have := mapLoop_enc (n := n) m [] hm (by omega) (by simpa using h.2.2) []
        simp only [List.append_nil, List.nil_append] at this
        exact limit_append (mapEnc_length m).symm this
  | .array count ctor payload, h => by
      simp only [Variant.wfv] at h
      obtain ⟨hc, hs, hcnt⟩ := h
      have hct := SizeWire.size_eq ctor
      obtain ⟨c, tl, he, hcc, hd⟩ := encHeader_rt (c8 := FC.array8) (c32 := FC.array32) (hdr := arrayHeader)
        (size := size ctor + payload.length) (count := count.toNat) rfl rfl (by omega) (by simp)
        (fun h => by
          have := hcnt (by omega)
          simpa [UInt32.lt_iff_toNat_lt] using this)
      refine ⟨c, tl ++ (enc ctor ++ payload), by simp [Variant.venc, he], fun n hn rest => ?_⟩
      simp only [Variant.vsize] at hn
      have hsz := headerSize_ge (size ctor + payload.length)
      cases n with
      | zero => omega
      | succ n =>
        have : decVarF (n + 1) c = decArray c := by rcases hcc with rfl | rfl <;> rfl
        rw [this, decArray, List.append_assoc, Dec.bind_ok (hd _)]
        have hsp : (size ctor + payload.length) = (enc ctor ++ payload).length := by simp [hct]
        simp only [hsp]
        rw [Dec.bind_ok (splitTo_append _ _ _ rfl)]
        simp [rt_dec hc payload, Dec.pure_def]
  | .described d v, h => by
      simp only [Variant.wfv] at h
      obtain ⟨hd, hv, hnc⟩ := h
      obtain ⟨c, tl, he, hr⟩ := rtv v hv
      obtain ⟨dtl, hde, hdd⟩ := descriptor_dec d hd
      refine ⟨FC.described, dtl ++ v.venc, by simp [Variant.venc, hde], fun n hn rest => ?_⟩
      have hsd := SizeWire.size_eq d
      simp only [hde, List.length_cons] at hsd
      simp only [Variant.vsize] at hn
      cases n with
      | zero => have := vsize_pos v; omega
      | succ n =>
        have : decVarF (n + 1) FC.described = (do
          let d ← (dec : Dec Descriptor)
          let (c, raw) ← decCompoundRaw
          match raw with
          | some data => return .describedCompound d data
          | none => return .described d (← decVarF n c)) := rfl
        rw [this, List.append_assoc, Dec.bind_ok (hdd _), he, List.cons_append,
          Dec.bind_ok (venc_head_not_compound hnc c tl he _)]
        exact Dec.map_ok (hr n (by omega) rest)
  | .describedCompound d data, h => by
      simp only [Variant.wfv] at h
      obtain ⟨hd, hraw⟩ := h
      obtain ⟨dtl, hde, hdd⟩ := descriptor_dec d hd
      refine ⟨FC.described, dtl ++ data, by simp [Variant.venc, hde], fun n hn rest => ?_⟩
      cases n with
      | zero => have := vsize_pos (.describedCompound d data); omega
      | succ n =>
        have : decVarF (n + 1) FC.described = (do
          let d ← (dec : Dec Descriptor)
          let (c, raw) ← decCompoundRaw
          match raw with
          | some data => return .describedCompound d data
          | none => return .described d (← decVarF n c)) := rfl
        obtain ⟨c, hc⟩ := rawCompound_dec hraw rest
        rw [this, List.append_assoc, Dec.bind_ok (hdd _), Dec.bind_ok hc]
        rfl

theorem rtvList : ∀ l : List Variant, Variant.wfvList l → ∀ v ∈ l, RTV v
  | [], _ => by simp
  | v :: l, h => by
    simp only [Variant.wfvList] at h
    have h1 := rtv v h.1
    have h2 := rtvList l h.2
    intro w hw
    rcases List.mem_cons.1 hw with rfl | hw
    · exact h1
    · exact h2 w hw

theorem rtvMap : ∀ m : List (Variant × Variant), Variant.wfvMap m →
    ∀ e ∈ m, RTV e.1 ∧ RTV e.2 ∧ e.1.hashable = true
  | [], _ => by simp
  | (k, v) :: m, h => by
    simp only [Variant.wfvMap] at h
    have h1 := rtv k h.1
    have h2 := rtv v h.2.2.1
    have h3 := rtvMap m h.2.2.2
    intro e he
    rcases List.mem_cons.1 he with rfl | he
    · exact ⟨h1, h2, h.2.1⟩
    · exact h3 e he
end

instance : LawfulWire Variant where
  rt v h := by
    obtain ⟨c, tl, he, hd⟩ := rtv v h
    refine ⟨c, tl, he, fun rest => ?_⟩
    have hl := venc_length v
    rw [he] at hl
    refine hd ((tl ++ rest).length + 2) ?_ rest
    simp at hl ⊢; omega

end Amqp
