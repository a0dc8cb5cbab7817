import Verif.Spec.Panic
import Verif.Lemmas.Structs
import Verif.Lemmas.Message
/-! When decoders can panic. -/

namespace Amqp
open Dec

/-- On inputs satisfying `P` the decoder does not panic, and it consumes from the front. -/
structure Total (P : Bytes → Prop) (d : Dec α) : Prop where
  quiet : ∀ s, P s → d s ≠ .error .panic
  suffix : ∀ s a r, d s = .ok (a, r) → r <:+ s

/-- No hazard in the input, or in the input with the format code put back. -/
abbrev Calm (s : Bytes) : Prop := ¬ Hazard s
abbrev CalmAt (c : UInt8) (s : Bytes) : Prop := ¬ Hazard (c :: s)
/-- any input -/
abbrev Any (_ : Bytes) : Prop := True

theorem Hazard.infix {s t : Bytes} (h : s <:+: t) : Hazard s → Hazard t
  | .inl ⟨c, hc, hi⟩ => .inl ⟨c, hc, hi.trans h⟩
  | .inr (.inl ⟨c, hc, b, hb, hi⟩) => .inr (.inl ⟨c, hc, b, hb, hi.trans h⟩)
  | .inr (.inr hn) => .inr (.inr (Nat.le_trans hn (h.sublist.countP_le)))

theorem Calm.infix {s t : Bytes} (h : s <:+: t) (ht : Calm t) : Calm s := fun hs => ht (hs.infix h)
theorem CalmAt.calm {c : UInt8} {s : Bytes} (h : CalmAt c s) : Calm s := Calm.infix (List.infix_cons (List.infix_refl s)) h
theorem Calm.suffix {s t : Bytes} (h : s <:+ t) (ht : Calm t) : Calm s := ht.infix h.isInfix

theorem Total.mono {P Q : Bytes → Prop} {d : Dec α} (h : Total Q d) (hpq : ∀ s, P s → Q s) : Total P d :=
  ⟨fun s hs => h.quiet s (hpq s hs), h.suffix⟩

theorem Total.of_any {P : Bytes → Prop} {d : Dec α} (h : Total Any d) : Total P d := h.mono fun _ _ => trivial
theorem Total.at_ {c : UInt8} {d : Dec α} (h : Total Calm d) : Total (CalmAt c) d := h.mono fun _ h => h.calm

theorem Total.bindGen {P Q : Bytes → Prop} {m : Dec α} {f : α → Dec β} (hm : Total P m) (hf : ∀ a, Total Q (f a))
    (hpq : ∀ s r, P s → r <:+ s → Q r) : Total P (m >>= f) where
  quiet s hs := by
    cases h : m s with
    | error e => rw [Dec.bind_err h]; exact fun he => hm.quiet s hs (by rw [h]; cases he; rfl)
    | ok x =>
      obtain ⟨a, r⟩ := x
      rw [Dec.bind_ok h]
      exact (hf a).quiet r (hpq s r hs (hm.suffix s a r h))
  suffix s b r hd := by
    cases h : m s with
    | error e => rw [Dec.bind_err h] at hd; cases hd
    | ok x =>
      obtain ⟨a, r'⟩ := x
      rw [Dec.bind_ok h] at hd
      exact ((hf a).suffix r' b r hd).trans (hm.suffix s a r' h)

theorem Total.bind {m : Dec α} {f : α → Dec β} (hm : Total Calm m) (hf : ∀ a, Total Calm (f a)) : Total Calm (m >>= f) :=
  hm.bindGen hf fun _ _ h hs => h.suffix hs
theorem Total.bindAt {c : UInt8} {m : Dec α} {f : α → Dec β} (hm : Total (CalmAt c) m) (hf : ∀ a, Total Calm (f a)) :
    Total (CalmAt c) (m >>= f) := hm.bindGen hf fun _ _ h hs => h.calm.suffix hs
theorem Total.bindAny {m : Dec α} {f : α → Dec β} (hm : Total Any m) (hf : ∀ a, Total Any (f a)) : Total Any (m >>= f) :=
  hm.bindGen hf fun _ _ _ _ => trivial

theorem Total.pure {P : Bytes → Prop} (a : α) : Total P (pure a : Dec α) :=
  ⟨fun s _ h => (nomatch h), fun s a r h => by cases h; exact List.suffix_refl _⟩
theorem Total.fail {P : Bytes → Prop} {e : Err} (he : e ≠ .panic) : Total P (fail e : Dec α) :=
  ⟨fun s _ h => he (by cases h; rfl), fun s a r h => nomatch h⟩
theorem Total.ite {P : Bytes → Prop} {c : Prop} [Decidable c] {a b : Dec α} (ha : Total P a) (hb : Total P b) :
    Total P (if c then a else b) := by split <;> assumption
theorem Total.ite' {P : Bytes → Prop} {c : Prop} [Decidable c] {a b : Dec α} (ha : c → Total P a) (hb : Total P b) :
    Total P (if c then a else b) := by
  split
  · exact ha ‹_›
  · exact hb

theorem Total.of_good {P : Bytes → Prop} {d : Dec α} (hg : Good d) (h : ∀ s, P s → d s ≠ .error .panic) : Total P d :=
  ⟨h, fun s a r hd => by obtain ⟨p, rfl, _⟩ := hg.ok s a r hd; exact List.suffix_append p r⟩

theorem Total.readU8 : Total Any readU8 := .of_good .readU8 fun s _ h => by cases s <;> simp [Amqp.readU8] at h
theorem Total.readI8 : Total Any readI8 := Total.readU8.bindAny fun _ => .pure _
theorem Total.splitTo (n : Nat) : Total Any (splitTo n) :=
  .of_good (.splitTo n) fun s _ h => by simp only [Dec.splitTo] at h; split at h <;> simp at h
theorem Total.readBE (n : Nat) : Total Any (readBE n) :=
  .of_good (.readBE n) fun s _ h => by simp only [Amqp.readBE] at h; split at h <;> simp at h
theorem Total.readFixed (n : Nat) : Total Any (readFixed n) :=
  .of_good (.readFixed n) fun s _ h => by simp only [Amqp.readFixed] at h; split at h <;> simp at h
theorem Total.readBytesU8 : Total Any readBytesU8 := Total.readU8.bindAny fun _ => .splitTo _
theorem Total.readBytesU32 : Total Any readBytesU32 := (Total.readBE 4).bindAny fun _ => .splitTo _
theorem Total.checkUtf8 (b : Bytes) : Total Any (checkUtf8 b) := .ite (.pure _) (.fail (by simp))

theorem Total.limit {P Q : Bytes → Prop} {d : Dec α} (n : Nat) (hd : Total Q d) (hpq : ∀ s, P s → Q (s.take n)) :
    Total P (limit n d) where
  quiet s hs h := by
    simp only [Dec.limit] at h
    split at h
    · simp at h
    · cases hh : d (s.take n) with
      | ok x => rw [hh] at h; simp at h
      | error e => rw [hh] at h; exact hd.quiet _ (hpq s hs) (by rw [hh]; simpa using h)
  suffix s a r h := by
    simp only [Dec.limit] at h
    split at h
    · simp at h
    · cases hh : d (s.take n) with
      | error e => rw [hh] at h; simp at h
      | ok x => rw [hh] at h; simp at h; rw [← h.2]; exact List.drop_suffix n s

theorem Total.repeatGen {P : Bytes → Prop} {d : Dec α} (hd : Total P d) (hp : ∀ s r, P s → r <:+ s → P r) :
    ∀ k, Total P (repeatDec k d)
  | 0 => .pure _
  | k + 1 => hd.bindGen (fun _ => (Total.repeatGen hd hp k).bindGen (fun _ => .pure _) hp) hp

theorem Total.repeatDec {d : Dec α} (hd : Total Calm d) (k : Nat) : Total Calm (repeatDec k d) :=
  hd.repeatGen (fun _ _ h hs => h.suffix hs) k

theorem Total.liftE {P : Bytes → Prop} {e : Except Err α} (he : e ≠ .error .panic) : Total P (liftE e) := by
  cases e with
  | ok a => exact .pure a
  | error e => exact .fail (by simpa using he)

theorem Total.compound8 {c : UInt8} (hc : c ∈ ([0xc0, 0xc1, 0xe0] : Bytes)) : Total (CalmAt c) compound8 :=
  .of_good .compound8 fun s hs h => by
    match s with
    | [] => simp [Amqp.compound8] at h
    | [_] => simp [Amqp.compound8] at h
    | a :: b :: rest =>
      simp only [Amqp.compound8] at h
      split at h
      · rename_i h0
        subst h0
        exact hs (.inl ⟨c, hc, [], b :: rest, rfl⟩)
      · simp at h

theorem beNat_small {a b c d : UInt8} (h : beNat [a, b, c, d] < 4) : a = 0 ∧ b = 0 ∧ c = 0 ∧ d < 4 := by
  have ha := a.toNat_lt
  have hb := b.toNat_lt
  have hc := c.toNat_lt
  simp only [beNat, List.length_cons, List.length_nil] at h
  have e1 : a.toNat = 0 := by omega
  have e2 : b.toNat = 0 := by omega
  have e3 : c.toNat = 0 := by omega
  refine ⟨UInt8.toNat_inj.mp (by simpa using e1), UInt8.toNat_inj.mp (by simpa using e2), UInt8.toNat_inj.mp (by simpa using e3), ?_⟩
  show d.toNat < 4
  omega

theorem Total.compound32 {c : UInt8} (hc : c ∈ ([0xd0, 0xd1, 0xf0] : Bytes)) : Total (CalmAt c) compound32 :=
  .of_good .compound32 fun s hs h => by
    simp only [Amqp.compound32] at h
    split at h
    · simp at h
    · rename_i h8
      split at h
      · rename_i hlt
        match s with
        | x :: y :: z :: w :: rest =>
          obtain ⟨rfl, rfl, rfl, hw⟩ := beNat_small (by simpa using hlt)
          exact hs (.inr (.inl ⟨c, hc, w, hw, [], rest, rfl⟩))
        | [] | [_] | [_, _] | [_, _, _] => simp at h8
      · simp at h

theorem Total.listHeader (fmt : UInt8) : Total (CalmAt fmt) (listHeader fmt) :=
  .ite (.pure _) (.ite' (fun h => .compound8 (by simp [h])) (.ite' (fun h => .compound32 (by simp [h])) (.fail (by simp))))
theorem Total.mapHeader (fmt : UInt8) : Total (CalmAt fmt) (mapHeader fmt) :=
  .ite' (fun h => .compound8 (by simp [h])) (.ite' (fun h => .compound32 (by simp [h])) (.fail (by simp)))
theorem Total.arrayHeader (fmt : UInt8) : Total (CalmAt fmt) (arrayHeader fmt) :=
  .ite' (fun h => .compound8 (by simp [h])) (.ite' (fun h => .compound32 (by simp [h])) (.fail (by simp)))

/-- Types whose decoder never panics. -/
class QuietWire (α : Type) [Wire α] : Prop where
  quiet : ∀ fmt, Total Any (decF fmt : Dec α)

/-- Types whose decoder panics only on hazardous input. -/
class CalmWire (α : Type) [Wire α] : Prop where
  calm : ∀ fmt, Total (CalmAt fmt) (decF fmt : Dec α)

instance [Wire α] [QuietWire α] : CalmWire α := ⟨fun fmt => (QuietWire.quiet fmt).of_any⟩

theorem Total.decF [Wire α] [CalmWire α] (fmt : UInt8) : Total (CalmAt fmt) (decF fmt : Dec α) := CalmWire.calm fmt

theorem Total.readThen {f : UInt8 → Dec α} (h : ∀ c, Total (CalmAt c) (f c)) : Total Calm (Amqp.readU8 >>= f) where
  quiet s hs := by
    cases s with
    | nil => exact nofun
    | cons c s => exact (h c).quiet s hs
  suffix s a r hd := by
    cases s with
    | nil => cases hd
    | cons c s => exact ((h c).suffix s a r hd).trans (List.suffix_cons c s)

theorem Total.dec [Wire α] [CalmWire α] : Total Calm (Amqp.dec : Dec α) := Total.readThen fun c => .decF c
theorem Total.decAny [Wire α] [QuietWire α] : Total Any (Amqp.dec : Dec α) :=
  Total.readU8.bindAny fun c => QuietWire.quiet c

section prim
local macro "prim" : tactic => `(tactic| (intro fmt; repeat' first
  | exact Total.fail (by simp)
  | exact Total.pure _
  | exact Total.readU8 | exact Total.readI8 | exact Total.readBE _ | exact Total.readFixed _ | exact Total.readBytesU8
  | exact Total.readBytesU32 | exact Total.checkUtf8 _
  | refine Total.ite ?_ ?_
  | refine Total.bindAny ?_ fun _ => ?_))

instance : QuietWire Bool := ⟨by prim⟩
instance : QuietWire UInt8 := ⟨by prim⟩
instance : QuietWire UInt16 := ⟨by prim⟩
instance : QuietWire UInt32 := ⟨by prim⟩
instance : QuietWire UInt64 := ⟨by prim⟩
instance : QuietWire Int8 := ⟨by prim⟩
instance : QuietWire Int16 := ⟨by prim⟩
instance : QuietWire Int32 := ⟨by prim⟩
instance : QuietWire Int64 := ⟨by prim⟩
instance : QuietWire F32 := ⟨by prim⟩
instance : QuietWire F64 := ⟨by prim⟩
instance : QuietWire Uuid := ⟨by prim⟩
instance : QuietWire Bytes := ⟨by prim⟩
instance : QuietWire Str := ⟨by prim⟩
instance : QuietWire Symbol := ⟨by prim⟩
end prim

instance : QuietWire Char := ⟨fun fmt => .ite ((Total.readBE 4).bindAny fun o => by
  split
  · exact .pure _
  · exact .fail (by simp)) (.fail (by simp))⟩

theorem datetimeFromMillis_ne_panic (m : Int) : datetimeFromMillis m ≠ .error .panic := by
  simp only [datetimeFromMillis]
  split <;> split <;> simp

instance : QuietWire Timestamp :=
  ⟨fun fmt => .ite ((Total.readBE 8).bindAny fun o => .liftE (datetimeFromMillis_ne_panic _)) (.fail (by simp))⟩

instance [Wire α] [QuietWire α] : QuietWire (Option α) :=
  ⟨fun fmt => .ite (.pure _) ((QuietWire.quiet fmt).bindAny fun _ => .pure _)⟩
instance [Wire α] [CalmWire α] : CalmWire (Option α) :=
  ⟨fun fmt => .ite (.pure _) ((Total.decF fmt).bindAt fun _ => .pure _)⟩

instance : QuietWire Descriptor := ⟨fun fmt =>
  .ite ((QuietWire.quiet fmt).bindAny fun _ => .pure _) <| .ite ((QuietWire.quiet fmt).bindAny fun _ => .pure _) <|
  .ite ((QuietWire.quiet fmt).bindAny fun _ => .pure _) <| .ite ((QuietWire.quiet fmt).bindAny fun _ => .pure _) <|
  .fail (by simp)⟩

instance : QuietWire Constructor := ⟨fun _ =>
  .ite (Total.decAny.bindAny fun _ => Total.readU8.bindAny fun _ => .pure _) (.pure _)⟩

/-! ### Variant -/

theorem Total.mapLoop {P : Bytes → Prop} {ho : κ → Bool} {eq : κ → κ → Bool} {dk : Dec κ} {dv : Dec ν}
    (hk : Total P dk) (hv : Total P dv) (hp : ∀ s r, P s → r <:+ s → P r)
    (hh : ∀ s k r, P s → dk s = .ok (k, r) → ho k = true) :
    ∀ n m, Total P (mapLoop ho eq dk dv n m)
  | 0, m => .pure _
  | n + 1, m => by
    have ih := Total.mapLoop (eq := eq) hk hv hp hh n
    constructor
    · intro s hs h
      rw [Amqp.mapLoop] at h
      cases h1 : dk s with
      | error e => rw [Dec.bind_err h1] at h; exact hk.quiet s hs (by rw [h1]; cases h; rfl)
      | ok x =>
        obtain ⟨k, r⟩ := x
        rw [Dec.bind_ok h1, hh s k r hs h1] at h
        refine (hv.bindGen (f := fun v => if true = true then Amqp.mapLoop ho eq dk dv n (mapInsert eq m k v) else Dec.fail .panic)
          (fun v => ?_) hp).quiet r (hp s r hs (hk.suffix s k r h1)) h
        rw [if_pos rfl]; exact ih _
    · intro s a r h
      rw [Amqp.mapLoop] at h
      cases h1 : dk s with
      | error e => rw [Dec.bind_err h1] at h; cases h
      | ok x =>
        obtain ⟨k, r1⟩ := x
        rw [Dec.bind_ok h1] at h
        cases h2 : dv r1 with
        | error e => rw [Dec.bind_err h2] at h; cases h
        | ok y =>
          obtain ⟨v, r2⟩ := y
          rw [Dec.bind_ok h2] at h
          split at h
          · exact ((ih _).suffix _ _ _ h).trans ((hv.suffix _ _ _ h2).trans (hk.suffix _ _ _ h1))
          · cases h

theorem Total.decArray (fmt : UInt8) : Total (CalmAt fmt) (decArray fmt) :=
  (Total.arrayHeader fmt).bindAt fun _ => (Total.splitTo _).of_any.bind fun sub => by
    show Total Calm (match (Amqp.dec : Dec Constructor) sub with | .ok (ctor, payload) => _ | .error e => _)
    cases h : (Amqp.dec : Dec Constructor) sub with
    | ok x => exact .pure _
    | error e => exact .fail fun he => Total.decAny.quiet sub trivial (by rw [h, he])

theorem decCompoundRaw_cases {s r : Bytes} {c : UInt8} {raw : Option Bytes} (h : decCompoundRaw s = .ok ((c, raw), r)) :
    r <:+ s ∧ (raw = none → s = c :: r) := by
  have hs : r <:+ s := by obtain ⟨p, rfl, _⟩ := Good.decCompoundRaw.ok _ _ _ h; exact List.suffix_append p r
  refine ⟨hs, fun hr => ?_⟩
  subst hr
  cases s with
  | nil => simp [decCompoundRaw] at h
  | cons a s =>
    simp only [decCompoundRaw] at h
    split at h
    · simp at h
    · split at h
      · split at h
        · simp at h
        · split at h <;> simp at h
      · split at h
        · split at h
          · simp at h
          · split at h <;> simp at h
        · simp at h; rw [h.1, h.2]

theorem decCompoundRaw_quiet (s : Bytes) : decCompoundRaw s ≠ .error .panic := by
  intro h
  cases s with
  | nil => simp [decCompoundRaw] at h
  | cons a s =>
    simp only [decCompoundRaw] at h
    split at h
    · simp at h
    · split at h
      · split at h
        · simp at h
        · split at h <;> simp at h
      · split at h
        · split at h
          · simp at h
          · split at h <;> simp at h
        · simp at h

/-- A value that cannot be hashed comes from bytes with a map code in them. -/
def HashPost (c : UInt8) (d : Dec Variant) : Prop :=
  ∀ s v r, d s = .ok (v, r) → v.hashable = false → ∃ b ∈ c :: s, isMapCode b = true

theorem HashPost.ite {c : UInt8} {p : Prop} [Decidable p] {a b : Dec Variant} (ha : HashPost c a) (hb : HashPost c b) :
    HashPost c (if p then a else b) := by split <;> assumption
theorem HashPost.map {c : UInt8} {m : Dec α} {f : α → Variant} (h : ∀ a, (f a).hashable = true) :
    HashPost c (do return f (← m)) := by
  intro s v r hd hv
  cases hm : m s with
  | error e => rw [Dec.bind_err hm] at hd; cases hd
  | ok x =>
    obtain ⟨a, r'⟩ := x
    rw [Dec.bind_ok hm] at hd
    cases hd
    rw [h] at hv; cases hv
theorem HashPost.pure {c : UInt8} {v : Variant} (h : v.hashable = true) : HashPost c (pure v) := by
  intro s v' r hd hv
  cases hd
  rw [h] at hv; cases hv

theorem hashableList_false : ∀ {l : List Variant}, Variant.hashableList l = false → ∃ v ∈ l, v.hashable = false
  | [], h => by rw [Variant.hashableList] at h; cases h
  | v :: l, h => by
    rw [Variant.hashableList, Bool.and_eq_false_iff] at h
    rcases h with h | h
    · exact ⟨v, List.mem_cons_self .., h⟩
    · obtain ⟨w, hw, h⟩ := hashableList_false h
      exact ⟨w, List.mem_cons_of_mem _ hw, h⟩

theorem repeatDec_mem {d : Dec α} (hs : ∀ s a r, d s = .ok (a, r) → r <:+ s) : ∀ (k : Nat) (s : Bytes) (l : List α) (r : Bytes),
    repeatDec k d s = .ok (l, r) → ∀ a ∈ l, ∃ s' r', s' <:+ s ∧ d s' = .ok (a, r')
  | 0, s, l, r, h, a, ha => by cases h; cases ha
  | k + 1, s, l, r, h, a, ha => by
    rw [repeatDec] at h
    cases h1 : d s with
    | error e => rw [Dec.bind_err h1] at h; cases h
    | ok x =>
      obtain ⟨b, r1⟩ := x
      rw [Dec.bind_ok h1] at h
      cases h2 : repeatDec k d r1 with
      | error e => rw [Dec.bind_err h2] at h; cases h
      | ok y =>
        obtain ⟨l', r2⟩ := y
        rw [Dec.bind_ok h2] at h
        cases h
        rcases List.mem_cons.mp ha with rfl | ha
        · exact ⟨s, r1, List.suffix_refl _, h1⟩
        · obtain ⟨s', r', hs', hd⟩ := repeatDec_mem hs k r1 l' r h2 a ha
          exact ⟨s', r', hs'.trans (hs _ _ _ h1), hd⟩

theorem decVarF_suffix (n : Nat) (fmt : UInt8) {s r : Bytes} {v : Variant} (h : decVarF n fmt s = .ok (v, r)) : r <:+ s := by
  obtain ⟨p, rfl, _⟩ := (decVarF_ref n n (Nat.le_refl _) fmt).ok s v r h
  exact List.suffix_append p r

theorem readThen_suffix {f : UInt8 → Dec α} (h : ∀ c s a r, f c s = .ok (a, r) → r <:+ s) (s : Bytes) (a : α) (r : Bytes)
    (hd : (readU8 >>= f) s = .ok (a, r)) : r <:+ s := by
  cases s with
  | nil => cases hd
  | cons c s => exact (h c s a r hd).trans (List.suffix_cons c s)

theorem decVarF_hash : ∀ (n : Nat) (fmt : UInt8), HashPost fmt (decVarF n fmt)
  | 0, _ => fun s v r h => nomatch h
  | n + 1, fmt => by
    have ih := decVarF_hash n
    have hrec : ∀ s v r, (do let c ← readU8; decVarF n c) s = .ok (v, r) → v.hashable = false → ∃ b ∈ s, isMapCode b = true := by
      intro s v r h hv
      cases s with
      | nil => cases h
      | cons c s => exact ih c s v r h hv
    rw [decVarF]
    refine .ite (.pure rfl) <| .ite (.map fun _ => rfl) <| .ite (.pure rfl) <| .ite (.pure rfl) <| .ite (.pure rfl) <|
      .ite (.pure rfl) <| .ite (.map fun _ => rfl) <| .ite (.map fun _ => rfl) <| .ite (.map fun _ => rfl) <|
      .ite (.map fun _ => rfl) <| .ite (.map fun _ => rfl) <| .ite (.map fun _ => rfl) <| .ite (.map fun _ => rfl) <|
      .ite (.map fun _ => rfl) <| .ite (.map fun _ => rfl) <| .ite (.map fun _ => rfl) <| .ite (.map fun _ => rfl) <|
      .ite (.map fun _ => rfl) <| .ite (.map fun _ => rfl) <| .ite (.map fun _ => rfl) <| .ite (.map fun _ => rfl) <|
      .ite (.map fun _ => rfl) <| .ite (.map fun _ => rfl) <| .ite (.map fun _ => rfl) <| .ite (.map fun _ => rfl) <|
      .ite (.map fun _ => rfl) <| .ite (.map fun _ => rfl) <| .ite (.map fun _ => rfl) <| .ite (.map fun _ => rfl) <|
      .ite (.pure rfl) <| .ite ?list <| .ite ?array ?rest
    case list =>
      intro s v r h hv
      cases h1 : listHeader fmt s with
      | error e => rw [Dec.bind_err h1] at h; cases h
      | ok x =>
        obtain ⟨⟨sz, count⟩, r1⟩ := x
        rw [Dec.bind_ok h1] at h
        simp only at h
        cases h2 : repeatDec count (do let c ← readU8; decVarF n c) r1 with
        | error e => rw [Dec.bind_err h2] at h; cases h
        | ok y =>
          obtain ⟨l, r2⟩ := y
          rw [Dec.bind_ok h2] at h
          cases h
          rw [Variant.hashable] at hv
          obtain ⟨w, hw, hwh⟩ := hashableList_false hv
          obtain ⟨s', r', hs', hd⟩ := repeatDec_mem
            (readThen_suffix fun c s a r => decVarF_suffix n c) count r1 l r h2 w hw
          obtain ⟨b, hb, hm⟩ := hrec s' w r' hd hwh
          have h1s : r1 <:+ s := by obtain ⟨p, rfl, _⟩ := (Good.listHeader fmt).ok _ _ _ h1; exact List.suffix_append p r1
          exact ⟨b, List.mem_cons_of_mem _ ((hs'.trans h1s).subset hb), hm⟩
    case array =>
      intro s v r h hv
      exfalso
      rw [decArray] at h
      cases h1 : arrayHeader fmt s with
      | error e => rw [Dec.bind_err h1] at h; cases h
      | ok x =>
        obtain ⟨⟨sz, count⟩, r1⟩ := x
        rw [Dec.bind_ok h1] at h
        simp only at h
        cases h2 : splitTo sz r1 with
        | error e => rw [Dec.bind_err h2] at h; cases h
        | ok y =>
          obtain ⟨sub, r2⟩ := y
          rw [Dec.bind_ok h2] at h
          cases h3 : (dec : Dec Constructor) sub with
          | error e => rw [h3] at h; cases h
          | ok z => rw [h3] at h; cases h; cases hv
    case rest =>
      by_cases hmap : fmt = FC.map8 ∨ fmt = FC.map32
      · intro s v r _ _
        refine ⟨fmt, List.mem_cons_self .., ?_⟩
        rcases hmap with rfl | rfl <;> rfl
      · rw [if_neg hmap]
        refine .ite ?_ fun s v r h => nomatch h
        intro s v r h hv
        cases h1 : (dec : Dec Descriptor) s with
        | error e => rw [Dec.bind_err h1] at h; cases h
        | ok x =>
          obtain ⟨d, r1⟩ := x
          rw [Dec.bind_ok h1] at h
          cases h2 : decCompoundRaw r1 with
          | error e => rw [Dec.bind_err h2] at h; cases h
          | ok y =>
            obtain ⟨⟨c, raw⟩, r2⟩ := y
            rw [Dec.bind_ok h2] at h
            have h1s : r1 <:+ s := by obtain ⟨p, rfl, _⟩ := (Good.dec (α := Descriptor)).ok _ _ _ h1; exact List.suffix_append p r1
            cases raw with
            | some data => simp only at h; cases h; cases hv
            | none =>
              simp only at h
              cases h3 : decVarF n c r2 with
              | error e => rw [Dec.bind_err h3] at h; cases h
              | ok z =>
                obtain ⟨w, r3⟩ := z
                rw [Dec.bind_ok h3] at h
                cases h
                rw [Variant.hashable] at hv
                obtain ⟨b, hb, hm⟩ := ih c r2 w r h3 hv
                rw [← (decCompoundRaw_cases h2).2 rfl] at hb
                exact ⟨b, List.mem_cons_of_mem _ (h1s.subset hb), hm⟩

/-- No hazard and no map code at all. -/
abbrev CalmNoMap (s : Bytes) : Prop := Calm s ∧ ∀ b ∈ s, isMapCode b = false

theorem CalmAt.noMap {c : UInt8} (hc : isMapCode c = true) {s : Bytes} (h : CalmAt c s) : CalmNoMap s := by
  refine ⟨h.calm, fun b hb => ?_⟩
  cases hm : isMapCode b with
  | false => rfl
  | true =>
    exfalso
    refine h (.inr (.inr ?_))
    rw [List.countP_cons_of_pos hc]
    have : 0 < s.countP isMapCode := List.countP_pos_iff.mpr ⟨b, hb, hm⟩
    omega

theorem Total.decVarF : ∀ (n : Nat) (fmt : UInt8), Total (CalmAt fmt) (decVarF n fmt)
  | 0, _ => .fail (by simp)
  | n + 1, fmt => by
    have ih := Total.decVarF n
    have hrec : Total Calm (do let c ← Amqp.readU8; Amqp.decVarF n c) := Total.readThen ih
    have p {α : Type} [Wire α] [QuietWire α] (f : α → Variant) : Total (CalmAt fmt) (do return f (← Amqp.decF fmt)) :=
      Total.of_any ((QuietWire.quiet fmt).bindAny fun _ => .pure _)
    have q (k : Nat) (f : FixedBytes k → Variant) : Total (CalmAt fmt) (do return f (← Amqp.readFixed k)) :=
      Total.of_any ((Total.readFixed k).bindAny fun _ => .pure _)
    rw [Amqp.decVarF]
    refine .ite (.pure _) <| .ite (p _) <| .ite (.pure _) <| .ite (.pure _) <| .ite (.pure _) <|
      .ite (.pure _) <| .ite (p _) <| .ite (p _) <| .ite (p _) <|
      .ite (p _) <| .ite (p _) <| .ite (p _) <| .ite (p _) <|
      .ite (p _) <| .ite (p _) <| .ite (p _) <| .ite (p _) <|
      .ite (p _) <| .ite (p _) <| .ite (p _) <| .ite (q _ _) <|
      .ite (q _ _) <| .ite (q _ _) <| .ite (p _) <| .ite (p _) <|
      .ite (p _) <| .ite (p _) <| .ite (p _) <| .ite (p _) <|
      .ite (.pure _) <| .ite ?list <| .ite (.decArray fmt) <| .ite' ?map <| .ite ?desc <| .fail (by simp)
    case list => exact (Total.listHeader fmt).bindAt fun _ => (hrec.repeatDec _).bind fun _ => .pure _
    case map =>
      intro hmap
      have hm : isMapCode fmt = true := by rcases hmap with rfl | rfl <;> rfl
      have hcl : ∀ s r : Bytes, CalmNoMap s → r <:+ s → CalmNoMap r :=
        fun s r h hs => ⟨h.1.suffix hs, fun b hb => h.2 b (hs.subset hb)⟩
      refine ((Total.mapHeader fmt).mono (fun _ h => h)).bindGen (Q := CalmNoMap) (fun sc => ?_)
        fun s r h hs => hcl s r (CalmAt.noMap hm h) hs
      refine Total.bindGen (Q := CalmNoMap) ?_ (fun _ => .pure _) hcl
      refine Total.limit _ (Q := CalmNoMap) ?_ fun s h =>
        ⟨h.1.infix (List.take_prefix _ _).isInfix, fun b hb => h.2 b ((List.take_prefix _ _).subset hb)⟩
      refine Total.mapLoop (hrec.mono fun _ h => h.1) (hrec.mono fun _ h => h.1) hcl (fun s k r hs hk => ?_) _ _
      cases hh : k.hashable with
      | true => rfl
      | false =>
        exfalso
        cases s with
        | nil => cases hk
        | cons c s =>
          obtain ⟨b, hb, hbm⟩ := decVarF_hash n c s k r hk hh
          rw [hs.2 b hb] at hbm; cases hbm
    case desc =>
      refine (Total.of_any (Total.decAny (α := Descriptor))).bindAt fun d => ?_
      constructor
      · intro s hs h
        cases h2 : decCompoundRaw s with
        | error e => rw [Dec.bind_err h2] at h; cases h; exact decCompoundRaw_quiet s h2
        | ok y =>
          obtain ⟨⟨c, raw⟩, r2⟩ := y
          rw [Dec.bind_ok h2] at h
          cases raw with
          | some data => cases h
          | none =>
            simp only at h
            have hc := (decCompoundRaw_cases h2).2 rfl
            subst hc
            exact ((ih c).bindAt (f := fun v => Pure.pure (Variant.described d v)) fun _ => .pure _).quiet r2 hs h
      · intro s a r h
        cases h2 : decCompoundRaw s with
        | error e => rw [Dec.bind_err h2] at h; cases h
        | ok y =>
          obtain ⟨⟨c, raw⟩, r2⟩ := y
          rw [Dec.bind_ok h2] at h
          have hsuf := (decCompoundRaw_cases h2).1
          cases raw with
          | some data => cases h; exact hsuf
          | none =>
            simp only at h
            exact (((ih c).bindAt (f := fun v => Pure.pure (Variant.described d v)) fun _ => .pure _).suffix r2 a r h).trans hsuf

instance : CalmWire Variant where
  calm fmt := ⟨fun s hs => (Total.decVarF (s.length + 2) fmt).quiet s hs,
    fun s a r h => (Total.decVarF (s.length + 2) fmt).suffix s a r h⟩

/-! ### typed collections -/

/-- Key types whose hash never panics. -/
class TotalKey (κ : Type) [Key κ] : Prop where
  total : ∀ k : κ, hashOk k = true
instance : TotalKey Symbol := ⟨fun _ => rfl⟩
instance : TotalKey Str := ⟨fun _ => rfl⟩

theorem Total.limitCalm {d : Dec α} (n : Nat) (hd : Total Calm d) : Total Calm (Dec.limit n d) :=
  hd.limit n fun _ h => h.infix (List.take_prefix _ _).isInfix

instance [Wire κ] [Wire ν] [Key κ] [TotalKey κ] [CalmWire κ] [CalmWire ν] : CalmWire (HMap κ ν) :=
  ⟨fun fmt => (Total.mapHeader fmt).bindAt fun _ => (Total.limitCalm _ (Total.mapLoop .dec .dec
    (fun _ _ h hs => h.suffix hs) (fun _ k _ _ _ => TotalKey.total k) _ _)).bind fun _ => .pure _⟩

instance [Wire κ] [CalmWire κ] : CalmWire (VecMap κ) :=
  ⟨fun fmt => (Total.mapHeader fmt).bindAt fun _ => (Total.limitCalm _ (Total.repeatDec
    (Total.dec.bind fun _ => Total.dec.bind fun _ => .pure _) _)).bind fun _ => .pure _⟩

instance [Wire α] [ArrayWire α] [QuietWire α] : CalmWire (Arr α) :=
  ⟨fun fmt => (Total.arrayHeader fmt).bindAt fun sc => by
    refine Total.bind (m := ⟨fun s => if s.length < sc.1 then .error (.incomplete sc.1) else .ok ((), s)⟩) ?_ fun _ => ?_
    · constructor
      · intro s _ h; simp only at h; split at h <;> simp at h
      · intro s a r h; simp only at h; split at h
        · simp at h
        · simp at h; rw [h]; exact List.suffix_refl _
    · refine (Total.of_any Total.decAny).bind fun ctor => ?_
      cases ctor with
      | formatCode c =>
        exact Total.of_any ((Total.repeatGen (QuietWire.quiet c) (fun _ _ _ _ => trivial) _).bindAny fun _ => .pure _)
      | described d c => exact .fail (by simp)⟩

instance [Wire α] [ArrayWire α] [QuietWire α] : CalmWire (Multiple α) :=
  ⟨fun fmt => .ite ((Total.decF fmt).bindAt fun _ => .pure _) <|
    .ite ((Total.decF fmt).bindAt fun _ => .fail (by simp)) <| (Total.decF fmt).bindAt fun _ => .pure _⟩

instance : CalmWire VList :=
  ⟨fun fmt => (Total.listHeader fmt).bindAt fun _ => (Total.repeatDec .dec _).bind fun _ => .pure _⟩

/-! ### composite types -/

/-- Field decoders that panic only on hazards. -/
def FTotal (m : FDec α) : Prop := ∀ n, Total Calm (m.run n)

theorem FTotal.pure (a : α) : FTotal (pure a : FDec α) := fun _ => .pure _
theorem FTotal.bind {m : FDec α} {f : α → FDec β} (hm : FTotal m) (hf : ∀ a, FTotal (f a)) : FTotal (m >>= f) :=
  fun n => (hm n).bind fun an => hf an.1 an.2
theorem FTotal.req [Wire α] [CalmWire α] {name : String} : FTotal (req name : FDec α) :=
  fun _ => .ite (Total.dec.bind fun _ => .pure _) (.fail (by simp))
theorem FTotal.opt [Wire α] [CalmWire α] : FTotal (opt : FDec (Option α)) :=
  fun _ => .ite (Total.dec.bind fun _ => .pure _) (.pure _)
theorem FTotal.dflt [Wire α] [CalmWire α] {d : α} : FTotal (dflt d : FDec α) :=
  fun _ => .ite (Total.dec.bind fun _ => .pure _) (.pure _)

/-- Composite types whose fields panic only on hazards. -/
class CalmComposite (α : Type) [Composite α] : Prop where
  fields : FTotal (Composite.decFields : FDec α)

theorem Total.decInner [Composite α] [CalmComposite α] : Total Calm (Composite.decInner : Dec α) :=
  Total.readThen fun fmt => (Total.listHeader fmt).bindAt fun _ =>
    Total.limitCalm _ ((CalmComposite.fields (α := α) _).bind fun _ => .pure _)

theorem calmWire [Composite α] [CalmComposite α] : @CalmWire α (Composite.wire α) :=
  @CalmWire.mk α (Composite.wire α) fun _ =>
    .ite ((Total.of_any Total.decAny).bindAt fun _ => .ite Total.decInner (.fail (by simp))) (.fail (by simp))

end Amqp
