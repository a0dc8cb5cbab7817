import Verif.Lemmas.Variant
import Verif.Spec.Compound
/-! Round trip, exact size and locality of the typed collections. -/

namespace Amqp
open Dec

theorem repeatDec_rt {d : Dec α} {e : α → Bytes} : ∀ (l : List α),
    (∀ a ∈ l, ∀ rest, d (e a ++ rest) = .ok (a, rest)) → ∀ rest,
    repeatDec l.length d (l.flatMap e ++ rest) = .ok (l, rest)
  | [], _, _ => rfl
  | a :: l, h, rest => by
    simp only [List.flatMap_cons, List.append_assoc, List.length_cons, repeatDec]
    rw [Dec.bind_ok (h a (by simp) _), Dec.bind_ok (repeatDec_rt l (fun b hb => h b (by simp [hb])) rest)]
    rfl

theorem mapLoop_rt {ho : κ → Bool} {eq : κ → κ → Bool} {dk : Dec κ} {dv : Dec ν} {ek : κ → Bytes} {ev : ν → Bytes} :
    ∀ (m acc : List (κ × ν)),
    (∀ e ∈ m, (∀ rest, dk (ek e.1 ++ rest) = .ok (e.1, rest)) ∧ (∀ rest, dv (ev e.2 ++ rest) = .ok (e.2, rest)) ∧
      ho e.1 = true) →
    (acc ++ m).Pairwise (fun a b => eq a.1 b.1 = false) → ∀ rest,
    mapLoop ho eq dk dv m.length acc (m.flatMap (fun e => ek e.1 ++ ev e.2) ++ rest) = .ok (acc ++ m, rest)
  | [], acc, _, _, rest => by simp [mapLoop, Dec.pure_def]
  | (k, v) :: m, acc, h, hp, rest => by
    simp only [List.flatMap_cons, List.append_assoc, List.length_cons, mapLoop]
    obtain ⟨hk, hv, hh⟩ := h (k, v) (by simp)
    simp only at hk hv hh
    rw [Dec.bind_ok (hk _), Dec.bind_ok (hv _), if_pos hh]
    have hfresh : ∀ e ∈ acc, eq e.1 k = false := by
      intro e he
      rw [List.pairwise_append] at hp
      exact hp.2.2 e he (k, v) (by simp)
    rw [mapInsert_fresh hfresh]
    have := mapLoop_rt m (acc ++ [(k, v)]) (fun e he => h e (by simp [he])) (by simpa using hp) rest
    rw [this]
    simp

theorem encEntries_length [Wire κ] [Wire ν] [SizeWire κ] [SizeWire ν] (m : List (κ × ν)) :
    (encEntries m).length = sizeEntries m := by
  induction m with
  | nil => rfl
  | cons e m ih =>
    simp only [encEntries, List.flatMap_cons, List.length_append, sizeEntries, List.map_cons, List.sum_cons] at ih ⊢
    rw [ih, SizeWire.size_eq, SizeWire.size_eq]

theorem enc_pos [Wire α] [WF α] [LawfulWire α] {a : α} (h : wf a) : 1 ≤ (enc a).length := by
  obtain ⟨c, tl, he, _⟩ := LawfulWire.rt a h
  simp [he]

theorem flatMap_length_ge {l : List α} {e : α → Bytes} (k : Nat) (h : ∀ a ∈ l, k ≤ (e a).length) :
    l.length * k ≤ (l.flatMap e).length := by
  induction l with
  | nil => simp
  | cons a l ih =>
    have h1 := h a (by simp)
    have h2 := ih fun b hb => h b (by simp [hb])
    simp only [List.length_cons, List.flatMap_cons, List.length_append, Nat.add_mul]
    omega

section maps
variable [Wire κ] [Wire ν] [WF κ] [WF ν] [LawfulWire κ] [LawfulWire ν] [SizeWire κ] [SizeWire ν]

theorem mapHeader_rt (m : List (κ × ν)) (hw : ∀ e ∈ m, wf e.1 ∧ wf e.2) (hs : (encEntries m).length + 4 < U32) :
    ∃ c tl, encHeader FC.map8 FC.map32 (sizeEntries m) (m.length * 2) = c :: tl ∧ (c = FC.map8 ∨ c = FC.map32) ∧
      ∀ rest, mapHeader c (tl ++ rest) = .ok ((sizeEntries m, m.length * 2), rest) := by
  have hge : m.length * 2 ≤ (encEntries m).length := flatMap_length_ge 2 fun e he => by
    have h1 := enc_pos (hw e he).1
    have h2 := enc_pos (hw e he).2
    simp; omega
  rw [encEntries_length] at hs hge
  exact encHeader_rt rfl rfl hs (by omega) (by omega)

instance [Key κ] : LawfulWire (HMap κ ν) where
  rt m h := by
    obtain ⟨hw, hp, hs⟩ := h
    obtain ⟨c, tl, he, hc, hd⟩ := mapHeader_rt m.entries (fun e he => ⟨(hw e he).1, (hw e he).2.1⟩) hs
    refine ⟨c, tl ++ encEntries m.entries, by simp only [enc, he, List.cons_append], fun rest => ?_⟩
    rw [List.append_assoc]
    simp only [decF]
    rw [Dec.bind_ok (hd _)]
    simp only [Nat.mul_div_left _ (by omega : 0 < 2)]
    have hl := mapLoop_rt (ho := hashOk) (eq := keq) (dk := (dec : Dec κ)) (dv := (dec : Dec ν)) m.entries []
      (fun e he => ⟨rt_dec (hw e he).1, rt_dec (hw e he).2.1, (hw e he).2.2⟩) (by simpa using hp) []
    simp only [List.append_nil, List.nil_append] at hl
    exact Dec.map_ok (f := HMap.mk) (limit_append (encEntries_length m.entries).symm hl)

end maps

instance [Wire κ] [WF κ] [LawfulWire κ] [SizeWire κ] : LawfulWire (VecMap κ) where
  rt m h := by
    obtain ⟨hw, hs⟩ := h
    obtain ⟨c, tl, he, hc, hd⟩ := mapHeader_rt m.entries hw hs
    refine ⟨c, tl ++ encEntries m.entries, by simp only [enc, he, List.cons_append], fun rest => ?_⟩
    rw [List.append_assoc]
    simp only [decF]
    rw [Dec.bind_ok (hd _)]
    simp only [Nat.mul_div_left _ (by omega : 0 < 2)]
    have hl := repeatDec_rt (d := (do let k ← dec; let v ← dec; return (k, v) : Dec (κ × Variant)))
      (e := fun e => enc e.1 ++ enc e.2) m.entries
      (fun e he rest => by
        rw [List.append_assoc, Dec.bind_ok (rt_dec (hw e he).1 _), Dec.bind_ok (rt_dec (hw e he).2 _)]; rfl) []
    simp only [List.append_nil] at hl
    exact Dec.map_ok (f := VecMap.mk) (limit_append (encEntries_length m.entries).symm hl)

instance [Wire κ] [Wire ν] [SizeWire κ] [SizeWire ν] [Key κ] : SizeWire (HMap κ ν) where
  size_eq m := by simp [enc, size, encHeader_length, encEntries_length]

instance [Wire κ] [SizeWire κ] : SizeWire (VecMap κ) where
  size_eq m := by simp [enc, size, encHeader_length, encEntries_length]

theorem encHeader_ne_null {c8 c32 : UInt8} (h8 : c8 ≠ FC.null) (h32 : c32 ≠ FC.null) (s c : Nat) (x tl : Bytes) :
    encHeader c8 c32 s c ++ x ≠ FC.null :: tl := by
  simp only [encHeader]
  split
  · exact cons_ne_null h32
  · exact cons_ne_null h8

instance [Wire κ] [Wire ν] [Key κ] : NonNullWire (HMap κ ν) where
  nn _ tl := encHeader_ne_null (c8 := FC.map8) (c32 := FC.map32) (by decide) (by decide) _ _ _ tl

instance [Wire κ] : NonNullWire (VecMap κ) where
  nn _ tl := encHeader_ne_null (c8 := FC.map8) (c32 := FC.map32) (by decide) (by decide) _ _ _ tl

instance [Wire κ] [Wire ν] [GoodWire κ] [GoodWire ν] [Key κ] : GoodWire (HMap κ ν) where
  good fmt := (Good.mapHeader fmt).bind fun _ => (Good.limit _ (Good.mapLoop Good.dec Good.dec _ _)).bind fun _ => .pure _

instance [Wire κ] [GoodWire κ] : GoodWire (VecMap κ) where
  good fmt := (Good.mapHeader fmt).bind fun _ => (Good.limit _ (Good.repeatDec
    (Good.dec.bind fun _ => Good.dec.bind fun _ => .pure _) _)).bind fun _ => .pure _

/-! ### arrays -/

class LawfulArray (α : Type) [Wire α] [ArrayWire α] [WF α] : Prop where
  arr_rt : ∀ a : α, wf a → ∀ rest, (decF (arrCtor α) : Dec α) (arrEnc a ++ rest) = .ok (a, rest)
  arr_size : ∀ a : α, (arrEnc a).length = arrSize a
  arr_pos : ∀ a : α, 1 ≤ (arrEnc a).length
  ctor_ne : arrCtor α ≠ FC.described

instance : LawfulArray Bool where
  arr_rt b _ rest := by cases b <;> rfl
  arr_size _ := rfl
  arr_pos _ := by simp [arrEnc]
  ctor_ne := by decide
instance : LawfulArray UInt8 where
  arr_rt _ _ _ := rfl
  arr_size _ := rfl
  arr_pos _ := by simp [arrEnc]
  ctor_ne := by decide
/-- The array form is the ordinary encoding without its format code (fixed-width types). -/
theorem arr_of_enc [Wire α] [ArrayWire α] [WF α] [LawfulWire α] {a : α} (ha : wf a)
    (h : enc a = arrCtor α :: arrEnc a) (rest : Bytes) : (decF (arrCtor α) : Dec α) (arrEnc a ++ rest) = .ok (a, rest) := by
  have := rt_dec ha rest
  rw [h] at this
  exact this
instance : LawfulArray UInt16 where
  arr_rt a h := arr_of_enc h rfl
  arr_size _ := by simp [arrEnc, arrSize]
  arr_pos _ := by simp [arrEnc]
  ctor_ne := by decide
instance : LawfulArray UInt32 where
  arr_rt a _ := rt_uint a
  arr_size _ := by simp [arrEnc, arrSize]
  arr_pos _ := by simp [arrEnc]
  ctor_ne := by decide
instance : LawfulArray UInt64 where
  arr_rt a _ := rt_ulong a
  arr_size _ := by simp [arrEnc, arrSize]
  arr_pos _ := by simp [arrEnc]
  ctor_ne := by decide
instance : LawfulArray Int8 where
  arr_rt a h := arr_of_enc h rfl
  arr_size _ := by simp [arrEnc, arrSize]
  arr_pos _ := by simp [arrEnc]
  ctor_ne := by decide
instance : LawfulArray Int16 where
  arr_rt a h := arr_of_enc h rfl
  arr_size _ := by simp [arrEnc, arrSize]
  arr_pos _ := by simp [arrEnc]
  ctor_ne := by decide
instance : LawfulArray Int32 where
  arr_rt a _ := rt_int a
  arr_size _ := by simp [arrEnc, arrSize]
  arr_pos _ := by simp [arrEnc]
  ctor_ne := by decide
instance : LawfulArray Int64 where
  arr_rt a _ := rt_long a
  arr_size _ := by simp [arrEnc, arrSize]
  arr_pos _ := by simp [arrEnc]
  ctor_ne := by decide
instance : LawfulArray F32 where
  arr_rt a h := arr_of_enc h rfl
  arr_size _ := by simp [arrEnc, arrSize]
  arr_pos _ := by simp [arrEnc]
  ctor_ne := by decide
instance : LawfulArray F64 where
  arr_rt a h := arr_of_enc h rfl
  arr_size _ := by simp [arrEnc, arrSize]
  arr_pos _ := by simp [arrEnc]
  ctor_ne := by decide
instance : LawfulArray Char where
  arr_rt a h := arr_of_enc h rfl
  arr_size _ := by simp [arrEnc, arrSize]
  arr_pos _ := by simp [arrEnc]
  ctor_ne := by decide
instance : LawfulArray Timestamp where
  arr_rt a h := arr_of_enc h rfl
  arr_size _ := by simp [arrEnc, arrSize]
  arr_pos _ := by simp [arrEnc]
  ctor_ne := by decide
instance : LawfulArray Uuid where
  arr_rt a h := arr_of_enc h rfl
  arr_size a := a.2
  arr_pos a := by have := a.2; simp [arrEnc, this]
  ctor_ne := by decide
theorem arr_bytes_rt (a : Bytes) (h : a.length < U32) (rest : Bytes) :
    (decF FC.binary32 : Dec Bytes) (be 4 a.length ++ a ++ rest) = .ok (a, rest) := by
  simp only [decF]
  rw [if_neg (by decide), if_pos trivial]
  exact readBytesU32_enc a rest h

theorem arr_str_rt (a : Str) (h : wf a) (rest : Bytes) :
    (decF FC.string32 : Dec Str) (be 4 a.bytes.length ++ a.bytes ++ rest) = .ok (a, rest) := by
  simp only [decF]
  rw [if_neg (by decide), if_pos trivial, Dec.bind_ok (readBytesU32_enc a.bytes rest h.2),
    Dec.bind_ok (checkUtf8_ok h.1 rest)]
  rfl

theorem arr_symbol_rt (a : Symbol) (h : wf a) (rest : Bytes) :
    (decF FC.symbol32 : Dec Symbol) (be 4 a.bytes.length ++ a.bytes ++ rest) = .ok (a, rest) := by
  simp only [decF]
  rw [if_neg (by decide), if_pos trivial, Dec.bind_ok (readBytesU32_enc a.bytes rest h.2),
    Dec.bind_ok (checkUtf8_ok h.1 rest)]
  rfl

instance : LawfulArray Bytes where
  arr_rt a h rest := by
    have h1 : arrCtor Bytes = FC.binary32 := rfl
    have h2 : arrEnc a = be 4 a.length ++ a := rfl
    rw [h1, h2]
    exact arr_bytes_rt a h rest
  arr_size a := by simp only [arrEnc, arrSize, List.length_append, be_length]
  arr_pos a := by simp only [arrEnc, List.length_append, be_length]; omega
  ctor_ne := by decide
instance : LawfulArray Str where
  arr_rt a h rest := by
    have h1 : arrCtor Str = FC.string32 := rfl
    have h2 : arrEnc a = be 4 a.bytes.length ++ a.bytes := rfl
    rw [h1, h2]
    exact arr_str_rt a h rest
  arr_size a := by simp only [arrEnc, arrSize, List.length_append, be_length]
  arr_pos a := by simp only [arrEnc, List.length_append, be_length]; omega
  ctor_ne := by decide
instance : LawfulArray Symbol where
  arr_rt a h rest := by
    have h1 : arrCtor Symbol = FC.symbol32 := rfl
    have h2 : arrEnc a = be 4 a.bytes.length ++ a.bytes := rfl
    rw [h1, h2]
    exact arr_symbol_rt a h rest
  arr_size a := by simp only [arrEnc, arrSize, List.length_append, be_length]
  arr_pos a := by simp only [arrEnc, List.length_append, be_length]; omega
  ctor_ne := by decide

section arrays
variable [Wire α] [ArrayWire α] [WF α] [LawfulArray α]

theorem arrContent_length (l : List α) : (l.flatMap arrEnc).length = arrContentSize l := by
  induction l with
  | nil => rfl
  | cons a l ih =>
    simp only [List.flatMap_cons, List.length_append, ih, arrContentSize, List.map_cons, List.sum_cons,
      LawfulArray.arr_size]

theorem arr_rtf (a : Arr α) (h : wf a) : ∃ c tl, enc a = c :: tl ∧ (c = FC.array8 ∨ c = FC.array32) ∧
    ∀ rest, (decF c : Dec (Arr α)) (tl ++ rest) = .ok (a, rest) := by
  obtain ⟨hw, hs⟩ := h
  have hge : a.items.length * 1 ≤ (a.items.flatMap arrEnc).length :=
    flatMap_length_ge 1 fun x _ => LawfulArray.arr_pos x
  rw [arrContent_length] at hs hge
  obtain ⟨c, tl, he, hc, hd⟩ := encHeader_rt (c8 := FC.array8) (c32 := FC.array32) (hdr := arrayHeader)
    (size := arrContentSize a.items + 1) (count := a.items.length) rfl rfl (by omega) (by omega) (by omega)
  refine ⟨c, tl ++ (arrCtor α :: a.items.flatMap arrEnc), by simp only [enc, he, List.cons_append], hc, fun rest => ?_⟩
  rw [List.append_assoc]
  simp only [decF]
  rw [Dec.bind_ok (hd _)]
  have hl := arrContent_length a.items
  have hchk : (⟨fun s => if s.length < arrContentSize a.items + 1 then .error (.incomplete (arrContentSize a.items + 1))
      else .ok ((), s)⟩ : Dec Unit) (arrCtor α :: a.items.flatMap arrEnc ++ rest) =
      .ok ((), arrCtor α :: a.items.flatMap arrEnc ++ rest) := by
    show (if _ then _ else _) = _
    rw [if_neg (by simp only [List.length_append, List.length_cons, hl]; omega)]
  simp only
  rw [Dec.bind_ok hchk]
  have hctor : (dec : Dec Constructor) (arrCtor α :: a.items.flatMap arrEnc ++ rest) =
      .ok (.formatCode (arrCtor α), a.items.flatMap arrEnc ++ rest) := by
    show (if arrCtor α = FC.described then _ else _ : Dec Constructor) _ = _
    rw [if_neg LawfulArray.ctor_ne]
    rfl
  rw [Dec.bind_ok hctor]
  exact Dec.map_ok (f := Arr.mk) (repeatDec_rt a.items (fun x hx => LawfulArray.arr_rt x (hw x hx)) rest)

instance : LawfulWire (Arr α) where
  rt a h := by
    obtain ⟨c, tl, he, _, hd⟩ := arr_rtf a h
    exact ⟨c, tl, he, hd⟩

instance : SizeWire (Arr α) where
  size_eq a := by
    simp only [enc, size, List.length_append, encHeader_length, List.length_cons, arrContent_length]; omega

/-- The encoding of an item does not start with the null, described or array codes. -/
class ItemWire (α : Type) [Wire α] : Prop where
  head : ∀ (a : α) c tl, enc a = c :: tl → c ≠ FC.null ∧ c ≠ FC.described ∧ c ≠ FC.array8 ∧ c ≠ FC.array32

theorem encVar_head {c8 c32 : UInt8} {b : Bytes} {c : UInt8} {tl : Bytes} (h : encVar c8 c32 b = c :: tl) :
    c = c8 ∨ c = c32 := by
  simp only [encVar] at h
  split at h <;> simp only [List.cons.injEq] at h
  · exact .inr h.1.symm
  · exact .inl h.1.symm

instance : ItemWire Symbol where head a c tl h := by rcases encVar_head h with rfl | rfl <;> decide
instance : ItemWire Str where head a c tl h := by rcases encVar_head h with rfl | rfl <;> decide
instance : ItemWire Bytes where head a c tl h := by rcases encVar_head h with rfl | rfl <;> decide

variable [LawfulWire α] [ItemWire α]

instance : LawfulWire (Multiple α) where
  rt m h := by
    have many : (enc m = enc (Arr.mk m.items)) → RTF m := by
      intro he
      obtain ⟨c, tl, he', hc, hd⟩ := arr_rtf (Arr.mk m.items) h
      refine ⟨c, tl, he.trans he', fun rest => ?_⟩
      simp only [decF]
      rw [if_pos hc]
      exact Dec.map_ok (f := fun a => Multiple.mk a.items) (hd rest)
    obtain ⟨items⟩ := m
    match items, h, many with
    | [], _, many => exact many rfl
    | [a], h, _ =>
      obtain ⟨c, tl, he, hd⟩ := LawfulWire.rt a (h.1 a (by simp))
      obtain ⟨_, h2, h3, h4⟩ := ItemWire.head a c tl he
      refine ⟨c, tl, he, fun rest => ?_⟩
      simp only [decF]
      rw [if_neg (by simp [h3, h4]), if_neg h2]
      exact Dec.map_ok (f := fun a => Multiple.mk [a]) (hd rest)
    | _ :: _ :: _, _, many => exact many rfl

end arrays

instance [Wire α] [ArrayWire α] [WF α] [LawfulArray α] [SizeWire α] : SizeWire (Multiple α) where
  size_eq m := by
    obtain ⟨items⟩ := m
    match items with
    | [] => exact SizeWire.size_eq (Arr.mk ([] : List α))
    | [a] => exact SizeWire.size_eq a
    | a :: b :: l => exact SizeWire.size_eq (Arr.mk (a :: b :: l))

instance [Wire α] [ArrayWire α] : NonNullWire (Arr α) where
  nn a tl := encHeader_ne_null (c8 := FC.array8) (c32 := FC.array32) (by decide) (by decide) _ _ _ tl

instance [Wire α] [ArrayWire α] [ItemWire α] : NonNullWire (Multiple α) where
  nn m tl := by
    obtain ⟨items⟩ := m
    match items with
    | [] => exact NonNullWire.nn (Arr.mk ([] : List α)) tl
    | [a] => intro h; exact (ItemWire.head a _ _ h).1 rfl
    | a :: b :: l => exact NonNullWire.nn (Arr.mk (a :: b :: l)) tl

/-- Weaker than `Good`: what was decoded stays decoded when more bytes arrive.  (`Vec<T>` checks for its declared
size without consuming it, so removing bytes behind the value can still make it fail.) -/
structure Stable (d : Dec α) : Prop where
  ok : ∀ s a r, d s = .ok (a, r) → (∃ p, s = p ++ r) ∧ ∀ t, d (s ++ t) = .ok (a, r ++ t)
  err : ∀ s e, d s = .error e → e.isIncomplete = false → ∀ t, d (s ++ t) = .error e
  fuel : ∀ s, d s ≠ .error .fuel

theorem Good.stable {d : Dec α} (h : Good d) : Stable d where
  ok s a r hd := by
    obtain ⟨p, hp, _⟩ := h.ok s a r hd
    exact ⟨⟨p, hp⟩, h.append hd⟩
  err := h.err
  fuel := h.fuel

theorem Stable.bind {m : Dec α} {f : α → Dec β} (hm : Stable m) (hf : ∀ a, Stable (f a)) : Stable (m >>= f) where
  ok s b r' h := by
    rw [Dec.bind_def] at h
    cases hms : m s with
    | error e => simp [hms] at h
    | ok ar =>
      obtain ⟨a, r⟩ := ar
      simp only [hms] at h
      obtain ⟨⟨p, rfl⟩, hp⟩ := hm.ok _ _ _ hms
      obtain ⟨⟨q, rfl⟩, hq⟩ := (hf a).ok _ _ _ h
      exact ⟨⟨p ++ q, by simp⟩, fun t => by rw [Dec.bind_ok (hp t), hq]⟩
  err s e h he t := by
    rw [Dec.bind_def] at h
    cases hms : m s with
    | error e' =>
      simp only [hms, Except.error.injEq] at h
      subst h
      exact Dec.bind_err (hm.err _ _ hms he t)
    | ok ar =>
      obtain ⟨a, r⟩ := ar
      simp only [hms] at h
      rw [Dec.bind_ok ((hm.ok _ _ _ hms).2 t)]
      exact (hf a).err _ _ h he t
  fuel s := by
    rw [Dec.bind_def]
    cases hms : m s with
    | error e' =>
      simp only [ne_eq, Except.error.injEq]
      intro h
      exact hm.fuel s (by rw [hms, h])
    | ok ar => exact (hf ar.1).fuel ar.2

theorem Stable.ite {c : Prop} [Decidable c] {a b : Dec α} (ha : Stable a) (hb : Stable b) :
    Stable (if c then a else b) := by split <;> assumption

theorem Stable.repeatDec {d : Dec α} (hd : Stable d) (k : Nat) : Stable (repeatDec k d) := by
  induction k with
  | zero => exact (Good.pure _).stable
  | succ k ih => exact hd.bind fun _ => ih.bind fun _ => (Good.pure _).stable

theorem Stable.limit {d : Dec α} (n : Nat) (hd : Stable d) : Good (limit n d) where
  ok s a r h := by
    simp only [Dec.limit] at h
    split at h
    · simp at h
    · cases hds : d (s.take n) with
      | error e => simp [hds] at h
      | ok ar =>
        simp only [hds, Except.ok.injEq, Prod.mk.injEq] at h
        obtain ⟨rfl, rfl⟩ := h
        refine ⟨s.take n, by simp, fun t => ?_⟩
        have hl : (s.take n).length = n := by simp; omega
        exact limit_append hl.symm hds
  err s e h he t := by
    simp only [Dec.limit] at h
    split at h
    · simp at h; subst h; simp [Err.isIncomplete] at he
    · simp only [Dec.limit, List.length_append]
      rw [if_neg (by omega), List.take_append_of_le_length (by omega)]
      cases hds : d (s.take n) with
      | ok ar => simp [hds] at h
      | error e' => simpa [hds] using h
  fuel s := by
    simp only [Dec.limit]
    split
    · simp
    · cases hds : d (s.take n) with
      | ok ar => simp
      | error e' =>
        simp only [ne_eq, Except.error.injEq]
        intro h
        exact hd.fuel (s.take n) (by rw [hds, h])

theorem Stable.checkLen (n : Nat) :
    Stable (⟨fun s => if s.length < n then .error (.incomplete n) else .ok ((), s)⟩ : Dec Unit) where
  ok s a r h := by
    change (if s.length < n then _ else _) = _ at h
    split at h
    · simp at h
    · simp only [Except.ok.injEq, Prod.mk.injEq, true_and] at h
      subst h
      refine ⟨⟨[], rfl⟩, fun t => ?_⟩
      show (if (s ++ t).length < n then _ else _) = _
      rw [if_neg (by simp; omega)]
  err s e h he t := by
    change (if s.length < n then _ else _) = _ at h
    split at h
    · simp at h; subst h; simp [Err.isIncomplete] at he
    · simp at h
  fuel s := by
    show (if _ then _ else _) ≠ _
    split <;> simp

class StableWire (α : Type) [Wire α] : Prop where
  stable : ∀ fmt, Stable (decF fmt : Dec α)

instance [Wire α] [GoodWire α] : StableWire α where
  stable fmt := (Good.decF fmt).stable

theorem Stable.dec [Wire α] [StableWire α] : Stable (dec : Dec α) :=
  Good.readU8.stable.bind fun fmt => StableWire.stable fmt

instance [Wire α] [ArrayWire α] [StableWire α] : StableWire (Arr α) where
  stable fmt := by
    refine (Good.arrayHeader fmt).stable.bind fun sc => (Stable.checkLen _).bind fun _ => Stable.dec.bind fun ctor => ?_
    cases ctor with
    | formatCode c => exact (Stable.repeatDec (StableWire.stable c) _).bind fun _ => (Good.pure _).stable
    | described d c => exact (Good.fail (by simp)).stable

instance [Wire α] [ArrayWire α] [StableWire α] : StableWire (Multiple α) where
  stable fmt := .ite ((StableWire.stable fmt).bind fun _ => (Good.pure _).stable)
    (.ite ((StableWire.stable fmt).bind fun _ => (Good.fail (by simp)).stable)
      ((StableWire.stable fmt).bind fun _ => (Good.pure _).stable))

instance [Wire α] [StableWire α] : StableWire (Option α) where
  stable fmt := .ite (Good.pure _).stable ((StableWire.stable fmt).bind fun _ => (Good.pure _).stable)

/-! ### `List` -/

theorem vlist_content_length (l : List Variant) : (l.flatMap enc).length = (l.map size).sum := by
  induction l with
  | nil => rfl
  | cons a l ih =>
    rw [List.flatMap_cons, List.length_append, List.map_cons, List.sum_cons, ih, SizeWire.size_eq]

instance : LawfulWire VList where
  rt l h := by
    obtain ⟨hw, hs⟩ := h
    have hge : l.items.length * 1 ≤ (l.items.flatMap enc).length := flatMap_length_ge 1 fun x hx => enc_pos (hw x hx)
    rw [vlist_content_length] at hs hge
    obtain ⟨c, tl, he, hc, hd⟩ := encHeader_rt (c8 := FC.list8) (c32 := FC.list32) (hdr := listHeader)
      (size := (l.items.map size).sum) (count := l.items.length) rfl rfl hs (by omega) (by omega)
    refine ⟨c, tl ++ l.items.flatMap enc, ?_, fun rest => ?_⟩
    · show encHeader FC.list8 FC.list32 _ _ ++ _ = _
      rw [he, List.cons_append]
    rw [List.append_assoc]
    refine (Dec.bind_ok (hd _)).trans ?_
    exact Dec.map_ok (f := VList.mk) (repeatDec_rt l.items (fun x hx => rt_dec (hw x hx)) rest)

instance : SizeWire VList where
  size_eq l := by
    show (encHeader FC.list8 FC.list32 _ _ ++ _).length = _
    rw [List.length_append, encHeader_length, vlist_content_length]
    rfl

instance : NonNullWire VList where
  nn _ tl := encHeader_ne_null (c8 := FC.list8) (c32 := FC.list32) (by decide) (by decide) _ _ _ tl

instance : GoodWire VList where
  good fmt := (Good.listHeader fmt).bind fun _ => (Good.repeatDec Good.dec _).bind fun _ => .pure _

end Amqp
