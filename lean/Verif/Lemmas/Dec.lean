import Verif.Model.Basic
import Verif.Model.Prim
/-! Algebra of the decoder monad: big-endian arithmetic, locality (`Good`) and its closure properties. -/

namespace Amqp
open Dec

theorem Dec.ext' {a b : Dec α} (h : ∀ s, a s = b s) : a = b := by
  cases a; cases b; congr; funext s; exact h s

theorem Dec.bind_def (m : Dec α) (f : α → Dec β) (s : Bytes) :
    (m >>= f) s = match m s with
      | .ok (a, r) => f a r
      | .error e => .error e := rfl

theorem Dec.pure_def (a : α) (s : Bytes) : (pure a : Dec α) s = .ok (a, s) := rfl

theorem Dec.fail_def (e : Err) (s : Bytes) : (fail e : Dec α) s = .error e := rfl

theorem Dec.bind_ok {m : Dec α} {f : α → Dec β} {s r : Bytes} {a : α} (h : m s = .ok (a, r)) :
    (m >>= f) s = f a r := by rw [Dec.bind_def, h]

theorem Dec.bind_err {m : Dec α} {f : α → Dec β} {s : Bytes} {e : Err} (h : m s = .error e) :
    (m >>= f) s = .error e := by rw [Dec.bind_def, h]

theorem Dec.map_ok {m : Dec α} {f : α → β} {s r : Bytes} {a : α} (h : m s = .ok (a, r)) :
    (do return f (← m) : Dec β) s = .ok (f a, r) := by
  rw [Dec.bind_ok h, Dec.pure_def]

/-! ### big-endian -/

@[simp] theorem be_length (k n : Nat) : (be k n).length = k := by
  induction k with
  | zero => rfl
  | succ k ih => simp [be, ih]

theorem beNat_be (k n : Nat) : beNat (be k n) = n % 256 ^ k := by
  induction k with
  | zero => simp [be, beNat, Nat.mod_one]
  | succ k ih =>
    simp only [be, beNat, be_length, ih]
    have h1 : (UInt8.ofNat (n / 256 ^ k)).toNat = n / 256 ^ k % 256 := by simp
    rw [h1]
    have h2 := Nat.mod_mul (x := n) (a := 256 ^ k) (b := 256)
    rw [← Nat.pow_succ] at h2
    rw [h2, Nat.mul_comm]; omega

theorem beNat_lt (b : Bytes) : beNat b < 256 ^ b.length := by
  induction b with
  | nil => simp [beNat]
  | cons x b ih =>
    simp only [beNat, List.length_cons, Nat.pow_succ]
    have : x.toNat < 256 := x.toNat_lt
    have h3 : x.toNat * 256 ^ b.length ≤ 255 * 256 ^ b.length := Nat.mul_le_mul_right _ (by omega)
    omega

/-- Reading back what was written. -/
theorem readBE_be (k n : Nat) (h : n < 256 ^ k) (rest : Bytes) :
    readBE k (be k n ++ rest) = .ok (n, rest) := by
  have hl : (be k n).length = k := be_length k n
  simp only [readBE, List.length_append, be_length]
  rw [if_neg (by omega)]
  have ht : List.take k (be k n ++ rest) = be k n := by
    conv => lhs; arg 1; rw [← hl]
    simp
  have hd : List.drop k (be k n ++ rest) = rest := by
    conv => lhs; arg 1; rw [← hl]
    simp
  rw [ht, hd, beNat_be, Nat.mod_eq_of_lt h]

theorem splitTo_append (p rest : Bytes) (n : Nat) (h : n = p.length) :
    splitTo n (p ++ rest) = .ok (p, rest) := by
  subst h
  simp only [splitTo, List.length_append]
  rw [if_neg (by omega)]
  simp

theorem limit_append {d : Dec α} {p rest : Bytes} {n : Nat} {a : α} {r : Bytes} (h : n = p.length)
    (hd : d p = .ok (a, r)) : limit n d (p ++ rest) = .ok (a, rest) := by
  subst h
  simp only [limit, List.length_append]
  rw [if_neg (by omega)]
  simp [hd]

/-! ### Locality and finality of errors -/

/-- The error kinds that more input may turn into something else. -/
def Err.isIncomplete : Err → Bool
  | .incomplete _ => true
  | _ => false

/-- A well-behaved decoder: success consumes a prefix `p` and depends on nothing else; an error other than
`incomplete` is final; model fuel is never exhausted. -/
structure Good (d : Dec α) : Prop where
  ok : ∀ s a r, d s = .ok (a, r) → ∃ p, s = p ++ r ∧ ∀ t, d (p ++ t) = .ok (a, t)
  err : ∀ s e, d s = .error e → e.isIncomplete = false → ∀ t, d (s ++ t) = .error e
  fuel : ∀ s, d s ≠ .error .fuel

theorem Good.len {d : Dec α} (h : Good d) {s a r} (hd : d s = .ok (a, r)) : r.length ≤ s.length := by
  obtain ⟨p, rfl, _⟩ := h.ok s a r hd
  simp

theorem Good.append {d : Dec α} (h : Good d) {s a r} (hd : d s = .ok (a, r)) (t : Bytes) :
    d (s ++ t) = .ok (a, r ++ t) := by
  obtain ⟨p, rfl, hp⟩ := h.ok s a r hd
  simpa using hp (r ++ t)

theorem Good.pure (a : α) : Good (pure a : Dec α) where
  ok s a' r h := by
    simp only [Dec.pure_def, Except.ok.injEq, Prod.mk.injEq] at h
    obtain ⟨rfl, rfl⟩ := h
    exact ⟨[], rfl, fun t => rfl⟩
  err s e h := by simp [Dec.pure_def] at h
  fuel s := by simp [Dec.pure_def]

theorem Good.fail {e : Err} (he : e ≠ .fuel) : Good (fail e : Dec α) where
  ok s a r h := by simp [Dec.fail_def] at h
  err s e' h _ t := by simpa [Dec.fail_def] using h
  fuel s := by simpa [Dec.fail_def] using he

theorem Good.bind {m : Dec α} {f : α → Dec β} (hm : Good m) (hf : ∀ a, Good (f a)) : Good (m >>= f) where
  ok s b r' h := by
    rw [Dec.bind_def] at h
    cases hms : m s with
    | error e => simp [hms] at h
    | ok ar =>
      obtain ⟨a, r⟩ := ar
      simp only [hms] at h
      obtain ⟨p, rfl, hp⟩ := hm.ok _ _ _ hms
      obtain ⟨q, rfl, hq⟩ := (hf a).ok _ _ _ h
      refine ⟨p ++ q, by simp, fun t => ?_⟩
      rw [List.append_assoc, Dec.bind_ok (hp (q ++ t)), hq]
  err s e h he t := by
    rw [Dec.bind_def] at h
    cases hms : m s with
    | error e' =>
      simp only [hms, Except.error.injEq] at h
      subst h
      exact Dec.bind_err (hm.err _ _ hms he t)
    | ok ar =>
      obtain ⟨a, r⟩ := ar
      simp only [hms] at h
      rw [Dec.bind_ok (hm.append hms t)]
      exact (hf a).err _ _ h he t
  fuel s := by
    rw [Dec.bind_def]
    cases hms : m s with
    | error e' =>
      simp only [ne_eq, Except.error.injEq]
      intro h
      exact hm.fuel s (by rw [hms, h])
    | ok ar => exact (hf ar.1).fuel ar.2

theorem Good.ite {c : Prop} [Decidable c] {a b : Dec α} (ha : Good a) (hb : Good b) :
    Good (if c then a else b) := by
  split <;> assumption

theorem Good.readU8 : Good readU8 where
  ok s a r h := by
    cases s with
    | nil => simp [Amqp.readU8] at h
    | cons b s =>
      simp only [Amqp.readU8, Except.ok.injEq, Prod.mk.injEq] at h
      obtain ⟨rfl, rfl⟩ := h
      exact ⟨[b], rfl, fun t => rfl⟩
  err s e h he t := by
    cases s with
    | nil => simp [Amqp.readU8] at h; subst h; simp [Err.isIncomplete] at he
    | cons b s => simp [Amqp.readU8] at h
  fuel s := by cases s <;> simp [Amqp.readU8]

/-- Reading a fixed number of bytes and post-processing them. -/
theorem Good.take (n : Nat) (f : Bytes → α) :
    Good ⟨fun s => if s.length < n then .error (.incomplete n) else .ok (f (s.take n), s.drop n)⟩ where
  ok s a r h := by
    simp only at h
    split at h
    · simp at h
    · rename_i hn
      simp only [Except.ok.injEq, Prod.mk.injEq] at h
      obtain ⟨rfl, rfl⟩ := h
      refine ⟨s.take n, by simp, fun t => ?_⟩
      have hl : (s.take n).length = n := by simp; omega
      simp only [List.length_append, hl]
      rw [if_neg (by omega), List.take_append_of_le_length (by omega), List.drop_append_of_le_length (by omega)]
      simp [List.take_take]
  err s e h he t := by
    simp only at h
    split at h
    · simp at h; subst h; simp [Err.isIncomplete] at he
    · simp at h
  fuel s := by simp only; split <;> simp

theorem Good.readBE (k : Nat) : Good (readBE k) := Good.take k beNat

theorem Good.splitTo (k : Nat) : Good (splitTo k) := Good.take k id

theorem Good.readFixed (k : Nat) : Good (readFixed k) where
  ok s a r h := by
    simp only [Amqp.readFixed] at h
    split at h
    · simp at h
    · rename_i hn
      simp only [Except.ok.injEq, Prod.mk.injEq] at h
      obtain ⟨rfl, rfl⟩ := h
      refine ⟨s.take k, by simp, fun t => ?_⟩
      have hl : (s.take k).length = k := by simp; omega
      have : ¬ (s.take k ++ t).length < k := by simp; omega
      simp only [Amqp.readFixed, this]
      simp only [↓reduceDIte, Except.ok.injEq, Prod.mk.injEq, Subtype.mk.injEq]
      rw [List.take_append_of_le_length (by omega), List.drop_append_of_le_length (by omega)]
      simp [List.take_take]
  err s e h he t := by
    simp only [Amqp.readFixed] at h
    split at h
    · simp at h; subst h; simp [Err.isIncomplete] at he
    · simp at h
  fuel s := by simp only [Amqp.readFixed]; split <;> simp

theorem Good.readI8 : Good readI8 := Good.readU8.bind fun _ => Good.pure _

theorem Good.readBytesU8 : Good readBytesU8 := Good.readU8.bind fun _ => Good.splitTo _

theorem Good.readBytesU32 : Good readBytesU32 := (Good.readBE 4).bind fun _ => Good.splitTo _

theorem Good.limit {d : Dec α} (n : Nat) (hd : Good d) : Good (limit n d) where
  ok s a r h := by
    simp only [Dec.limit] at h
    split at h
    · simp at h
    · rename_i hn
      cases hds : d (s.take n) with
      | error e => simp [hds] at h
      | ok ar =>
        simp only [hds, Except.ok.injEq, Prod.mk.injEq] at h
        obtain ⟨rfl, rfl⟩ := h
        refine ⟨s.take n, by simp, fun t => ?_⟩
        have hl : (s.take n).length = n := by simp; omega
        exact limit_append hl.symm hds
  err s e h he t := by
    simp only [Dec.limit] at h
    split at h
    · simp at h; subst h; simp [Err.isIncomplete] at he
    · rename_i hn
      simp only [Dec.limit, List.length_append]
      rw [if_neg (by omega), List.take_append_of_le_length (by omega)]
      cases hds : d (s.take n) with
      | ok ar => simp [hds] at h
      | error e' => simpa [hds] using h
  fuel s := by
    simp only [Dec.limit]
    split
    · simp
    · cases hds : d (s.take n) with
      | ok ar => simp
      | error e' =>
        simp only [ne_eq, Except.error.injEq]
        intro h; exact hd.fuel _ (by rw [hds, h])

theorem Good.repeatDec {d : Dec α} (hd : Good d) (k : Nat) : Good (repeatDec k d) := by
  induction k with
  | zero => exact Good.pure _
  | succ k ih => exact hd.bind fun _ => ih.bind fun _ => Good.pure _

theorem Good.liftE {e : Except Err α} (he : e ≠ .error .fuel) : Good (liftE e) := by
  cases e with
  | ok a => exact Good.pure a
  | error e => exact Good.fail (by simpa using he)

theorem Good.compound8 : Good compound8 where
  ok s a r h := by
    match s with
    | [] => simp [Amqp.compound8] at h
    | [_] => simp [Amqp.compound8] at h
    | x :: y :: rest =>
      simp only [Amqp.compound8] at h
      split at h
      · simp at h
      · rename_i hx
        simp only [Except.ok.injEq, Prod.mk.injEq] at h
        obtain ⟨rfl, rfl⟩ := h
        exact ⟨[x, y], rfl, fun t => by simp [Amqp.compound8, hx]⟩
  err s e h he t := by
    match s with
    | [] => simp [Amqp.compound8] at h; subst h; simp [Err.isIncomplete] at he
    | [_] => simp [Amqp.compound8] at h; subst h; simp [Err.isIncomplete] at he
    | x :: y :: rest =>
      simp only [Amqp.compound8] at h
      split at h
      · rename_i hx
        simpa [Amqp.compound8, hx] using h
      · simp at h
  fuel s := by
    match s with
    | [] => simp [Amqp.compound8]
    | [_] => simp [Amqp.compound8]
    | x :: y :: rest => simp only [Amqp.compound8]; split <;> simp

theorem compound32_eq : compound32 = (do
    let raw ← splitTo 8
    if beNat (raw.take 4) < 4 then fail .panic
    else pure (beNat (raw.take 4) - 4, beNat ((raw.drop 4).take 4))) := by
  apply Dec.ext'; intro s
  simp only [Dec.bind_def]
  simp only [compound32, splitTo]
  by_cases h : s.length < 8
  · simp [h]
  · simp only [h, ↓reduceIte, List.take_take, List.drop_take]
    rw [show min 4 8 = 4 from rfl, show min 4 (8 - 4) = 4 from rfl]
    by_cases h4 : beNat (List.take 4 s) < 4 <;> simp [h4, Dec.fail_def, Dec.pure_def]

theorem Good.compound32 : Good compound32 := by
  rw [compound32_eq]
  exact (Good.splitTo 8).bind fun raw => Good.ite (Good.fail (by simp)) (Good.pure _)

theorem Good.listHeader (fmt : UInt8) : Good (listHeader fmt) :=
  .ite (.pure _) (.ite .compound8 (.ite .compound32 (.fail (by simp))))

theorem Good.mapHeader (fmt : UInt8) : Good (mapHeader fmt) :=
  .ite .compound8 (.ite .compound32 (.fail (by simp)))

theorem Good.arrayHeader (fmt : UInt8) : Good (arrayHeader fmt) :=
  .ite .compound8 (.ite .compound32 (.fail (by simp)))

theorem Good.checkUtf8 (b : Bytes) : Good (checkUtf8 b) := .ite (.pure _) (.fail (by simp))

/-- The types whose decoders are `Good` for every format code. -/
class GoodWire (α : Type) [Wire α] : Prop where
  good : ∀ fmt, Good (decF fmt : Dec α)

theorem Good.dec [Wire α] [GoodWire α] : Good (dec : Dec α) :=
  Good.readU8.bind fun fmt => GoodWire.good fmt

theorem Good.decF [Wire α] [GoodWire α] (fmt : UInt8) : Good (decF fmt : Dec α) := GoodWire.good fmt

instance : GoodWire Bool where
  good _ := .ite (.bind .readU8 fun _ => .pure _) (.ite (.pure _) (.ite (.pure _) (.fail (by simp))))
instance : GoodWire UInt8 where
  good _ := .ite .readU8 (.fail (by simp))
instance : GoodWire UInt16 where
  good _ := .ite (.bind (.readBE 2) fun _ => .pure _) (.fail (by simp))
instance : GoodWire UInt32 where
  good _ := .ite (.bind (.readBE 4) fun _ => .pure _)
    (.ite (.bind .readU8 fun _ => .pure _) (.ite (.pure _) (.fail (by simp))))
instance : GoodWire UInt64 where
  good _ := .ite (.bind (.readBE 8) fun _ => .pure _)
    (.ite (.bind .readU8 fun _ => .pure _) (.ite (.pure _) (.fail (by simp))))
instance : GoodWire Int8 where
  good _ := .ite .readI8 (.fail (by simp))
instance : GoodWire Int16 where
  good _ := .ite (.bind (.readBE 2) fun _ => .pure _) (.fail (by simp))
instance : GoodWire Int32 where
  good _ := .ite (.bind (.readBE 4) fun _ => .pure _) (.ite (.bind .readI8 fun _ => .pure _) (.fail (by simp)))
instance : GoodWire Int64 where
  good _ := .ite (.bind (.readBE 8) fun _ => .pure _) (.ite (.bind .readI8 fun _ => .pure _) (.fail (by simp)))
instance : GoodWire F32 where
  good _ := .ite (.bind (.readBE 4) fun _ => .pure _) (.fail (by simp))
instance : GoodWire F64 where
  good _ := .ite (.bind (.readBE 8) fun _ => .pure _) (.fail (by simp))
instance : GoodWire Char where
  good _ := .ite (.bind (.readBE 4) fun o => by
    split
    · exact .pure _
    · exact .fail (by simp)) (.fail (by simp))

theorem datetimeFromMillis_ne_fuel (m : Int) : datetimeFromMillis m ≠ .error .fuel := by
  simp only [datetimeFromMillis]
  split <;> split <;> simp

instance : GoodWire Timestamp where
  good _ := .ite (.bind (.readBE 8) fun _ => .liftE (datetimeFromMillis_ne_fuel _)) (.fail (by simp))
instance : GoodWire Uuid where
  good _ := .ite (.readFixed 16) (.fail (by simp))
instance : GoodWire Bytes where
  good _ := .ite .readBytesU8 (.ite .readBytesU32 (.fail (by simp)))
instance : GoodWire Str where
  good _ := .ite (.bind .readBytesU8 fun _ => .bind (.checkUtf8 _) fun _ => .pure _)
    (.ite (.bind .readBytesU32 fun _ => .bind (.checkUtf8 _) fun _ => .pure _) (.fail (by simp)))
instance : GoodWire Symbol where
  good _ := .ite (.bind .readBytesU8 fun _ => .bind (.checkUtf8 _) fun _ => .pure _)
    (.ite (.bind .readBytesU32 fun _ => .bind (.checkUtf8 _) fun _ => .pure _) (.fail (by simp)))
instance [Wire α] [GoodWire α] : GoodWire (Option α) where
  good fmt := .ite (.pure _) (.bind (.decF fmt) fun _ => .pure _)
instance : GoodWire Descriptor where
  good fmt := .ite (.bind (.decF fmt) fun _ => .pure _) (.ite (.bind (.decF fmt) fun _ => .pure _)
    (.ite (.bind (.decF fmt) fun _ => .pure _) (.ite (.bind (.decF fmt) fun _ => .pure _) (.fail (by simp)))))
instance : GoodWire Constructor where
  good _ := .ite (.bind .dec fun _ => .bind .readU8 fun _ => .pure _) (.pure _)

end Amqp
