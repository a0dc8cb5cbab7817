import Verif.Lemmas.StandardTree
import Verif.Lemmas.Structs
import Verif.Spec.StandardTypes
namespace Amqp.Standard
open Dec

/-- Types all of whose encodings are read, and none of whose encodings is null. -/
class Readable (α : Type) [Wire α] [Form α] : Prop where
  reads : ReadsF α
  nonNull : ∀ (c : UInt8) (w : Bytes) (v : α), form c w v → c ≠ 0x40

theorem Readable.dec [Wire α] [Form α] [Readable α] {c : UInt8} {w : Bytes} {v : α} (h : form c w v) (rest : Bytes) :
    (dec : Dec α) (c :: w ++ rest) = .ok (v, rest) := (Readable.reads (α := α)).reads c w v h rest

instance : Readable Bool := ⟨accepted_bool, by
  rintro c w v (⟨rfl, -⟩ | ⟨rfl, -⟩ | ⟨rfl, -⟩ | ⟨rfl, -⟩) <;> decide⟩
instance : Readable UInt8 := ⟨accepted_u8, by rintro c w v ⟨rfl, -⟩; decide⟩
instance : Readable UInt16 := ⟨accepted_u16, by rintro c w v ⟨rfl, -⟩; decide⟩
instance : Readable UInt32 := ⟨accepted_u32, by rintro c w v (⟨rfl, -⟩ | ⟨rfl, -⟩ | ⟨rfl, -⟩) <;> decide⟩
instance : Readable UInt64 := ⟨accepted_u64, by rintro c w v (⟨rfl, -⟩ | ⟨rfl, -⟩ | ⟨rfl, -⟩) <;> decide⟩
instance : Readable Uuid := ⟨accepted_uuid, by rintro c w v ⟨rfl, -⟩; decide⟩
instance : Readable Bytes := ⟨accepted_bytes, by rintro c w v (⟨rfl, -⟩ | ⟨rfl, -⟩) <;> decide⟩
instance : Readable Str := ⟨accepted_str, by rintro c w v ⟨⟨rfl, -⟩ | ⟨rfl, -⟩, -⟩ <;> decide⟩
instance : Readable Symbol := ⟨accepted_symbol, by rintro c w v ⟨⟨rfl, -⟩ | ⟨rfl, -⟩, -⟩ <;> decide⟩

/-! ### restricted types -/

/-- A type written as another one. -/
theorem accepted_base {β : Type} [Wire α] [Form α] [Wire β] [Form β] [Readable β] (toB : α → β) (ofB : β → Except Err α)
    (hd : ∀ c, (decF c : Dec α) = (do liftE (ofB (← decF c)))) (ho : ∀ v, ofB (toB v) = .ok v)
    (hf : ∀ c w v, form c w v → form c w (toB v)) : Readable α where
  reads c w v h rest := by
    rw [hd, Dec.bind_ok (Readable.reads (α := β) c w (toB v) (hf c w v h) rest), ho]; rfl
  nonNull c w v h := Readable.nonNull c w (toB v) (hf c w v h)

instance : Readable Role := accepted_base Role.toBase Role.ofBase (fun _ => rfl) (by intro v; cases v <;> rfl)
  (by intro c w v h; cases v <;> exact h)
instance : Readable SenderSettleMode := accepted_base SenderSettleMode.toBase SenderSettleMode.ofBase (fun _ => rfl)
  (by intro v; cases v <;> rfl) (by intro c w v h; cases v <;> exact h)
instance : Readable ReceiverSettleMode := accepted_base ReceiverSettleMode.toBase ReceiverSettleMode.ofBase (fun _ => rfl)
  (by intro v; cases v <;> rfl) (by intro c w v h; cases v <;> exact h)
instance : Readable SaslCode := accepted_base SaslCode.toBase SaslCode.ofBase (fun _ => rfl)
  (by intro v; cases v <;> rfl) (by intro c w v h; cases v <;> exact h)
instance : Readable TerminusDurability := accepted_base TerminusDurability.toBase TerminusDurability.ofBase (fun _ => rfl)
  (by intro v; cases v <;> rfl) (by intro c w v h; cases v <;> exact h)
instance : Readable TerminusExpiryPolicy := accepted_base TerminusExpiryPolicy.toBase TerminusExpiryPolicy.ofBase
  (fun _ => rfl) (by intro v; cases v <;> rfl) (by intro c w v h; cases v <;> exact h)

/-- A type written as a symbol, every symbol being allowed. -/
theorem accepted_ofSymbol [Wire α] [Form α] (ofS : Symbol → α) (hd : ∀ c, (decF c : Dec α) = (do return ofS (← decF c)))
    (hf : ∀ c w v, form c w v → ∃ s : Symbol, form c w s ∧ ofS s = v) : Readable α where
  reads c w v h rest := by
    obtain ⟨s, hs, he⟩ := hf c w v h
    rw [hd, Dec.map_ok (accepted_symbol c w s hs rest), he]
  nonNull c w v h := by
    obtain ⟨s, hs, _⟩ := hf c w v h
    exact Readable.nonNull c w s hs

theorem condition_named (v : ErrorCondition) (n : String) (h : conditionName v = some n) :
    ErrorCondition.ofSymbol (sym n) = v := by
  cases v with
  | custom s => cases h
  | _ e => cases e <;> (cases h; rfl)

theorem condition_custom (s : Symbol) (h : ∀ e n, conditionName e = some n → s ≠ sym n) :
    ErrorCondition.ofSymbol s = .custom s := by
  have h1 : AmqpError.ofBase s = .error (.unknownEnumOption "AmqpError") :=
    AmqpError.of_err fun x => by
      obtain ⟨n, h1, h2⟩ : ∃ n, conditionName (.amqpError x) = some n ∧ x.toBase = sym n := by
        cases x <;> exact ⟨_, rfl, rfl⟩
      rw [h2]; exact h _ n h1
  have h2 : ConnectionError.ofBase s = .error (.unknownEnumOption "ConnectionError") :=
    ConnectionError.of_err fun x => by
      obtain ⟨n, h1, h2⟩ : ∃ n, conditionName (.connectionError x) = some n ∧ x.toBase = sym n := by
        cases x <;> exact ⟨_, rfl, rfl⟩
      rw [h2]; exact h _ n h1
  have h3 : SessionError.ofBase s = .error (.unknownEnumOption "SessionError") :=
    SessionError.of_err fun x => by
      obtain ⟨n, h1, h2⟩ : ∃ n, conditionName (.sessionError x) = some n ∧ x.toBase = sym n := by
        cases x <;> exact ⟨_, rfl, rfl⟩
      rw [h2]; exact h _ n h1
  have h4 : LinkError.ofBase s = .error (.unknownEnumOption "LinkError") :=
    LinkError.of_err fun x => by
      obtain ⟨n, h1, h2⟩ : ∃ n, conditionName (.linkError x) = some n ∧ x.toBase = sym n := by
        cases x <;> exact ⟨_, rfl, rfl⟩
      rw [h2]; exact h _ n h1
  rw [ErrorCondition.ofSymbol, h1]; dsimp only
  rw [h2]; dsimp only
  rw [h3]; dsimp only
  rw [h4]

instance : Readable ErrorCondition := accepted_ofSymbol ErrorCondition.ofSymbol (fun _ => rfl) (by
  intro c w v h
  cases v with
  | custom s => exact ⟨s, h.1, condition_custom s h.2⟩
  | _ e => obtain ⟨n, hn, hf⟩ := h; exact ⟨_, hf, condition_named _ n hn⟩)

instance : Readable DistributionMode := accepted_ofSymbol DistributionMode.ofSymbol (fun _ => rfl) (by
  intro c w v h
  cases v with
  | move => exact ⟨_, h, rfl⟩
  | copy => exact ⟨_, h, rfl⟩
  | custom s => exact ⟨s, h.1, by rw [DistributionMode.ofSymbol, if_neg h.2.1, if_neg h.2.2]⟩)

instance : Readable MessageId where
  reads c w v h rest := by
    cases v with
    | ulong v =>
      have := Dec.map_ok (f := MessageId.ulong) (accepted_u64 c w v h rest)
      rcases h with ⟨rfl, -⟩ | ⟨rfl, -⟩ | ⟨rfl, -⟩ <;> exact this
    | uuid v =>
      have := Dec.map_ok (f := MessageId.uuid) (accepted_uuid c w v h rest)
      rcases h with ⟨rfl, -⟩; exact this
    | binary v =>
      have := Dec.map_ok (f := MessageId.binary) (accepted_bytes c w v h rest)
      rcases h with ⟨rfl, -⟩ | ⟨rfl, -⟩ <;> exact this
    | string v =>
      have := Dec.map_ok (f := MessageId.string) (accepted_str c w v h rest)
      rcases h with ⟨⟨rfl, -⟩ | ⟨rfl, -⟩, -⟩ <;> exact this
  nonNull c w v h := by
    cases v with
    | ulong v => exact Readable.nonNull c w v h
    | uuid v => exact Readable.nonNull c w v h
    | binary v => exact Readable.nonNull c w v h
    | string v => exact Readable.nonNull c w v h

/-! ### maps and arrays -/

theorem accepted_variant : ReadsF Variant := by
  intro c w v h rest
  exact tree_dec h _ (by simp; omega) rest

theorem accepted_option [Wire α] [Form α] [Readable α] : ReadsF (Option α) := by
  intro c w v h rest
  cases v with
  | none => obtain ⟨rfl, rfl⟩ := h; rfl
  | some v =>
    show (if c = FC.null then _ else _ : Dec (Option α)) _ = _
    rw [if_neg (Readable.nonNull c w v h)]
    exact Dec.map_ok (Readable.reads c w v h rest)

theorem entries_repeat [Wire κ] [Form κ] [Wire ν] [Form ν] (hk : ReadsF κ) (hv : ReadsF ν) {body : Bytes}
    {m : List (κ × ν)} (h : Entries body m) (rest : Bytes) :
    repeatDec m.length (do
      let k ← dec
      let v ← dec
      return (k, v)) (body ++ rest) = .ok (m, rest) := by
  induction h with
  | nil => rfl
  | @cons c w k c' w' v body m h1 h2 _ ih =>
    have e : c :: w ++ (c' :: w' ++ body) ++ rest = c :: w ++ (c' :: w' ++ (body ++ rest)) := by simp
    rw [e, List.length_cons, repeatDec]
    have hd : (do let k ← dec; let v ← dec; return (k, v) : Dec (κ × ν)) (c :: w ++ (c' :: w' ++ (body ++ rest))) =
        .ok ((k, v), body ++ rest) := by
      rw [Dec.bind_ok (hk.reads c w k h1 _), Dec.bind_ok (hv.reads c' w' v h2 _)]; rfl
    rw [Dec.bind_ok hd, Dec.bind_ok ih]; rfl

theorem entries_loop [Wire κ] [Form κ] [Wire ν] [Form ν] [Key κ] (hk : ReadsF κ) (hv : ReadsF ν) {body : Bytes}
    {m : List (κ × ν)} (h : Entries body m) (ho : ∀ e ∈ m, hashOk e.1 = true) :
    ∀ acc, (acc ++ m).Pairwise (fun a b => keq a.1 b.1 = false) → ∀ rest,
      mapLoop hashOk keq (dec : Dec κ) (dec : Dec ν) m.length acc (body ++ rest) = .ok (acc ++ m, rest) := by
  induction h with
  | nil => intro acc _ rest; simp [mapLoop, Dec.pure_def]
  | @cons c w k c' w' v body m h1 h2 _ ih =>
    intro acc hp rest
    have e : c :: w ++ (c' :: w' ++ body) ++ rest = c :: w ++ (c' :: w' ++ (body ++ rest)) := by simp
    rw [e, List.length_cons, mapLoop, Dec.bind_ok (hk.reads c w k h1 _), Dec.bind_ok (hv.reads c' w' v h2 _),
      if_pos (ho (k, v) (by simp))]
    have hfresh : ∀ e ∈ acc, keq e.1 k = false := by
      intro e he
      rw [List.pairwise_append] at hp
      exact hp.2.2 e he (k, v) (by simp)
    rw [mapInsert_fresh hfresh, ih (fun e he => ho e (by simp [he])) (acc ++ [(k, v)]) (by simpa using hp) rest]
    simp

theorem compounds_null {c8 c32 : UInt8} {n : Nat} {c : UInt8} {w body : Bytes} (h : compounds c8 c32 n c w body)
    (h8 : c8 ≠ 0x40) (h32 : c32 ≠ 0x40) : c ≠ 0x40 := by
  rcases h with ⟨rfl, _⟩ | ⟨rfl, _⟩ <;> assumption

theorem accepted_hmap [Wire κ] [Form κ] [Wire ν] [Form ν] [Key κ] (hk : ReadsF κ) (hv : ReadsF ν) :
    Readable (HMap κ ν) where
  reads c w m h rest := by
    obtain ⟨body, h, he, hp, ho⟩ := h
    obtain ⟨_, _, hh⟩ := compounds_ok (hdr := mapHeader) rfl rfl h
    simp only [decF]
    rw [Dec.bind_ok (hh rest)]
    have := entries_loop hk hv he ho [] (by simpa using hp) []
    simp only [List.append_nil, List.nil_append] at this
    refine Dec.map_ok ?_
    dsimp only
    rw [Nat.mul_div_right _ (by omega : 0 < 2)]
    exact limit_append rfl this
  nonNull c w m h := by
    obtain ⟨body, h, _⟩ := h
    exact compounds_null h (by decide) (by decide)

instance [Wire ν] [Form ν] [Readable ν] : Readable (HMap Symbol ν) := accepted_hmap accepted_symbol Readable.reads
instance : Readable (HMap Symbol Variant) := accepted_hmap accepted_symbol accepted_variant
instance : Readable (HMap Symbol (Option Str)) := accepted_hmap accepted_symbol accepted_option
instance : Readable (HMap Variant Variant) := accepted_hmap accepted_variant accepted_variant

theorem accepted_vecMap [Wire κ] [Form κ] (hk : ReadsF κ) : Readable (VecMap κ) where
  reads c w m h rest := by
    obtain ⟨body, h, he⟩ := h
    obtain ⟨_, _, hh⟩ := compounds_ok (hdr := mapHeader) rfl rfl h
    simp only [decF]
    rw [Dec.bind_ok (hh rest)]
    have := entries_repeat hk accepted_variant he []
    simp only [List.append_nil] at this
    refine Dec.map_ok ?_
    dsimp only
    rw [Nat.mul_div_right _ (by omega : 0 < 2)]
    exact limit_append rfl this
  nonNull c w m h := by
    obtain ⟨body, h, _⟩ := h
    exact compounds_null h (by decide) (by decide)

instance : Readable (VecMap Symbol) := accepted_vecMap accepted_symbol
instance : Readable (VecMap Str) := accepted_vecMap accepted_str

theorem items_repeat [Wire α] [Form α] (ha : ReadsF α) {e : UInt8} {body : Bytes} {l : List α} (h : Items e body l)
    (rest : Bytes) : repeatDec l.length (decF e) (body ++ rest) = .ok (l, rest) := by
  induction h with
  | nil => rfl
  | @cons w v body l h1 _ ih =>
    rw [List.append_assoc, List.length_cons, repeatDec, Dec.bind_ok (ha e w v h1 _), Dec.bind_ok ih]; rfl

theorem array_symbols {c e : UInt8} {w payload : Bytes} {l : List Symbol} (he : e = 0xa3 ∨ e = 0xb3)
    (h : compounds 0xe0 0xf0 l.length c w (e :: payload)) (hi : Items e payload l) (rest : Bytes) :
    (decF c : Dec (Arr Symbol)) (w ++ rest) = .ok (⟨l⟩, rest) := by
  obtain ⟨_, _, hh⟩ := compounds_ok (hdr := arrayHeader) rfl rfl h
  simp only [decF]
  rw [Dec.bind_ok (hh rest)]
  dsimp only
  refine (Dec.bind_ok (a := ()) (r := e :: payload ++ rest) ?_).trans ?_
  · show (if _ then _ else _) = _
    rw [if_neg (by simp)]
  have hd : (dec : Dec Constructor) (e :: payload ++ rest) = .ok (.formatCode e, payload ++ rest) := by
    rcases he with rfl | rfl <;> rfl
  rw [Dec.bind_ok hd]
  exact Dec.map_ok (items_repeat accepted_symbol hi rest)

instance : Readable (Multiple Symbol) where
  reads c w m h rest := by
    obtain ⟨l⟩ := m
    rcases h with ⟨s, rfl, h⟩ | ⟨e, payload, he, h, hi⟩
    · have hd := Dec.map_ok (f := fun s => Multiple.mk [s]) (accepted_symbol c w s h rest)
      rcases h with ⟨⟨rfl, -⟩ | ⟨rfl, -⟩, -⟩ <;> exact hd
    · have hd := Dec.map_ok (f := fun a => Multiple.mk a.items) (array_symbols he h hi rest)
      rcases h with ⟨rfl, -⟩ | ⟨rfl, -⟩ <;> exact hd
  nonNull c w m h := by
    rcases h with ⟨s, _, h⟩ | ⟨e, payload, he, h, hi⟩
    · exact Readable.nonNull c w s h
    · exact compounds_null h (by decide) (by decide)

/-! ### the fields of composite types -/

theorem Elems.drop_some {es : Elems} {i : Nat} {c : UInt8} {w : Bytes} (h : es[i]? = some (c, w)) :
    Elems.bytes (es.drop i) = c :: w ++ Elems.bytes (es.drop (i + 1)) ∧ es.length - i = es.length - (i + 1) + 1 := by
  obtain ⟨hl, he⟩ := List.getElem?_eq_some_iff.mp h
  rw [List.drop_eq_getElem_cons hl, he]
  exact ⟨rfl, by omega⟩

theorem Elems.drop_none {es : Elems} {i : Nat} (h : es[i]? = none) :
    es.drop i = [] ∧ es.drop (i + 1) = [] ∧ es.length - i = 0 ∧ es.length - (i + 1) = 0 := by
  have hl := List.getElem?_eq_none_iff.mp h
  exact ⟨List.drop_eq_nil_of_le hl, List.drop_eq_nil_of_le (by omega), by omega, by omega⟩

/-- Decoding the fields of `es` from the `i`-th on yields `v`; `j` is the next field. -/
def Runs (d : FDec α) (es : Elems) (i j : Nat) (v : α) : Prop :=
  d.run (es.length - i) (Elems.bytes (es.drop i)) = .ok ((v, es.length - j), Elems.bytes (es.drop j))

theorem Runs.req [Wire α] [Form α] [Readable α] {es : Elems} {i : Nat} {v : α} (h : mandatory es i v) (name : String) :
    Runs (req name) es i (i + 1) v := by
  obtain ⟨c, w, he, hf⟩ := h
  obtain ⟨h1, h2⟩ := Elems.drop_some he
  rw [Runs, h1, h2]
  have : ∀ n, (Amqp.req name : FDec α).run (n + 1) = (do return (← dec, n)) := fun n => rfl
  rw [this]
  exact Dec.map_ok (f := fun a => (a, _)) (Readable.dec hf _)

theorem opt_dec [Wire α] {d : FDec β} {es : Elems} {i : Nat} {c : UInt8} {w : Bytes} (h : es[i]? = some (c, w)) (f : Option α → β)
    (hd : ∀ n, d.run (n + 1) = (do return (f (← dec), n))) {v : Option α}
    (hr : ∀ rest, (dec : Dec (Option α)) (c :: w ++ rest) = .ok (v, rest)) : Runs d es i (i + 1) (f v) := by
  obtain ⟨h1, h2⟩ := Elems.drop_some h
  rw [Runs, h1, h2, hd]
  exact Dec.map_ok (f := fun a => (f a, _)) (hr _)

theorem Runs.optBy [Wire α] [Form α] {es : Elems} {i : Nat} {v : Option α} (h : optional es i v)
    (hr : ∀ c w, es[i]? = some (c, w) → ∀ x, v = some x → form c w x → ∀ rest,
      (Amqp.dec : Dec (Option α)) (c :: w ++ rest) = .ok (some x, rest)) :
    Runs opt es i (i + 1) v := by
  cases v with
  | none =>
    rcases h with h | h
    · obtain ⟨h1, h2, h3, h4⟩ := Elems.drop_none h
      rw [Runs, h1, h2, h3, h4]; rfl
    · exact opt_dec (α := α) h (fun x => x) (fun n => rfl) (v := none) (fun rest => rfl)
  | some v =>
    obtain ⟨c, w, he, hf⟩ := h
    exact opt_dec (α := α) he (fun x => x) (fun n => rfl) (hr c w he v rfl hf)

theorem some_dec [Wire α] [Form α] [Readable α] {c : UInt8} {w : Bytes} {v : α} (h : form c w v) (rest : Bytes) :
    (dec : Dec (Option α)) (c :: w ++ rest) = .ok (some v, rest) := accepted_option.reads c w (some v) h rest

theorem Runs.opt [Wire α] [Form α] [Readable α] {es : Elems} {i : Nat} {v : Option α} (h : optional es i v) :
    Runs opt es i (i + 1) v := Runs.optBy h fun _ _ _ _ _ hf rest => some_dec hf rest

theorem Runs.dflt [Wire α] [Form α] [Readable α] {es : Elems} {i : Nat} {d v : α} (h : defaulted es i d v) :
    Runs (dflt d) es i (i + 1) v := by
  rcases h with ⟨c, w, he, hf⟩ | ⟨h | h, rfl⟩
  · exact opt_dec (α := α) he (fun x => x.getD d) (fun n => rfl) (some_dec hf)
  · obtain ⟨h1, h2, h3, h4⟩ := Elems.drop_none h
    rw [Runs, h1, h2, h3, h4]; rfl
  · exact opt_dec (α := α) h (fun x => x.getD v) (fun n => rfl) (v := none) (fun rest => rfl)

theorem Runs.bind {d : FDec α} {f : α → FDec β} {es : Elems} {i j k : Nat} {v : α} {u : β} (h : Runs d es i j v)
    (h' : Runs (f v) es j k u) : Runs (d >>= f) es i k u := by
  have h : d.run _ _ = _ := h
  have h' : (f v).run _ _ = _ := h'
  show (d.run (es.length - i) >>= fun an => (f an.1).run an.2) _ = _
  rw [Dec.bind_ok h]; exact h'

theorem Runs.pure {es : Elems} {i : Nat} {v : α} : Runs (Pure.pure v) es i i v := rfl

/-- The fields of a composite type are decoded as the table says. -/
class ListedWire (α : Type) [Composite α] [Listed α] : Prop where
  code : Composite.code α = Listed.code α
  name : Composite.name α = sym (Listed.name α)
  runs : ∀ (es : Elems) (v : α), Listed.fields es v → ∃ j, Runs Composite.decFields es 0 j v

theorem fieldList_dec [Composite α] [Listed α] [ListedWire α] {b : Bytes} {v : α} (h : fieldList b v) (rest : Bytes) :
    (Composite.decInner : Dec α) (b ++ rest) = .ok (v, rest) := by
  obtain ⟨es, _, hf, h⟩ := h
  obtain ⟨j, hr⟩ := ListedWire.runs es v hf
  have hr : (Composite.decFields : FDec α).run es.length (Elems.bytes es) = _ := hr
  rcases h with ⟨rfl, rfl⟩ | ⟨c, w, rfl, h⟩
  · show (Composite.decInner : Dec α) ([0x45] ++ rest) = _
    have hh : listHeader 0x45 rest = .ok ((0, 0), rest) := rfl
    rw [Composite.decInner, List.singleton_append, Dec.bind_ok (readU8_cons _ _), Dec.bind_ok hh]
    exact limit_append (p := []) rfl (Dec.map_ok (f := fun a : α × Nat => a.1) hr)
  · obtain ⟨_, _, hh⟩ := compounds_ok (hdr := listHeader) rfl rfl h
    rw [Composite.decInner, List.cons_append, Dec.bind_ok (readU8_cons _ _), Dec.bind_ok (hh rest)]
    exact limit_append rfl (Dec.map_ok (f := fun a : α × Nat => a.1) hr)

theorem descriptorOf_dec [Composite α] [Listed α] [ListedWire α] {c : UInt8} {w : Bytes} (h : descriptorOf α c w)
    (rest : Bytes) : ∃ d, (dec : Dec Descriptor) (c :: w ++ rest) = .ok (d, rest) ∧ Composite.isMine α d = true := by
  rcases h with h | h
  · exact ⟨_, descriptor_ok h rest, by simp [Composite.isMine, ListedWire.code]⟩
  · exact ⟨_, descriptor_ok h rest, by simp [Composite.isMine, ListedWire.name]⟩

/-- Every encoding of a composite type is read. -/
theorem readable_composite [Composite α] [Listed α] [ListedWire α] : @Readable α (Composite.wire α) ⟨composite⟩ :=
  @Readable.mk α (Composite.wire α) ⟨composite⟩ (by
    rintro c w v ⟨rfl, dc, dw, b, rfl, hd, hb⟩ rest
    show (Composite.decodeF 0 : Dec α) _ = _
    obtain ⟨d, h1, h2⟩ := descriptorOf_dec hd (b ++ rest)
    rw [Composite.decodeF, if_pos rfl, List.append_assoc, Dec.bind_ok h1, if_pos h2]
    exact fieldList_dec hb rest) (by
    rintro c w v ⟨rfl, _⟩
    decide)

/-- A choice between composite types. -/
theorem composite_dec [Composite α] [Listed α] [ListedWire α] {c : UInt8} {w : Bytes} {v : α} (h : composite c w v) :
    c = FC.described ∧ ∀ rest, ∃ d b, (dec : Dec Descriptor) (w ++ rest) = .ok (d, b ++ rest) ∧
      (d = .ulong (Listed.code α) ∨ d = .symbol (sym (Listed.name α))) ∧
      (Composite.decInner : Dec α) (b ++ rest) = .ok (v, rest) := by
  obtain ⟨rfl, dc, dw, b, rfl, hd, hb⟩ := h
  refine ⟨rfl, fun rest => ?_⟩
  rcases hd with h | h
  · exact ⟨_, b, by rw [List.append_assoc]; exact descriptor_ok h _, .inl rfl, fieldList_dec hb rest⟩
  · exact ⟨_, b, by rw [List.append_assoc]; exact descriptor_ok h _, .inr rfl, fieldList_dec hb rest⟩

theorem Runs.time {es : Elems} {i : Nat} {v : Option Timestamp} (h : optional es i v) (ht : readableTime v) :
    Runs Amqp.opt es i (i + 1) v := by
  refine Runs.optBy h fun c w _ x hx hf rest => ?_
  subst hx
  have := accepted_timestamp hf ht rest
  have hc : c = 0x83 := hf.1
  subst hc
  exact Dec.map_ok (f := some) this

instance : ListedWire Error where
  code := rfl
  name := rfl
  runs es v h := by
    obtain ⟨h0, h1, h2⟩ := h
    exact ⟨_, (Runs.req h0 _).bind ((Runs.opt h1).bind ((Runs.opt h2).bind Runs.pure))⟩
instance : Readable Error := readable_composite

instance : ListedWire Open where
  code := rfl
  name := rfl
  runs es v h := by
    obtain ⟨h0, h1, h2, h3, h4, h5, h6, h7, h8, h9⟩ := h
    exact ⟨_, (Runs.req h0 _).bind ((Runs.opt h1).bind ((Runs.dflt h2).bind ((Runs.dflt h3).bind ((Runs.opt h4).bind
      ((Runs.opt h5).bind ((Runs.opt h6).bind ((Runs.opt h7).bind ((Runs.opt h8).bind ((Runs.opt h9).bind
      Runs.pure)))))))))⟩
instance : Readable Open := readable_composite

instance : ListedWire Begin where
  code := rfl
  name := rfl
  runs es v h := by
    obtain ⟨h0, h1, h2, h3, h4, h5, h6, h7⟩ := h
    exact ⟨_, (Runs.opt h0).bind ((Runs.req h1 _).bind ((Runs.req h2 _).bind ((Runs.req h3 _).bind ((Runs.dflt h4).bind
      ((Runs.opt h5).bind ((Runs.opt h6).bind ((Runs.opt h7).bind Runs.pure)))))))⟩
instance : Readable Begin := readable_composite

instance : ListedWire Flow where
  code := rfl
  name := rfl
  runs es v h := by
    obtain ⟨h0, h1, h2, h3, h4, h5, h6, h7, h8, h9, h10⟩ := h
    exact ⟨_, (Runs.opt h0).bind ((Runs.req h1 _).bind ((Runs.req h2 _).bind ((Runs.req h3 _).bind ((Runs.opt h4).bind
      ((Runs.opt h5).bind ((Runs.opt h6).bind ((Runs.opt h7).bind ((Runs.dflt h8).bind ((Runs.dflt h9).bind
      ((Runs.opt h10).bind Runs.pure))))))))))⟩
instance : Readable Flow := readable_composite

instance : ListedWire Detach where
  code := rfl
  name := rfl
  runs es v h := by
    obtain ⟨h0, h1, h2⟩ := h
    exact ⟨_, (Runs.req h0 _).bind ((Runs.dflt h1).bind ((Runs.opt h2).bind Runs.pure))⟩
instance : Readable Detach := readable_composite

instance : ListedWire End where
  code := rfl
  name := rfl
  runs es v h0 := ⟨_, (Runs.opt h0).bind Runs.pure⟩
instance : Readable End := readable_composite

instance : ListedWire Close where
  code := rfl
  name := rfl
  runs es v h0 := ⟨_, (Runs.opt h0).bind Runs.pure⟩
instance : Readable Close := readable_composite

instance : ListedWire SaslMechanisms where
  code := rfl
  name := rfl
  runs es v h0 := ⟨_, (Runs.req h0 _).bind Runs.pure⟩
instance : Readable SaslMechanisms := readable_composite

instance : ListedWire SaslInit where
  code := rfl
  name := rfl
  runs es v h := by
    obtain ⟨h0, h1, h2⟩ := h
    exact ⟨_, (Runs.req h0 _).bind ((Runs.opt h1).bind ((Runs.opt h2).bind Runs.pure))⟩
instance : Readable SaslInit := readable_composite

instance : ListedWire SaslChallenge where
  code := rfl
  name := rfl
  runs es v h0 := ⟨_, (Runs.req h0 _).bind Runs.pure⟩
instance : Readable SaslChallenge := readable_composite

instance : ListedWire SaslResponse where
  code := rfl
  name := rfl
  runs es v h0 := ⟨_, (Runs.req h0 _).bind Runs.pure⟩
instance : Readable SaslResponse := readable_composite

instance : ListedWire SaslOutcome where
  code := rfl
  name := rfl
  runs es v h := by
    obtain ⟨h0, h1⟩ := h
    exact ⟨_, (Runs.req h0 _).bind ((Runs.opt h1).bind Runs.pure)⟩
instance : Readable SaslOutcome := readable_composite

instance : ListedWire Target where
  code := rfl
  name := rfl
  runs es v h := by
    obtain ⟨h0, h1, h2, h3, h4, h5, h6⟩ := h
    exact ⟨_, (Runs.opt h0).bind ((Runs.dflt h1).bind ((Runs.dflt h2).bind ((Runs.dflt h3).bind ((Runs.dflt h4).bind
      ((Runs.opt h5).bind ((Runs.opt h6).bind Runs.pure))))))⟩
instance : Readable Target := readable_composite

instance : ListedWire Header where
  code := rfl
  name := rfl
  runs es v h := by
    obtain ⟨h0, h1, h2, h3, h4⟩ := h
    exact ⟨_, (Runs.dflt h0).bind ((Runs.dflt h1).bind ((Runs.opt h2).bind ((Runs.dflt h3).bind ((Runs.dflt h4).bind
      Runs.pure))))⟩
instance : Readable Header := readable_composite

instance : ListedWire Properties where
  code := rfl
  name := rfl
  runs es v h := by
    obtain ⟨h0, h1, h2, h3, h4, h5, h6, h7, ⟨h8, t8⟩, ⟨h9, t9⟩, h10, h11, h12⟩ := h
    exact ⟨_, (Runs.opt h0).bind ((Runs.opt h1).bind ((Runs.opt h2).bind ((Runs.opt h3).bind ((Runs.opt h4).bind ((Runs.opt
      h5).bind ((Runs.opt h6).bind ((Runs.opt h7).bind ((Runs.time h8 t8).bind ((Runs.time h9 t9).bind ((Runs.opt
      h10).bind ((Runs.opt h11).bind ((Runs.opt h12).bind Runs.pure))))))))))))⟩
instance : Readable Properties := readable_composite

instance : ListedWire Received where
  code := rfl
  name := rfl
  runs es v h := by
    obtain ⟨h0, h1⟩ := h
    exact ⟨_, (Runs.req h0 _).bind ((Runs.req h1 _).bind Runs.pure)⟩
instance : Readable Received := readable_composite

instance : ListedWire Accepted where
  code := rfl
  name := rfl
  runs es v _ := ⟨0, Runs.pure⟩
instance : Readable Accepted := readable_composite

instance : ListedWire Rejected where
  code := rfl
  name := rfl
  runs es v h0 := ⟨_, (Runs.opt h0).bind Runs.pure⟩
instance : Readable Rejected := readable_composite

instance : ListedWire Released where
  code := rfl
  name := rfl
  runs es v _ := ⟨0, Runs.pure⟩
instance : Readable Released := readable_composite

instance : ListedWire Modified where
  code := rfl
  name := rfl
  runs es v h := by
    obtain ⟨h0, h1, h2⟩ := h
    exact ⟨_, (Runs.opt h0).bind ((Runs.opt h1).bind ((Runs.opt h2).bind Runs.pure))⟩
instance : Readable Modified := readable_composite

instance : Readable Outcome where
  reads c w v h rest := by
    cases v with
    | accepted v =>
      obtain ⟨rfl, hc⟩ := composite_dec h
      obtain ⟨d, b, h1, h2, h3⟩ := hc rest
      refine (Dec.bind_ok h1).trans ?_
      rcases h2 with rfl | rfl <;> exact Dec.map_ok h3
    | rejected v =>
      obtain ⟨rfl, hc⟩ := composite_dec h
      obtain ⟨d, b, h1, h2, h3⟩ := hc rest
      refine (Dec.bind_ok h1).trans ?_
      rcases h2 with rfl | rfl <;> exact Dec.map_ok h3
    | released v =>
      obtain ⟨rfl, hc⟩ := composite_dec h
      obtain ⟨d, b, h1, h2, h3⟩ := hc rest
      refine (Dec.bind_ok h1).trans ?_
      rcases h2 with rfl | rfl <;> exact Dec.map_ok h3
    | modified v =>
      obtain ⟨rfl, hc⟩ := composite_dec h
      obtain ⟨d, b, h1, h2, h3⟩ := hc rest
      refine (Dec.bind_ok h1).trans ?_
      rcases h2 with rfl | rfl <;> exact Dec.map_ok h3
  nonNull c w v h := by
    cases v <;> (obtain ⟨rfl, _⟩ := h; decide)

instance : Readable DeliveryState where
  reads c w v h rest := by
    cases v with
    | received v =>
      obtain ⟨rfl, hc⟩ := composite_dec h
      obtain ⟨d, b, h1, h2, h3⟩ := hc rest
      refine (Dec.bind_ok h1).trans ?_
      rcases h2 with rfl | rfl <;> exact Dec.map_ok h3
    | accepted v =>
      obtain ⟨rfl, hc⟩ := composite_dec h
      obtain ⟨d, b, h1, h2, h3⟩ := hc rest
      refine (Dec.bind_ok h1).trans ?_
      rcases h2 with rfl | rfl <;> exact Dec.map_ok h3
    | rejected v =>
      obtain ⟨rfl, hc⟩ := composite_dec h
      obtain ⟨d, b, h1, h2, h3⟩ := hc rest
      refine (Dec.bind_ok h1).trans ?_
      rcases h2 with rfl | rfl <;> exact Dec.map_ok h3
    | released v =>
      obtain ⟨rfl, hc⟩ := composite_dec h
      obtain ⟨d, b, h1, h2, h3⟩ := hc rest
      refine (Dec.bind_ok h1).trans ?_
      rcases h2 with rfl | rfl <;> exact Dec.map_ok h3
    | modified v =>
      obtain ⟨rfl, hc⟩ := composite_dec h
      obtain ⟨d, b, h1, h2, h3⟩ := hc rest
      refine (Dec.bind_ok h1).trans ?_
      rcases h2 with rfl | rfl <;> exact Dec.map_ok h3
  nonNull c w v h := by
    cases v <;> (obtain ⟨rfl, _⟩ := h; decide)

instance : ListedWire Source where
  code := rfl
  name := rfl
  runs es v h := by
    obtain ⟨h0, h1, h2, h3, h4, h5, h6, h7, h8, h9, h10⟩ := h
    exact ⟨_, (Runs.opt h0).bind ((Runs.dflt h1).bind ((Runs.dflt h2).bind ((Runs.dflt h3).bind ((Runs.dflt h4).bind
      ((Runs.opt h5).bind ((Runs.opt h6).bind ((Runs.opt h7).bind ((Runs.opt h8).bind ((Runs.opt h9).bind ((Runs.opt
      h10).bind Runs.pure))))))))))⟩
instance : Readable Source := readable_composite

instance : ListedWire Attach where
  code := rfl
  name := rfl
  runs es v h := by
    obtain ⟨h0, h1, h2, h3, h4, h5, h6, h7, h8, h9, h10, h11, h12, h13⟩ := h
    exact ⟨_, (Runs.req h0 _).bind ((Runs.req h1 _).bind ((Runs.req h2 _).bind ((Runs.dflt h3).bind ((Runs.dflt h4).bind
      ((Runs.opt h5).bind ((Runs.opt h6).bind ((Runs.opt h7).bind ((Runs.dflt h8).bind ((Runs.opt h9).bind ((Runs.opt
      h10).bind ((Runs.opt h11).bind ((Runs.opt h12).bind ((Runs.opt h13).bind Runs.pure)))))))))))))⟩
instance : Readable Attach := readable_composite

instance : ListedWire Disposition where
  code := rfl
  name := rfl
  runs es v h := by
    obtain ⟨h0, h1, h2, h3, h4, h5⟩ := h
    exact ⟨_, (Runs.req h0 _).bind ((Runs.req h1 _).bind ((Runs.opt h2).bind ((Runs.dflt h3).bind ((Runs.opt h4).bind
      ((Runs.dflt h5).bind Runs.pure)))))⟩
instance : Readable Disposition := readable_composite

instance : ListedWire TransferHead where
  code := rfl
  name := rfl
  runs es v h := by
    obtain ⟨h0, h1, h2, h3, h4, h5, h6, h7, h8, h9, h10⟩ := h
    exact ⟨_, (Runs.req h0 _).bind ((Runs.opt h1).bind ((Runs.opt h2).bind ((Runs.opt h3).bind ((Runs.opt h4).bind
      ((Runs.dflt h5).bind ((Runs.opt h6).bind ((Runs.opt h7).bind ((Runs.dflt h8).bind ((Runs.dflt h9).bind
      ((Runs.dflt h10).bind Runs.pure))))))))))⟩
instance : Readable TransferHead := readable_composite

instance : Readable SaslFrameBody where
  reads c w v h rest := by
    cases v with
    | saslMechanisms v =>
      obtain ⟨rfl, hc⟩ := composite_dec h
      obtain ⟨d, b, h1, h2, h3⟩ := hc rest
      refine (Dec.bind_ok h1).trans ?_
      rcases h2 with rfl | rfl <;> exact Dec.map_ok h3
    | saslInit v =>
      obtain ⟨rfl, hc⟩ := composite_dec h
      obtain ⟨d, b, h1, h2, h3⟩ := hc rest
      refine (Dec.bind_ok h1).trans ?_
      rcases h2 with rfl | rfl <;> exact Dec.map_ok h3
    | saslChallenge v =>
      obtain ⟨rfl, hc⟩ := composite_dec h
      obtain ⟨d, b, h1, h2, h3⟩ := hc rest
      refine (Dec.bind_ok h1).trans ?_
      rcases h2 with rfl | rfl <;> exact Dec.map_ok h3
    | saslResponse v =>
      obtain ⟨rfl, hc⟩ := composite_dec h
      obtain ⟨d, b, h1, h2, h3⟩ := hc rest
      refine (Dec.bind_ok h1).trans ?_
      rcases h2 with rfl | rfl <;> exact Dec.map_ok h3
    | saslOutcome v =>
      obtain ⟨rfl, hc⟩ := composite_dec h
      obtain ⟨d, b, h1, h2, h3⟩ := hc rest
      refine (Dec.bind_ok h1).trans ?_
      rcases h2 with rfl | rfl <;> exact Dec.map_ok h3
  nonNull c w v h := by
    cases v <;> (obtain ⟨rfl, _⟩ := h; decide)

end Amqp.Standard
