import Verif.Lemmas.Compound
import Verif.Model.Composite
import Verif.Spec.Composite
/-! The laws of the composite-type template. -/

namespace Amqp
open Dec

theorem enum_rt {α β : Type} [Wire β] [WF β] [LawfulWire β] [Wire α] {toB : α → β} {ofB : β → Except Err α} {a : α}
    (he : enc a = enc (toB a)) (hd : ∀ fmt, (decF fmt : Dec α) = (decF fmt >>= fun b => liftE (ofB b)))
    (hw : wf (toB a)) (hof : ofB (toB a) = .ok a) : RTF a := by
  obtain ⟨c, tl, h1, h2⟩ := LawfulWire.rt (toB a) hw
  refine ⟨c, tl, he.trans h1, fun rest => ?_⟩
  rw [hd, Dec.bind_ok (h2 rest), hof]
  rfl

/-- With `k` fields announced and field `i` next, the decoder `d` turns what is on the wire of the fields `es`
(those with index below `k`) into `a`. -/
def FT (k i : Nat) (d : FDec α) (es : List Bytes) (a : α) : Prop :=
  ∀ rest, d.run (k - i) ((es.take (k - i)).flatten ++ rest) = .ok ((a, k - (i + es.length)), rest)

theorem ft_pure {a : α} {k i : Nat} : FT k i (pure a) [] a := fun rest => by
  simp only [List.take_nil, List.flatten_nil, List.nil_append, List.length_nil, Nat.add_zero]
  rfl

theorem FT.cons {d : FDec α} {f : α → FDec β} {k i : Nat} {e : Bytes} {es : List Bytes} {a : α} {b : β}
    (h1 : FT k i d [e] a) (h2 : FT k (i + 1) (f a) es b) : FT k i (d >>= f) (e :: es) b := by
  intro rest
  have hs : ((e :: es).take (k - i)).flatten = ([e].take (k - i)).flatten ++ (es.take (k - (i + 1))).flatten := by
    by_cases hk : i < k
    · obtain ⟨m, hm⟩ : ∃ m, k - i = m + 1 := ⟨k - i - 1, by omega⟩
      have : k - (i + 1) = m := by omega
      rw [hm, this]
      simp
    · have h0 : k - i = 0 := by omega
      have h1 : k - (i + 1) = 0 := by omega
      rw [h0, h1]; simp
  rw [hs, List.append_assoc]
  show (d.run (k - i) >>= fun an => (f an.1).run an.2) _ = _
  rw [Dec.bind_ok (h1 _)]
  have := h2 rest
  simp only [List.length_cons, List.length_nil] at this ⊢
  rw [show i + (es.length + 1) = i + 1 + es.length by omega]
  exact this

section fields
variable [Wire α] [WF α] [LawfulWire α] {k i : Nat}

theorem ft_req (nm : String) {a : α} {keep : Nat → Bool} (h : wf a) (hk : i < k) (hkeep : keep i = true) :
    FT k i (req nm) [if keep i then enc a else [0x40]] a := by
  intro rest
  obtain ⟨m, hm⟩ : ∃ m, k - i = m + 1 := ⟨k - i - 1, by omega⟩
  have hm' : k - (i + 1) = m := by omega
  rw [if_pos hkeep]
  simp only [List.length_cons, List.length_nil, Nat.zero_add, hm, hm', List.take_succ_cons, List.take_nil, List.flatten_cons,
    List.flatten_nil, List.append_nil, req]
  rw [if_pos (by omega), Dec.bind_ok (rt_dec h rest)]
  rfl

variable [NonNullWire α]

/-- What is on the wire for an optional value: its encoding or null. -/
theorem dec_keep {a : Option α} (h : wf a) (b : Bool) (rest : Bytes) :
    (dec : Dec (Option α)) ((if b then enc a else [0x40]) ++ rest) = .ok (if b then a else none, rest) := by
  cases b with
  | true => exact rt_dec h rest
  | false => exact rt_dec (a := (none : Option α)) trivial rest

theorem ft_opt {a : Option α} {keep : Nat → Bool} (h : wf a) :
    FT k i opt [if keep i then enc a else [0x40]] (if i < k && keep i then a else none) := by
  intro rest
  by_cases hk : i < k
  · obtain ⟨m, hm⟩ : ∃ m, k - i = m + 1 := ⟨k - i - 1, by omega⟩
    have hm' : k - (i + 1) = m := by omega
    simp only [List.length_cons, List.length_nil, Nat.zero_add, hm, hm', List.take_succ_cons, List.take_nil, List.flatten_cons,
      List.flatten_nil, List.append_nil, opt, hk, decide_true, Bool.true_and]
    rw [if_pos (by omega), Dec.bind_ok (dec_keep h (keep i) rest)]
    rfl
  · have h0 : k - i = 0 := by omega
    have h1 : k - (i + 1) = 0 := by omega
    simp [h0, h1, opt, hk, Dec.pure_def]

theorem ft_dflt {d a : α} {keep : Nat → Bool} (h : wf a) :
    FT k i (dflt d) [if keep i then enc a else [0x40]] (if i < k && keep i then a else d) := by
  intro rest
  by_cases hk : i < k
  · obtain ⟨m, hm⟩ : ∃ m, k - i = m + 1 := ⟨k - i - 1, by omega⟩
    have hm' : k - (i + 1) = m := by omega
    have hd := dec_keep (a := some a) h (keep i) rest
    have he : enc (some a) = enc a := rfl
    rw [he] at hd
    simp only [List.length_cons, List.length_nil, Nat.zero_add, hm, hm', List.take_succ_cons, List.take_nil, List.flatten_cons,
      List.flatten_nil, List.append_nil, dflt, hk, decide_true, Bool.true_and]
    rw [if_pos (by omega), Dec.bind_ok hd]
    cases keep i <;> rfl
  · have h0 : k - i = 0 := by omega
    have h1 : k - (i + 1) = 0 := by omega
    simp [h0, h1, dflt, hk, Dec.pure_def]

end fields

/-- With `k` fields announced and field `i` next, `d` reports that the mandatory field `nm` is missing. -/
def FE (k i : Nat) (d : FDec α) (es : List Bytes) (nm : String) : Prop :=
  ∀ rest, d.run (k - i) ((es.take (k - i)).flatten ++ rest) = .error (.requiredFieldOmitted nm)

theorem fe_req [Wire α] {f : α → FDec β} {k i : Nat} {es : List Bytes} (nm : String) (h : k ≤ i) :
    FE k i (req nm >>= f) es nm := fun rest => by
  have h0 : k - i = 0 := by omega
  rw [h0]
  rfl

theorem take_cons_flatten (k i : Nat) (e : Bytes) (es : List Bytes) : ((e :: es).take (k - i)).flatten =
    ([e].take (k - i)).flatten ++ (es.take (k - (i + 1))).flatten := by
  by_cases hk : i < k
  · obtain ⟨m, hm⟩ : ∃ m, k - i = m + 1 := ⟨k - i - 1, by omega⟩
    have : k - (i + 1) = m := by omega
    rw [hm, this]
    simp
  · have h0 : k - i = 0 := by omega
    have h1 : k - (i + 1) = 0 := by omega
    rw [h0, h1]; simp

theorem FT.fcons {d : FDec α} {f : α → FDec β} {k i : Nat} {e : Bytes} {es : List Bytes} {a : α} {nm : String}
    (h1 : FT k i d [e] a) (h2 : FE k (i + 1) (f a) es nm) : FE k i (d >>= f) (e :: es) nm := by
  intro rest
  rw [take_cons_flatten, List.append_assoc]
  show (d.run (k - i) >>= fun an => (f an.1).run an.2) _ = _
  rw [Dec.bind_ok (h1 _)]
  exact h2 rest

theorem find_no {p : β → Bool} {x : β} {l : List β} (h : ¬ p x = true) : (x :: l).find? p = l.find? p := by
  simp [h]
theorem find_yes {p : β → Bool} {x : β} {l : List β} (h : p x = true) : (x :: l).find? p = some x := by
  simp [h]

/-- `Stable`, for every announced number of fields. -/
def FStable (d : FDec α) : Prop := ∀ n, Stable (d.run n)

theorem FStable.pure {a : α} : FStable (pure a) := fun _ => (Good.pure _).stable
theorem FStable.bind {m : FDec α} {f : α → FDec β} (hm : FStable m) (hf : ∀ a, FStable (f a)) : FStable (m >>= f) :=
  fun n => (hm n).bind fun an => hf an.1 an.2
theorem FStable.req [Wire α] [StableWire α] {nm : String} : FStable (req nm : FDec α) :=
  fun _ => .ite (Stable.dec.bind fun _ => (Good.pure _).stable) (Good.fail (by simp)).stable
theorem FStable.opt [Wire α] [StableWire α] : FStable (opt : FDec (Option α)) :=
  fun _ => .ite (Stable.dec.bind fun _ => (Good.pure _).stable) (Good.pure _).stable
theorem FStable.dflt [Wire α] [StableWire α] {d : α} : FStable (dflt d : FDec α) :=
  fun _ => .ite (Stable.dec.bind fun _ => (Good.pure _).stable) (Good.pure _).stable

theorem fld_size [Wire α] [SizeWire α] (a : α) : (fld a).1.length = (fld a).2 := SizeWire.size_eq a

class LawfulComposite (α : Type) [Composite α] [WF α] [Layout α] : Prop where
  code_small : Composite.code α ≤ 255
  code_pos : Composite.code α ≠ 0
  code_spec : Composite.code α = Layout.descriptorCode α
  name_spec : Composite.name α = sym (Layout.descriptorName α)
  name_ascii : ((ascii (Layout.descriptorName α)).all fun c => c ≤ 0x7F) = true ∧
    (ascii (Layout.descriptorName α)).length < 256
  bytes : ∀ x : α, (Composite.fields x).map (·.1) = Layout.fieldBytes x
  mand_lt : ∀ x : α, ∀ m ∈ Layout.mandatory α, m.1 < (Layout.fieldBytes x).length
  len_small : ∀ x : α, (Composite.fields x).length < 256
  full : ∀ (x : α) (keep : Nat → Bool), (∀ i, i < (Layout.fieldBytes x).length → keep i = true) →
    Layout.keepFields keep x = x
  sizes : ∀ x : α, ∀ f ∈ Composite.fields x, f.1.length = f.2
  small : ∀ x : α, wf x → (Composite.content x).length + 4 < U32
  ft : ∀ (x : α) (keep : Nat → Bool) (k : Nat), wf x → (∀ m ∈ Layout.mandatory α, m.1 < k ∧ keep m.1 = true) →
    FT k 0 Composite.decFields (sentFields keep 0 (Layout.fieldBytes x)) (Layout.keepFields (fun i => i < k && keep i) x)
  fe : ∀ (x : α) (keep : Nat → Bool) (k : Nat) (m : Nat × String), wf x →
    (∀ m ∈ Layout.mandatory α, m.1 < k → keep m.1 = true) →
    (Layout.mandatory α).find? (fun m => k ≤ m.1) = some m →
    FE k 0 (Composite.decFields : FDec α) (sentFields keep 0 (Layout.fieldBytes x)) m.2
  stable : FStable (Composite.decFields : FDec α)

namespace Composite
variable [Composite α]

theorem decInner_eq (fmt : UInt8) (s : Bytes) :
    (decInner : Dec α) (fmt :: s) = (do
      let (size, count) ← listHeader fmt
      limit size (do return (← (decFields : FDec α).run count).1)) s := rfl

variable [WF α] [Layout α] [LawfulComposite α]

theorem content_length (x : α) : (content x).length = contentSize x := by
  have h := LawfulComposite.sizes x
  simp only [content, contentSize]
  generalize fields x = l at h
  induction l with
  | nil => rfl
  | cons f l ih =>
    rw [List.flatMap_cons, List.length_append, List.map_cons, List.sum_cons, ih fun g hg => h g (by simp [hg]),
      h f (by simp)]

/-- The body of a composite list: `k` announced fields, the first `k` fields of `x`, then anything. -/
theorem decFields_prefix (x : α) (keep : Nat → Bool) (hx : wf x) (k : Nat)
    (hk : ∀ m ∈ Layout.mandatory α, m.1 < k ∧ keep m.1 = true) (junk : Bytes) :
    (do return (← (decFields : FDec α).run k).1 : Dec α) (((sentFields keep 0 (Layout.fieldBytes x)).take k).flatten ++ junk)
      = .ok (Layout.keepFields (fun i => i < k && keep i) x, junk) := by
  have := LawfulComposite.ft x keep k hx hk junk
  simp only [Nat.sub_zero] at this
  exact Dec.map_ok (f := Prod.fst) this

theorem decFields_missing (x : α) (keep : Nat → Bool) (hx : wf x) (k : Nat) (m : Nat × String)
    (hk : ∀ m ∈ Layout.mandatory α, m.1 < k → keep m.1 = true)
    (hm : (Layout.mandatory α).find? (fun m => k ≤ m.1) = some m) (junk : Bytes) :
    (do return (← (decFields : FDec α).run k).1 : Dec α) (((sentFields keep 0 (Layout.fieldBytes x)).take k).flatten ++ junk)
      = .error (.requiredFieldOmitted m.2) := by
  have := LawfulComposite.fe x keep k m hx hk hm junk
  simp only [Nat.sub_zero] at this
  exact Dec.bind_err this

theorem sentFields_all (i : Nat) (l : List Bytes) : sentFields (fun _ => true) i l = l := by
  induction l generalizing i with
  | nil => rfl
  | cons f l ih => rw [sentFields, if_pos rfl, ih]

theorem sentFields_length (keep : Nat → Bool) (i : Nat) (l : List Bytes) : (sentFields keep i l).length = l.length := by
  induction l generalizing i with
  | nil => rfl
  | cons f l ih => rw [sentFields, List.length_cons, ih, List.length_cons]

theorem decInner_enc (x : α) (hx : wf x) (rest : Bytes) :
    (decInner : Dec α) (encHeader FC.list8 FC.list32 (contentSize x) (fields x).length ++ content x ++ rest) = .ok (x, rest) := by
  have hs := LawfulComposite.small x hx
  rw [content_length] at hs
  have hl := LawfulComposite.len_small x
  obtain ⟨c, tl, he, hc, hd⟩ := encHeader_rt (c8 := FC.list8) (c32 := FC.list32) (hdr := listHeader)
    (size := contentSize x) (count := (fields x).length) rfl rfl hs (Nat.lt_trans hl (by decide)) (fun _ => hl)
  rw [he, List.cons_append, List.cons_append, decInner_eq, List.append_assoc, Dec.bind_ok (hd _)]
  have hln : (Layout.fieldBytes x).length = (fields x).length := by rw [← LawfulComposite.bytes]; simp
  have hb := decFields_prefix x (fun _ => true) hx (fields x).length
    (fun m hm => by have := LawfulComposite.mand_lt x m hm; simp; omega) []
  rw [List.take_of_length_le (by simp [sentFields_length, hln]), List.append_nil, sentFields_all,
    ← LawfulComposite.bytes, LawfulComposite.full _ _ (fun i hi => by simp; omega), List.flatten_eq_flatMap, List.flatMap_map] at hb
  exact limit_append (content_length x).symm hb

theorem descriptor_head {c : UInt64} (h0 : c ≠ 0) (h : c ≤ 255) :
    enc (Descriptor.ulong c) = [FC.described, FC.smallulong, c.toUInt8] := by
  have : ¬ c > 255 := by simpa [UInt64.not_lt] using h
  simp [enc, h0, this]

theorem encode_eq (x : α) : encode x = FC.described :: FC.smallulong :: (code α).toUInt8 ::
    (encHeader FC.list8 FC.list32 (contentSize x) (fields x).length ++ content x) := by
  rw [encode, descriptor_head LawfulComposite.code_pos LawfulComposite.code_small]
  rfl

theorem dec_descriptor (rest : Bytes) :
    (dec : Dec Descriptor) (FC.smallulong :: (code α).toUInt8 :: rest) = .ok (.ulong (code α), rest) := by
  have h := rt_smallulong (code α) (by simpa [UInt64.not_lt] using (LawfulComposite.code_small (α := α))) rest
  exact Dec.map_ok (f := Descriptor.ulong) h

theorem isMine_code : isMine α (.ulong (code α)) = true := by simp [isMine]

theorem rtf (x : α) (hx : wf x) : ∃ tl, encode x = FC.described :: tl ∧
    ∀ rest, (decodeF FC.described : Dec α) (tl ++ rest) = .ok (x, rest) := by
  refine ⟨_, encode_eq x, fun rest => ?_⟩
  rw [decodeF, if_pos rfl, List.cons_append, List.cons_append, Dec.bind_ok (dec_descriptor (α := α) _)]
  rw [if_pos isMine_code]
  exact decInner_enc x hx rest

theorem lawful : @LawfulWire α (wire α) _ :=
  letI := wire α
  ⟨fun x hx => by
    obtain ⟨tl, he, hd⟩ := rtf x hx
    exact ⟨FC.described, tl, he, hd⟩⟩

theorem sizeWire : @SizeWire α (wire α) :=
  letI := wire α
  ⟨fun x => by
    show (encode x).length = encodedSize x
    rw [encode_eq]
    simp only [List.length_cons, List.length_append, encHeader_length, content_length, encodedSize, headerSize]
    split <;> omega⟩

theorem nonNull : @NonNullWire α (wire α) :=
  letI := wire α
  ⟨fun x tl => by
    show encode x ≠ _
    rw [encode_eq]
    exact cons_ne_null (by decide)⟩

theorem decInner_good : Good (decInner : Dec α) :=
  Good.readU8.bind fun fmt => (Good.listHeader fmt).bind fun sc =>
    Stable.limit _ ((LawfulComposite.stable sc.2).bind fun _ => (Good.pure _).stable)

theorem goodWire : @GoodWire α (wire α) :=
  letI := wire α
  ⟨fun _ => .ite (.bind .dec fun _ => .ite decInner_good (.fail (by simp))) (.fail (by simp))⟩

end Composite

/-- Round trip of a sum of composite types: the descriptor selects the right alternative. -/
theorem sum_rt {α σ : Type} [Composite α] [WF α] [Layout α] [LawfulComposite α] [Wire σ] {f : α → σ} {v : α}
    (h : wf v) (he : enc (f v) = Composite.encode v)
    (hd : ∀ s, (dec : Dec Descriptor) s = .ok (.ulong (Composite.code α), s.drop 2) →
      (decF FC.described : Dec σ) s = (do return f (← Composite.decInner) : Dec σ) (s.drop 2)) : RTF (f v) := by
  refine ⟨FC.described, _, he.trans (Composite.encode_eq v), fun rest => ?_⟩
  rw [List.cons_append, List.cons_append, hd _ (Composite.dec_descriptor _)]
  exact Dec.map_ok (f := f) (Composite.decInner_enc v h rest)

end Amqp
