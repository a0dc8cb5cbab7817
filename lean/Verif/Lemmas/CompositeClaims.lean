import Verif.Spec.CompositeClaims
import Verif.Lemmas.Frame
/-! The claims about composite types from their laws. -/

namespace Amqp
open Dec

theorem listHdr_dec {hdr : Bytes} {size count : Nat} (h : ListHdr hdr size count) :
    ∃ c tl, hdr = c :: tl ∧ ∀ rest, listHeader c (tl ++ rest) = .ok ((size, count), rest) := by
  rcases h with ⟨rfl, rfl, rfl⟩ | ⟨rfl, h1, h2⟩ | ⟨rfl, h1, h2⟩
  · exact ⟨0x45, [], rfl, fun rest => rfl⟩
  · refine ⟨_, _, rfl, fun rest => ?_⟩
    have := compound8_enc size count (by omega) h2 rest
    rw [be_one, be_one] at this
    exact this
  · exact ⟨_, _, rfl, fun rest => compound32_enc size count h1 h2 rest⟩

theorem dec_cons [Wire α] (c : UInt8) (tl s : Bytes) : (dec : Dec α) (c :: tl ++ s) = (decF c : Dec α) (tl ++ s) := rfl

theorem descr_sym8 {b : Bytes} (hutf : validUtf8 b = true) (hl : b.length < 256) (s : Bytes) :
    (decF FC.symbol8 : Dec Descriptor) (UInt8.ofNat b.length :: b ++ s) = .ok (.symbol ⟨b⟩, s) := by
  refine Dec.map_ok (f := Descriptor.symbol) (m := (decF FC.symbol8 : Dec Symbol)) (a := ⟨b⟩) ?_
  have h1 := readBytesU8_enc b s (by omega)
  rw [be_one] at h1
  refine (Dec.bind_ok h1).trans ?_
  exact (Dec.bind_ok (checkUtf8_ok hutf s)).trans rfl

theorem descr_sym32 {b : Bytes} (hutf : validUtf8 b = true) (hl : b.length < U32) (s : Bytes) :
    (decF FC.symbol32 : Dec Descriptor) (be 4 b.length ++ b ++ s) = .ok (.symbol ⟨b⟩, s) := by
  refine Dec.map_ok (f := Descriptor.symbol) (m := (decF FC.symbol32 : Dec Symbol)) (a := ⟨b⟩) ?_
  refine (Dec.bind_ok (readBytesU32_enc b s hl)).trans ?_
  exact (Dec.bind_ok (checkUtf8_ok hutf s)).trans rfl

theorem descr_small {v : UInt64} (h : v ≤ 255) (s : Bytes) :
    (decF FC.smallulong : Dec Descriptor) ([v.toUInt8] ++ s) = .ok (.ulong v, s) :=
  Dec.map_ok (f := Descriptor.ulong) (rt_smallulong v (by simpa [UInt64.not_lt] using h) s)

theorem descr_full (v : UInt64) (s : Bytes) :
    (decF FC.ulong : Dec Descriptor) (be 8 v.toNat ++ s) = .ok (.ulong v, s) :=
  Dec.map_ok (f := Descriptor.ulong) (rt_ulong v s)

/-- Every form of a descriptor decodes to its number or to its name. -/
theorem form_dec {code : UInt64} {name : String} {form : Bytes} (h : DescriptorForm code name form)
    (hu : ((ascii name).all fun c => c ≤ 0x7F) = true) (hl : (ascii name).length < 256) :
    ∃ tl d, form = 0x00 :: tl ∧ (d = .ulong code ∨ d = .symbol (sym name)) ∧
      ∀ s, (dec : Dec Descriptor) (tl ++ s) = .ok (d, s) := by
  have hutf := utf8_of_ascii _ hu
  have hs : sym name = ⟨ascii name⟩ := rfl
  rw [hs]
  cases h with
  | small hc => exact ⟨_, _, rfl, .inl rfl, fun s => by
      rw [dec_cons, show (0x53 : UInt8) = FC.smallulong from rfl, descr_small hc s]⟩
  | full => exact ⟨_, _, rfl, .inl rfl, fun s => by
      rw [dec_cons, show (0x80 : UInt8) = FC.ulong from rfl, descr_full code s]⟩
  | sym8 => exact ⟨_, _, rfl, .inr rfl, fun s => by
      rw [dec_cons, show (0xa3 : UInt8) = FC.symbol8 from rfl, descr_sym8 hutf hl s]⟩
  | sym32 => exact ⟨_, _, rfl, .inr rfl, fun s => by
      rw [dec_cons, show (0xb3 : UInt8) = FC.symbol32 from rfl, descr_sym32 hutf (Nat.lt_trans hl (by decide)) s]⟩

theorem limit_err {d : Dec α} {p rest : Bytes} {n : Nat} {e : Err} (h : n = p.length)
    (hd : d p = .error e) : limit n d (p ++ rest) = .error e := by
  subst h
  simp only [limit, List.length_append]
  rw [if_neg (by omega)]
  simp [hd]

theorem map_dec {α : Type} [Composite α] {f : α → σ} (s : Bytes) :
    (do return f (← (Composite.decInner : Dec α)) : Dec σ) s = mapResult f ((Composite.decInner : Dec α) s) := by
  cases h : (Composite.decInner : Dec α) s with
  | error e => exact Dec.bind_err h
  | ok x => exact Dec.map_ok (f := f) h

section
variable {α : Type} [Composite α] [WF α] [Layout α] [LawfulComposite α]

theorem isMine_form {d : Descriptor} (h : d = .ulong (Layout.descriptorCode α) ∨ d = .symbol (sym (Layout.descriptorName α))) :
    Composite.isMine α d = true := by
  rw [← LawfulComposite.code_spec, ← LawfulComposite.name_spec] at h
  rcases h with rfl | rfl <;> simp [Composite.isMine]

theorem not_isMine {d : Descriptor} (h1 : d ≠ .ulong (Layout.descriptorCode α))
    (h2 : d ≠ .symbol (sym (Layout.descriptorName α))) : Composite.isMine α d = false := by
  rw [← LawfulComposite.code_spec] at h1
  rw [← LawfulComposite.name_spec] at h2
  simp [Composite.isMine, h1, h2]

theorem dec_form {form : Bytes} (h : Introduces α form) (s : Bytes) :
    (@dec α (Composite.wire α) : Dec α) (form ++ s) = (Composite.decInner : Dec α) s := by
  obtain ⟨tl, d, rfl, hd, ht⟩ := form_dec h LawfulComposite.name_ascii.1 LawfulComposite.name_ascii.2
  show (Composite.decodeF FC.described : Dec α) (tl ++ s) = _
  rw [Composite.decodeF, if_pos rfl, Dec.bind_ok (ht s), if_pos (isMine_form hd)]

theorem acceptsAnyFieldCount : @AcceptsAnyFieldCount α (Composite.wire α) _ _ := by
  intro x keep k form hdr extra rest hx hf hk hh
  obtain ⟨c, tl, rfl, hc⟩ := listHdr_dec hh
  rw [List.append_assoc, List.append_assoc, dec_form hf, List.cons_append, Composite.decInner_eq, Dec.bind_ok (hc _)]
  exact limit_append rfl (Composite.decFields_prefix x keep hx k hk extra)

theorem rejectsMissingField : @RejectsMissingField α (Composite.wire α) _ _ := by
  intro x keep k m form hdr extra rest hx hf hk hm hh
  obtain ⟨c, tl, rfl, hc⟩ := listHdr_dec hh
  rw [List.append_assoc, List.append_assoc, dec_form hf, List.cons_append, Composite.decInner_eq, Dec.bind_ok (hc _)]
  exact limit_err rfl (Composite.decFields_missing x keep hx k m hk hm extra)

theorem descriptorsInterchangeable : @DescriptorsInterchangeable α (Composite.wire α) _ := by
  intro f g hf hg s
  rw [dec_form hf, dec_form hg]

theorem rejectsUnknownDescriptor : @RejectsUnknownDescriptor α (Composite.wire α) _ := by
  intro d hw h1 h2 s
  obtain ⟨tl, he, hd⟩ := descriptor_dec d hw
  rw [he]
  show (Composite.decodeF FC.described : Dec α) (tl ++ s) = _
  rw [Composite.decodeF, if_pos rfl, Dec.bind_ok (hd s), not_isMine h1 h2]
  rfl

/-- For sum types whose decoder reads the descriptor and then goes by cases on it. -/
theorem selects {decSum : Dec σ} {body : Descriptor → Dec σ} {f : α → σ}
    (hd : ∀ s r d, (dec : Dec Descriptor) s = .ok (d, r) → decSum (0x00 :: s) = body d r)
    (hb : ∀ d, (d = .ulong (Layout.descriptorCode α) ∨ d = .symbol (sym (Layout.descriptorName α))) →
      body d = (do return f (← (Composite.decInner : Dec α)))) : @Selects σ α (Composite.wire α) _ decSum f := by
  intro form hf s
  rw [dec_form hf]
  obtain ⟨tl, d, rfl, hdd, ht⟩ := form_dec hf LawfulComposite.name_ascii.1 LawfulComposite.name_ascii.2
  rw [List.cons_append, hd _ _ _ (ht s), hb d hdd, map_dec]
end

theorem selectsPlain {α : Type} [Wire α] {code : UInt64} {name : String} {f : α → Section}
    (hu : ((ascii name).all fun c => c ≤ 0x7F) = true) (hl : (ascii name).length < 256)
    (hb : ∀ s r d, (d = .ulong code ∨ d = .symbol (sym name)) → (dec : Dec Descriptor) s = .ok (d, r) →
      (decF FC.described : Dec Section) s = (do return f (← (dec : Dec α)) : Dec Section) r) :
    SelectsPlain α code name f := by
  intro form hf s
  obtain ⟨tl, d, rfl, hdd, ht⟩ := form_dec hf hu hl
  show (decF FC.described : Dec Section) (tl ++ s) = _
  rw [hb _ _ d hdd (ht s)]
  cases h : (dec : Dec α) s with
  | error e => exact Dec.bind_err h
  | ok x => exact Dec.map_ok (f := f) h

theorem rejectsOthers {decSum : Dec σ} {body : Descriptor → Dec σ} {known : List (UInt64 × String)}
    (hd : ∀ s r d, (dec : Dec Descriptor) s = .ok (d, r) → decSum (0x00 :: s) = body d r)
    (hb : ∀ d, (∀ k ∈ known, d ≠ .ulong k.1 ∧ d ≠ .symbol (sym k.2)) → body d = fail (.invalidDescriptor d)) :
    RejectsOthers decSum known := by
  intro d hw hk s
  obtain ⟨tl, he, ht⟩ := descriptor_dec d hw
  rw [he, List.cons_append, hd _ _ _ (ht s), hb d hk]
  rfl

theorem isEnumeration {E B : Type} [Wire E] [Wire B] [BEq B] {name : String} {table : List (B × E)}
    {ofB : B → Except Err E} (hd : ∀ fmt, (decF fmt : Dec E) = (do liftE (ofB (← decF fmt))))
    (hof : ∀ b, ofB b = match table.lookup b with
      | some e => .ok e
      | none => .error (.unknownEnumOption name))
    (he : ∀ p ∈ table, enc p.2 = enc p.1) (ht : ∀ e : E, ∃ b, (b, e) ∈ table) : IsEnumeration E B name table := by
  refine ⟨fun s => ?_, he, ht⟩
  cases s with
  | nil => rfl
  | cons c s =>
    show (decF c : Dec E) s = match (decF c : Dec B) s with | .error e => _ | .ok (b, r) => _
    rw [hd]
    cases h : (decF c : Dec B) s with
    | error e => exact Dec.bind_err h
    | ok x =>
      obtain ⟨b, r⟩ := x
      refine (Dec.bind_ok h).trans ?_
      rw [hof b]
      show _ = match table.lookup b with | some e => _ | none => _
      cases table.lookup b <;> rfl

theorem isOpenEnumeration {E : Type} [Wire E] {table : List (Symbol × E)} {custom : Symbol → E}
    {ofS : Symbol → E} (hd : ∀ fmt, (decF fmt : Dec E) = (do return ofS (← decF fmt)))
    (hof : ∀ b, ofS b = (table.lookup b).getD (custom b))
    (he : ∀ p ∈ table, enc p.2 = enc p.1) (hc : ∀ b, enc (custom b) = enc b) : IsOpenEnumeration E table custom := by
  refine ⟨fun s => ?_, he, hc⟩
  cases s with
  | nil => rfl
  | cons c s =>
    show (decF c : Dec E) s = match (decF c : Dec Symbol) s with | .error e => _ | .ok (b, r) => _
    rw [hd]
    cases h : (decF c : Dec Symbol) s with
    | error e => exact Dec.bind_err h
    | ok x =>
      obtain ⟨b, r⟩ := x
      refine (Dec.bind_ok h).trans ?_
      rw [hof b]
      rfl

end Amqp
