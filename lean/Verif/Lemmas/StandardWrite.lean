import Verif.Lemmas.StandardEnc
import Verif.Lemmas.Frame
import Verif.Spec.StandardWrite
/-! The encoders of composite types, frames and messages write standard encodings. -/

namespace Amqp
open Dec Standard

class Writes (α : Type) [Wire α] [WF α] [Plain α] [Form α] : Prop where
  writes : ∀ v : α, wf v → plain v → ∃ c w, enc v = c :: w ∧ form c w v

theorem writes [Wire α] [WF α] [Plain α] [Form α] [Writes α] (v : α) (hw : wf v) (hp : plain v) :
    ∃ c w, enc v = c :: w ∧ form c w v := Writes.writes v hw hp

/-! ## Plain types -/

instance : Writes Bool := ⟨fun v _ _ => enc_bool v⟩
instance : Writes UInt8 := ⟨fun v h _ => enc_form only_u8 v h⟩
instance : Writes UInt16 := ⟨fun v h _ => enc_form only_u16 v h⟩
instance : Writes UInt32 := ⟨fun v h _ => enc_form only_u32 v h⟩
instance : Writes UInt64 := ⟨fun v h _ => enc_form only_u64 v h⟩
instance : Writes Uuid := ⟨fun v h _ => enc_form only_uuid v h⟩
instance : Writes Bytes := ⟨fun v h _ => enc_form only_bytes v h⟩
instance : Writes Str := ⟨fun v h _ => enc_form only_str v h⟩
instance : Writes Symbol := ⟨fun v h hp => enc_symbol v hp h.2⟩
instance : Writes Timestamp := ⟨fun v h _ => by
  obtain ⟨c, w, he, hf, _⟩ := enc_timestamp v h
  exact ⟨c, w, he, hf⟩⟩
instance : Writes Variant := ⟨fun v h hp => enc_tree v h hp⟩

theorem enc_sym (n : String) (ha : ((ascii n).all fun c => c < 128) = true) (hl : (ascii n).length < U32) :
    ∃ c w, enc (sym n) = c :: w ∧ form c w (sym n) :=
  enc_symbol (sym n) (fun b hb => by simpa using List.all_eq_true.1 ha b hb) hl

/-! ## Restricted types -/

instance : Writes Role := ⟨fun v _ _ => by cases v <;> exact enc_bool _⟩
instance : Writes SenderSettleMode := ⟨fun v _ _ => by cases v <;> exact enc_form only_u8 _ trivial⟩
instance : Writes ReceiverSettleMode := ⟨fun v _ _ => by cases v <;> exact enc_form only_u8 _ trivial⟩
instance : Writes SaslCode := ⟨fun v _ _ => by cases v <;> exact enc_form only_u8 _ trivial⟩
instance : Writes TerminusDurability := ⟨fun v _ _ => by cases v <;> exact enc_form only_u32 _ trivial⟩
instance : Writes TerminusExpiryPolicy := ⟨fun v _ _ => by cases v <;> refine enc_sym _ ?_ ?_ <;> decide⟩

theorem cond_of {v : ErrorCondition} (hv : ∀ s, v ≠ .custom s) {n : String} (hn : conditionName v = some n)
    (he : enc v = enc (sym n)) (ha : ((ascii n).all fun c => c < 128) = true) (hl : (ascii n).length < U32) :
    ∃ c w, enc v = c :: w ∧ form c w v := by
  obtain ⟨c, w, h, hf⟩ := enc_sym n ha hl
  refine ⟨c, w, he.trans h, ?_⟩
  cases v with
  | custom s => exact absurd rfl (hv s)
  | _ => exact ⟨n, hn, hf⟩

instance : Writes ErrorCondition := ⟨fun v hw hp => by
  cases v with
  | amqpError e =>
    cases e <;> exact cond_of (by simp) rfl rfl (by decide) (by decide)
  | connectionError e =>
    cases e <;> exact cond_of (by simp) rfl rfl (by decide) (by decide)
  | sessionError e =>
    cases e <;> exact cond_of (by simp) rfl rfl (by decide) (by decide)
  | linkError e =>
    cases e <;> exact cond_of (by simp) rfl rfl (by decide) (by decide)
  | custom s =>
    obtain ⟨h1, ha, hc, hs, hl⟩ := hw
    obtain ⟨c, w, he, hf⟩ := writes s h1 hp
    refine ⟨c, w, he, hf, fun e n hn => ?_⟩
    cases e with
    | amqpError e => have := ha e; cases e <;> (cases hn; exact this)
    | connectionError e => have := hc e; cases e <;> (cases hn; exact this)
    | sessionError e => have := hs e; cases e <;> (cases hn; exact this)
    | linkError e => have := hl e; cases e <;> (cases hn; exact this)
    | custom s => simp [conditionName] at hn⟩

instance : Writes DistributionMode := ⟨fun v hw hp => by
  cases v with
  | move => exact enc_sym "move" (by decide) (by decide)
  | copy => exact enc_sym "copy" (by decide) (by decide)
  | custom s =>
    obtain ⟨h1, h2⟩ := hw
    obtain ⟨c, w, he, hf⟩ := writes s h1 hp
    exact ⟨c, w, he, hf, h2⟩⟩

instance : Writes MessageId := ⟨fun v hw _ => match v, hw with
  | .ulong v, _ => writes v trivial trivial
  | .uuid v, _ => writes v trivial trivial
  | .binary v, hw => writes v hw trivial
  | .string v, hw => writes v hw trivial⟩

/-! ## Options, maps, arrays, lists -/

instance [Wire α] [WF α] [Plain α] [Form α] [Writes α] : Writes (Option α) := ⟨fun v hw hp => match v, hw, hp with
  | none, _, _ => ⟨0x40, [], rfl, rfl, rfl⟩
  | some v, hw, hp => writes v hw hp⟩

theorem entries_of [Wire κ] [WF κ] [Plain κ] [Form κ] [Writes κ] [Wire ν] [WF ν] [Plain ν] [Form ν] [Writes ν] :
    ∀ m : List (κ × ν), (∀ e ∈ m, wf e.1 ∧ wf e.2) → (∀ e ∈ m, plain e.1 ∧ plain e.2) → Entries (encEntries m) m
  | [], _, _ => .nil
  | (k, v) :: m, hw, hp => by
    obtain ⟨c, w, he, hf⟩ := writes k (hw (k, v) (by simp)).1 (hp (k, v) (by simp)).1
    obtain ⟨c', w', he', hf'⟩ := writes v (hw (k, v) (by simp)).2 (hp (k, v) (by simp)).2
    have ih := entries_of m (fun e h => hw e (by simp [h])) (fun e h => hp e (by simp [h]))
    have : encEntries ((k, v) :: m) = c :: w ++ (c' :: w' ++ encEntries m) := by
      simp only [encEntries, List.flatMap_cons, he, he', List.append_assoc]
    rw [this]
    exact .cons hf hf' ih

theorem entries_length_ge [Form κ] [Form ν] {b : Bytes} {m : List (κ × ν)} (h : Entries b m) :
    2 * m.length ≤ b.length := by
  induction h with
  | nil => simp
  | cons _ _ _ ih => simp; omega

theorem map_of [Wire κ] [WF κ] [Plain κ] [Form κ] [Writes κ] [SizeWire κ] [Wire ν] [WF ν] [Plain ν] [Form ν] [Writes ν]
    [SizeWire ν] (m : List (κ × ν)) (hw : ∀ e ∈ m, wf e.1 ∧ wf e.2) (hp : ∀ e ∈ m, plain e.1 ∧ plain e.2)
    (hl : (encEntries m).length + 4 < U32) :
    ∃ c w, encHeader FC.map8 FC.map32 (sizeEntries m) (m.length * 2) ++ encEntries m = c :: w ∧
      ∃ body, compounds 0xc1 0xd1 (2 * m.length) c w body ∧ Entries body m := by
  have he := entries_of m hw hp
  have hge := entries_length_ge he
  have hs := encEntries_length m
  obtain ⟨c, w, e, hc⟩ := encHeader_compounds (c8 := FC.map8) (c32 := FC.map32) (body := encEntries m)
    (size := sizeEntries m) (count := m.length * 2) hs (by omega) (by omega) (by omega)
  rw [Nat.mul_comm m.length 2] at hc
  exact ⟨c, w, e, _, hc, he⟩

instance [Wire κ] [WF κ] [Plain κ] [Form κ] [Writes κ] [SizeWire κ] [Key κ] [Wire ν] [WF ν] [Plain ν] [Form ν]
    [Writes ν] [SizeWire ν] : Writes (HMap κ ν) := ⟨fun m hw hp => by
  obtain ⟨h1, h2, h3⟩ := hw
  obtain ⟨c, w, e, body, hc, he⟩ := map_of m.entries (fun e h => ⟨(h1 e h).1, (h1 e h).2.1⟩) hp h3
  exact ⟨c, w, e, body, hc, he, h2, fun e h => (h1 e h).2.2⟩⟩

instance [Wire κ] [WF κ] [Plain κ] [Form κ] [Writes κ] [SizeWire κ] : Writes (VecMap κ) := ⟨fun m hw hp =>
  map_of m.entries hw.1 hp hw.2⟩

theorem items_of : ∀ l : List Symbol, (∀ s ∈ l, wf s) → (∀ s ∈ l, plain s) → Items 0xb3 (l.flatMap arrEnc) l
  | [], _, _ => .nil
  | s :: l, hw, hp => by
    rw [List.flatMap_cons]
    refine .cons ⟨.inr ⟨rfl, be 4 s.bytes.length, rfl, be_length _ _, ?_⟩, hp s (by simp)⟩
      (items_of l (fun x h => hw x (by simp [h])) (fun x h => hp x (by simp [h])))
    exact unsigned_be _ _ (by simpa using (hw s (by simp)).2)

theorem symbols_length_ge (l : List Symbol) : 4 * l.length ≤ (l.flatMap arrEnc).length := by
  induction l with
  | nil => simp
  | cons s l ih =>
    have : (arrEnc s).length = 4 + s.bytes.length := by simp [arrEnc, be_length]
    simp only [List.flatMap_cons, List.length_append, List.length_cons, this]
    omega

instance : Writes (Multiple Symbol) := ⟨fun m hw hp => by
  obtain ⟨items⟩ := m
  obtain ⟨h1, h2⟩ := hw
  have harr : ∃ c w, enc (Arr.mk items) = c :: w ∧
      ∃ e payload, (e = 0xa3 ∨ e = 0xb3) ∧ compounds 0xe0 0xf0 items.length c w (e :: payload) ∧
        Items e payload items := by
    have hge := symbols_length_ge items
    have hs : (items.flatMap arrEnc).length = arrContentSize items := arrContent_length items
    simp only at h2
    obtain ⟨c, w, e, hc⟩ := encHeader_compounds (c8 := FC.array8) (c32 := FC.array32)
      (body := arrCtor Symbol :: items.flatMap arrEnc) (size := arrContentSize items + 1) (count := items.length)
      (by simp [hs]) (by omega) (by omega) (by omega)
    exact ⟨c, w, e, 0xb3, _, .inr rfl, hc, items_of items h1 hp⟩
  match items, harr with
  | [s], _ =>
    obtain ⟨c, w, he, hf⟩ := writes s (h1 s (by simp)) (hp s (by simp))
    exact ⟨c, w, he, .inl ⟨s, rfl, hf⟩⟩
  | [], harr =>
    obtain ⟨c, w, he, hf⟩ := harr
    exact ⟨c, w, he, .inr hf⟩
  | _ :: _ :: _, harr =>
    obtain ⟨c, w, he, hf⟩ := harr
    exact ⟨c, w, he, .inr hf⟩⟩

/-! ## Composite types -/

theorem opt_of [Form α] {es : Elems} {i : Nat} {c : UInt8} {w : Bytes} {v : Option α} (he : es[i]? = some (c, w))
    (hf : form c w v) : optional es i v := by
  cases v with
  | none => obtain ⟨rfl, rfl⟩ := hf; exact .inr he
  | some v => exact ⟨c, w, he, hf⟩

theorem readable_of {v : Option Timestamp} (h : wf v) : readableTime v := by
  cases v with
  | none => trivial
  | some t => exact h.2.2.2.2

/-- A composite value whose fields are written as `es`. -/
theorem composite_of [Composite α] [WF α] [Layout α] [LawfulComposite α] [Listed α] (v : α) (hw : wf v) (es : Elems)
    (hcode : Composite.code α = Listed.code α)
    (hes : (Composite.fields v).map (·.1) = es.map fun e => e.1 :: e.2) (hlen : es.length = Listed.arity α)
    (hf : Listed.fields es v) : ∃ c w, Composite.encode v = c :: w ∧ composite c w v := by
  have hb : es.bytes = Composite.content v := by
    rw [Elems.bytes, Composite.content, List.flatMap_def, List.flatMap_def, ← hes]
  have hl : (Composite.fields v).length = es.length := by simpa using congrArg List.length hes
  have hc := Composite.content_length v
  have hs := LawfulComposite.small v hw
  have h256 := LawfulComposite.len_small v
  obtain ⟨c, w, e, hcmp⟩ := encHeader_compounds (c8 := FC.list8) (c32 := FC.list32) (body := Composite.content v)
    (size := Composite.contentSize v) (count := (Composite.fields v).length) hc (by omega) (by simp only [U32]; omega) (fun _ => h256)
  refine ⟨0, 0x53 :: [(Composite.code α).toUInt8] ++ c :: w, by rw [Composite.encode_eq, e]; rfl, rfl, _, _, _, rfl,
    .inl ?_, es, by omega, hf, .inr ⟨c, w, rfl, by rw [← hl, hb]; exact hcmp⟩⟩
  rw [← hcode]
  refine ⟨.inr (.inl ⟨rfl, rfl, ?_⟩), by decide⟩
  have := LawfulComposite.code_small (α := α)
  rw [UInt64.le_iff_toNat_le] at this
  simp [unsigned] at this ⊢
  omega

instance : Writes Error := ⟨fun v hw hp => by
  obtain ⟨h0, h1, h2, _⟩ := id hw
  obtain ⟨p0, p1, p2⟩ := hp
  obtain ⟨c0, w0, e0, f0⟩ := writes v.condition h0 p0
  obtain ⟨c1, w1, e1, f1⟩ := writes v.description h1 p1
  obtain ⟨c2, w2, e2, f2⟩ := writes v.info h2 p2
  exact composite_of v hw
    [(c0, w0), (c1, w1), (c2, w2)] rfl (by simp only [Composite.fields, fld, List.map, e0, e1, e2]) rfl
    (⟨⟨c0, w0, rfl, f0⟩, opt_of rfl f1, opt_of rfl f2⟩)⟩

instance : Writes Open := ⟨fun v hw hp => by
  obtain ⟨h0, h1, h2, h3, h4, h5, h6, h7, h8, h9, _⟩ := id hw
  obtain ⟨p0, p1, p2, p3, p4, p5, p6, p7, p8, p9⟩ := hp
  obtain ⟨c0, w0, e0, f0⟩ := writes v.containerId h0 p0
  obtain ⟨c1, w1, e1, f1⟩ := writes v.hostname h1 p1
  obtain ⟨c2, w2, e2, f2⟩ := writes v.maxFrameSize h2 p2
  obtain ⟨c3, w3, e3, f3⟩ := writes v.channelMax h3 p3
  obtain ⟨c4, w4, e4, f4⟩ := writes v.idleTimeOut h4 p4
  obtain ⟨c5, w5, e5, f5⟩ := writes v.outgoingLocales h5 p5
  obtain ⟨c6, w6, e6, f6⟩ := writes v.incomingLocales h6 p6
  obtain ⟨c7, w7, e7, f7⟩ := writes v.offeredCapabilities h7 p7
  obtain ⟨c8, w8, e8, f8⟩ := writes v.desiredCapabilities h8 p8
  obtain ⟨c9, w9, e9, f9⟩ := writes v.properties h9 p9
  exact composite_of v hw
    [(c0, w0), (c1, w1), (c2, w2), (c3, w3), (c4, w4), (c5, w5), (c6, w6), (c7, w7), (c8, w8), (c9, w9)] rfl (by simp only [Composite.fields, fld, List.map, e0, e1, e2, e3, e4, e5, e6, e7, e8, e9]) rfl
    (⟨⟨c0, w0, rfl, f0⟩, opt_of rfl f1, .inl ⟨c2, w2, rfl, f2⟩, .inl ⟨c3, w3, rfl, f3⟩, opt_of rfl f4, opt_of rfl f5,
    opt_of rfl f6, opt_of rfl f7, opt_of rfl f8, opt_of rfl f9⟩)⟩

instance : Writes Begin := ⟨fun v hw hp => by
  obtain ⟨h0, h1, h2, h3, h4, h5, h6, h7, _⟩ := id hw
  obtain ⟨p0, p1, p2, p3, p4, p5, p6, p7⟩ := hp
  obtain ⟨c0, w0, e0, f0⟩ := writes v.remoteChannel h0 p0
  obtain ⟨c1, w1, e1, f1⟩ := writes v.nextOutgoingId h1 p1
  obtain ⟨c2, w2, e2, f2⟩ := writes v.incomingWindow h2 p2
  obtain ⟨c3, w3, e3, f3⟩ := writes v.outgoingWindow h3 p3
  obtain ⟨c4, w4, e4, f4⟩ := writes v.handleMax h4 p4
  obtain ⟨c5, w5, e5, f5⟩ := writes v.offeredCapabilities h5 p5
  obtain ⟨c6, w6, e6, f6⟩ := writes v.desiredCapabilities h6 p6
  obtain ⟨c7, w7, e7, f7⟩ := writes v.properties h7 p7
  exact composite_of v hw
    [(c0, w0), (c1, w1), (c2, w2), (c3, w3), (c4, w4), (c5, w5), (c6, w6), (c7, w7)] rfl (by simp only [Composite.fields, fld, List.map, e0, e1, e2, e3, e4, e5, e6, e7]) rfl
    (⟨opt_of rfl f0, ⟨c1, w1, rfl, f1⟩, ⟨c2, w2, rfl, f2⟩, ⟨c3, w3, rfl, f3⟩, .inl ⟨c4, w4, rfl, f4⟩, opt_of rfl f5,
    opt_of rfl f6, opt_of rfl f7⟩)⟩

instance : Writes Flow := ⟨fun v hw hp => by
  obtain ⟨h0, h1, h2, h3, h4, h5, h6, h7, h8, h9, h10, _⟩ := id hw
  obtain ⟨p0, p1, p2, p3, p4, p5, p6, p7, p8, p9, p10⟩ := hp
  obtain ⟨c0, w0, e0, f0⟩ := writes v.nextIncomingId h0 p0
  obtain ⟨c1, w1, e1, f1⟩ := writes v.incomingWindow h1 p1
  obtain ⟨c2, w2, e2, f2⟩ := writes v.nextOutgoingId h2 p2
  obtain ⟨c3, w3, e3, f3⟩ := writes v.outgoingWindow h3 p3
  obtain ⟨c4, w4, e4, f4⟩ := writes v.handle h4 p4
  obtain ⟨c5, w5, e5, f5⟩ := writes v.deliveryCount h5 p5
  obtain ⟨c6, w6, e6, f6⟩ := writes v.linkCredit h6 p6
  obtain ⟨c7, w7, e7, f7⟩ := writes v.available h7 p7
  obtain ⟨c8, w8, e8, f8⟩ := writes v.drain h8 p8
  obtain ⟨c9, w9, e9, f9⟩ := writes v.echo h9 p9
  obtain ⟨c10, w10, e10, f10⟩ := writes v.properties h10 p10
  exact composite_of v hw
    [(c0, w0), (c1, w1), (c2, w2), (c3, w3), (c4, w4), (c5, w5), (c6, w6), (c7, w7), (c8, w8), (c9, w9), (c10, w10)] rfl (by simp only [Composite.fields, fld, List.map, e0, e1, e2, e3, e4, e5, e6, e7, e8, e9, e10]) rfl
    (⟨opt_of rfl f0, ⟨c1, w1, rfl, f1⟩, ⟨c2, w2, rfl, f2⟩, ⟨c3, w3, rfl, f3⟩, opt_of rfl f4, opt_of rfl f5,
    opt_of rfl f6, opt_of rfl f7, .inl ⟨c8, w8, rfl, f8⟩, .inl ⟨c9, w9, rfl, f9⟩, opt_of rfl f10⟩)⟩

instance : Writes Detach := ⟨fun v hw hp => by
  obtain ⟨h0, h1, h2, _⟩ := id hw
  obtain ⟨p0, p1, p2⟩ := hp
  obtain ⟨c0, w0, e0, f0⟩ := writes v.handle h0 p0
  obtain ⟨c1, w1, e1, f1⟩ := writes v.closed h1 p1
  obtain ⟨c2, w2, e2, f2⟩ := writes v.error h2 p2
  exact composite_of v hw
    [(c0, w0), (c1, w1), (c2, w2)] rfl (by simp only [Composite.fields, fld, List.map, e0, e1, e2]) rfl
    (⟨⟨c0, w0, rfl, f0⟩, .inl ⟨c1, w1, rfl, f1⟩, opt_of rfl f2⟩)⟩

instance : Writes End := ⟨fun v hw p0 => by
  obtain ⟨h0, _⟩ := id hw
  obtain ⟨c0, w0, e0, f0⟩ := writes v.error h0 p0
  exact composite_of v hw
    [(c0, w0)] rfl (by simp only [Composite.fields, fld, List.map, e0]) rfl
    (opt_of rfl f0)⟩

instance : Writes Close := ⟨fun v hw p0 => by
  obtain ⟨h0, _⟩ := id hw
  obtain ⟨c0, w0, e0, f0⟩ := writes v.error h0 p0
  exact composite_of v hw
    [(c0, w0)] rfl (by simp only [Composite.fields, fld, List.map, e0]) rfl
    (opt_of rfl f0)⟩

instance : Writes SaslMechanisms := ⟨fun v hw p0 => by
  obtain ⟨h0, _⟩ := id hw
  obtain ⟨c0, w0, e0, f0⟩ := writes v.saslServerMechanisms h0 p0
  exact composite_of v hw
    [(c0, w0)] rfl (by simp only [Composite.fields, fld, List.map, e0]) rfl
    (⟨c0, w0, rfl, f0⟩)⟩

instance : Writes SaslInit := ⟨fun v hw hp => by
  obtain ⟨h0, h1, h2, _⟩ := id hw
  obtain ⟨p0, p1, p2⟩ := hp
  obtain ⟨c0, w0, e0, f0⟩ := writes v.mechanism h0 p0
  obtain ⟨c1, w1, e1, f1⟩ := writes v.initialResponse h1 p1
  obtain ⟨c2, w2, e2, f2⟩ := writes v.hostname h2 p2
  exact composite_of v hw
    [(c0, w0), (c1, w1), (c2, w2)] rfl (by simp only [Composite.fields, fld, List.map, e0, e1, e2]) rfl
    (⟨⟨c0, w0, rfl, f0⟩, opt_of rfl f1, opt_of rfl f2⟩)⟩

instance : Writes SaslChallenge := ⟨fun v hw p0 => by
  obtain ⟨h0, _⟩ := id hw
  obtain ⟨c0, w0, e0, f0⟩ := writes v.challenge h0 p0
  exact composite_of v hw
    [(c0, w0)] rfl (by simp only [Composite.fields, fld, List.map, e0]) rfl
    (⟨c0, w0, rfl, f0⟩)⟩

instance : Writes SaslResponse := ⟨fun v hw p0 => by
  obtain ⟨h0, _⟩ := id hw
  obtain ⟨c0, w0, e0, f0⟩ := writes v.response h0 p0
  exact composite_of v hw
    [(c0, w0)] rfl (by simp only [Composite.fields, fld, List.map, e0]) rfl
    (⟨c0, w0, rfl, f0⟩)⟩

instance : Writes SaslOutcome := ⟨fun v hw hp => by
  obtain ⟨h0, h1, _⟩ := id hw
  obtain ⟨p0, p1⟩ := hp
  obtain ⟨c0, w0, e0, f0⟩ := writes v.code h0 p0
  obtain ⟨c1, w1, e1, f1⟩ := writes v.additionalData h1 p1
  exact composite_of v hw
    [(c0, w0), (c1, w1)] rfl (by simp only [Composite.fields, fld, List.map, e0, e1]) rfl
    (⟨⟨c0, w0, rfl, f0⟩, opt_of rfl f1⟩)⟩

instance : Writes Target := ⟨fun v hw hp => by
  obtain ⟨h0, h1, h2, h3, h4, h5, h6, _⟩ := id hw
  obtain ⟨p0, p1, p2, p3, p4, p5, p6⟩ := hp
  obtain ⟨c0, w0, e0, f0⟩ := writes v.address h0 p0
  obtain ⟨c1, w1, e1, f1⟩ := writes v.durable h1 p1
  obtain ⟨c2, w2, e2, f2⟩ := writes v.expiryPolicy h2 p2
  obtain ⟨c3, w3, e3, f3⟩ := writes v.timeout h3 p3
  obtain ⟨c4, w4, e4, f4⟩ := writes v.dynamic h4 p4
  obtain ⟨c5, w5, e5, f5⟩ := writes v.dynamicNodeProperties h5 p5
  obtain ⟨c6, w6, e6, f6⟩ := writes v.capabilities h6 p6
  exact composite_of v hw
    [(c0, w0), (c1, w1), (c2, w2), (c3, w3), (c4, w4), (c5, w5), (c6, w6)] rfl (by simp only [Composite.fields, fld, List.map, e0, e1, e2, e3, e4, e5, e6]) rfl
    (⟨opt_of rfl f0, .inl ⟨c1, w1, rfl, f1⟩, .inl ⟨c2, w2, rfl, f2⟩, .inl ⟨c3, w3, rfl, f3⟩, .inl ⟨c4, w4, rfl, f4⟩,
    opt_of rfl f5, opt_of rfl f6⟩)⟩

instance : Writes Header := ⟨fun v hw hp => by
  obtain ⟨h0, h1, h2, h3, h4, _⟩ := id hw
  obtain ⟨p0, p1, p2, p3, p4⟩ := hp
  obtain ⟨c0, w0, e0, f0⟩ := writes v.durable h0 p0
  obtain ⟨c1, w1, e1, f1⟩ := writes v.priority h1 p1
  obtain ⟨c2, w2, e2, f2⟩ := writes v.ttl h2 p2
  obtain ⟨c3, w3, e3, f3⟩ := writes v.firstAcquirer h3 p3
  obtain ⟨c4, w4, e4, f4⟩ := writes v.deliveryCount h4 p4
  exact composite_of v hw
    [(c0, w0), (c1, w1), (c2, w2), (c3, w3), (c4, w4)] rfl (by simp only [Composite.fields, fld, List.map, e0, e1, e2, e3, e4]) rfl
    (⟨.inl ⟨c0, w0, rfl, f0⟩, .inl ⟨c1, w1, rfl, f1⟩, opt_of rfl f2, .inl ⟨c3, w3, rfl, f3⟩, .inl ⟨c4, w4, rfl, f4⟩⟩)⟩

instance : Writes Properties := ⟨fun v hw hp => by
  obtain ⟨h0, h1, h2, h3, h4, h5, h6, h7, h8, h9, h10, h11, h12, _⟩ := id hw
  obtain ⟨p0, p1, p2, p3, p4, p5, p6, p7, p8, p9, p10, p11, p12⟩ := hp
  obtain ⟨c0, w0, e0, f0⟩ := writes v.messageId h0 p0
  obtain ⟨c1, w1, e1, f1⟩ := writes v.userId h1 p1
  obtain ⟨c2, w2, e2, f2⟩ := writes v.to h2 p2
  obtain ⟨c3, w3, e3, f3⟩ := writes v.subject h3 p3
  obtain ⟨c4, w4, e4, f4⟩ := writes v.replyTo h4 p4
  obtain ⟨c5, w5, e5, f5⟩ := writes v.correlationId h5 p5
  obtain ⟨c6, w6, e6, f6⟩ := writes v.contentType h6 p6
  obtain ⟨c7, w7, e7, f7⟩ := writes v.contentEncoding h7 p7
  obtain ⟨c8, w8, e8, f8⟩ := writes v.absoluteExpiryTime h8 p8
  obtain ⟨c9, w9, e9, f9⟩ := writes v.creationTime h9 p9
  obtain ⟨c10, w10, e10, f10⟩ := writes v.groupId h10 p10
  obtain ⟨c11, w11, e11, f11⟩ := writes v.groupSequence h11 p11
  obtain ⟨c12, w12, e12, f12⟩ := writes v.replyToGroupId h12 p12
  exact composite_of v hw
    [(c0, w0), (c1, w1), (c2, w2), (c3, w3), (c4, w4), (c5, w5), (c6, w6), (c7, w7), (c8, w8), (c9, w9), (c10, w10),
    (c11, w11), (c12, w12)] rfl (by simp only [Composite.fields, fld, List.map, e0, e1, e2, e3, e4, e5, e6, e7, e8, e9, e10, e11, e12]) rfl
    (⟨opt_of rfl f0, opt_of rfl f1, opt_of rfl f2, opt_of rfl f3, opt_of rfl f4, opt_of rfl f5, opt_of rfl f6,
    opt_of rfl f7, ⟨opt_of rfl f8, readable_of h8⟩, ⟨opt_of rfl f9, readable_of h9⟩, opt_of rfl f10, opt_of rfl f11,
    opt_of rfl f12⟩)⟩

instance : Writes Received := ⟨fun v hw hp => by
  obtain ⟨h0, h1, _⟩ := id hw
  obtain ⟨p0, p1⟩ := hp
  obtain ⟨c0, w0, e0, f0⟩ := writes v.sectionNumber h0 p0
  obtain ⟨c1, w1, e1, f1⟩ := writes v.sectionOffset h1 p1
  exact composite_of v hw
    [(c0, w0), (c1, w1)] rfl (by simp only [Composite.fields, fld, List.map, e0, e1]) rfl
    (⟨⟨c0, w0, rfl, f0⟩, ⟨c1, w1, rfl, f1⟩⟩)⟩

instance : Writes Accepted := ⟨fun v hw _ => composite_of v hw [] rfl rfl rfl trivial⟩

instance : Writes Rejected := ⟨fun v hw p0 => by
  obtain ⟨h0, _⟩ := id hw
  obtain ⟨c0, w0, e0, f0⟩ := writes v.error h0 p0
  exact composite_of v hw
    [(c0, w0)] rfl (by simp only [Composite.fields, fld, List.map, e0]) rfl
    (opt_of rfl f0)⟩

instance : Writes Released := ⟨fun v hw _ => composite_of v hw [] rfl rfl rfl trivial⟩

instance : Writes Modified := ⟨fun v hw hp => by
  obtain ⟨h0, h1, h2, _⟩ := id hw
  obtain ⟨p0, p1, p2⟩ := hp
  obtain ⟨c0, w0, e0, f0⟩ := writes v.deliveryFailed h0 p0
  obtain ⟨c1, w1, e1, f1⟩ := writes v.undeliverableHere h1 p1
  obtain ⟨c2, w2, e2, f2⟩ := writes v.messageAnnotations h2 p2
  exact composite_of v hw
    [(c0, w0), (c1, w1), (c2, w2)] rfl (by simp only [Composite.fields, fld, List.map, e0, e1, e2]) rfl
    (⟨opt_of rfl f0, opt_of rfl f1, opt_of rfl f2⟩)⟩

instance : Writes Outcome := ⟨fun v hw hp => match v, hw, hp with
  | .accepted v, hw, hp => writes v hw hp
  | .rejected v, hw, hp => writes v hw hp
  | .released v, hw, hp => writes v hw hp
  | .modified v, hw, hp => writes v hw hp⟩

instance : Writes DeliveryState := ⟨fun v hw hp => match v, hw, hp with
  | .received v, hw, hp => writes v hw hp
  | .accepted v, hw, hp => writes v hw hp
  | .rejected v, hw, hp => writes v hw hp
  | .released v, hw, hp => writes v hw hp
  | .modified v, hw, hp => writes v hw hp⟩

instance : Writes Source := ⟨fun v hw hp => by
  obtain ⟨h0, h1, h2, h3, h4, h5, h6, h7, h8, h9, h10, _⟩ := id hw
  obtain ⟨p0, p1, p2, p3, p4, p5, p6, p7, p8, p9, p10⟩ := hp
  obtain ⟨c0, w0, e0, f0⟩ := writes v.address h0 p0
  obtain ⟨c1, w1, e1, f1⟩ := writes v.durable h1 p1
  obtain ⟨c2, w2, e2, f2⟩ := writes v.expiryPolicy h2 p2
  obtain ⟨c3, w3, e3, f3⟩ := writes v.timeout h3 p3
  obtain ⟨c4, w4, e4, f4⟩ := writes v.dynamic h4 p4
  obtain ⟨c5, w5, e5, f5⟩ := writes v.dynamicNodeProperties h5 p5
  obtain ⟨c6, w6, e6, f6⟩ := writes v.distributionMode h6 p6
  obtain ⟨c7, w7, e7, f7⟩ := writes v.filter h7 p7
  obtain ⟨c8, w8, e8, f8⟩ := writes v.defaultOutcome h8 p8
  obtain ⟨c9, w9, e9, f9⟩ := writes v.outcomes h9 p9
  obtain ⟨c10, w10, e10, f10⟩ := writes v.capabilities h10 p10
  exact composite_of v hw
    [(c0, w0), (c1, w1), (c2, w2), (c3, w3), (c4, w4), (c5, w5), (c6, w6), (c7, w7), (c8, w8), (c9, w9), (c10, w10)] rfl (by simp only [Composite.fields, fld, List.map, e0, e1, e2, e3, e4, e5, e6, e7, e8, e9, e10]) rfl
    (⟨opt_of rfl f0, .inl ⟨c1, w1, rfl, f1⟩, .inl ⟨c2, w2, rfl, f2⟩, .inl ⟨c3, w3, rfl, f3⟩, .inl ⟨c4, w4, rfl, f4⟩,
    opt_of rfl f5, opt_of rfl f6, opt_of rfl f7, opt_of rfl f8, opt_of rfl f9, opt_of rfl f10⟩)⟩

instance : Writes Attach := ⟨fun v hw hp => by
  obtain ⟨h0, h1, h2, h3, h4, h5, h6, h7, h8, h9, h10, h11, h12, h13, _⟩ := id hw
  obtain ⟨p0, p1, p2, p3, p4, p5, p6, p7, p8, p9, p10, p11, p12, p13⟩ := hp
  obtain ⟨c0, w0, e0, f0⟩ := writes v.name h0 p0
  obtain ⟨c1, w1, e1, f1⟩ := writes v.handle h1 p1
  obtain ⟨c2, w2, e2, f2⟩ := writes v.role h2 p2
  obtain ⟨c3, w3, e3, f3⟩ := writes v.sndSettleMode h3 p3
  obtain ⟨c4, w4, e4, f4⟩ := writes v.rcvSettleMode h4 p4
  obtain ⟨c5, w5, e5, f5⟩ := writes v.source h5 p5
  obtain ⟨c6, w6, e6, f6⟩ := writes v.target h6 p6
  obtain ⟨c7, w7, e7, f7⟩ := writes v.unsettled h7 p7
  obtain ⟨c8, w8, e8, f8⟩ := writes v.incompleteUnsettled h8 p8
  obtain ⟨c9, w9, e9, f9⟩ := writes v.initialDeliveryCount h9 p9
  obtain ⟨c10, w10, e10, f10⟩ := writes v.maxMessageSize h10 p10
  obtain ⟨c11, w11, e11, f11⟩ := writes v.offeredCapabilities h11 p11
  obtain ⟨c12, w12, e12, f12⟩ := writes v.desiredCapabilities h12 p12
  obtain ⟨c13, w13, e13, f13⟩ := writes v.properties h13 p13
  exact composite_of v hw
    [(c0, w0), (c1, w1), (c2, w2), (c3, w3), (c4, w4), (c5, w5), (c6, w6), (c7, w7), (c8, w8), (c9, w9), (c10, w10),
    (c11, w11), (c12, w12), (c13, w13)] rfl (by simp only [Composite.fields, fld, List.map, e0, e1, e2, e3, e4, e5, e6, e7, e8, e9, e10, e11, e12, e13]) rfl
    (⟨⟨c0, w0, rfl, f0⟩, ⟨c1, w1, rfl, f1⟩, ⟨c2, w2, rfl, f2⟩, .inl ⟨c3, w3, rfl, f3⟩, .inl ⟨c4, w4, rfl, f4⟩,
    opt_of rfl f5, opt_of rfl f6, opt_of rfl f7, .inl ⟨c8, w8, rfl, f8⟩, opt_of rfl f9, opt_of rfl f10,
    opt_of rfl f11, opt_of rfl f12, opt_of rfl f13⟩)⟩

instance : Writes Disposition := ⟨fun v hw hp => by
  obtain ⟨h0, h1, h2, h3, h4, h5, _⟩ := id hw
  obtain ⟨p0, p1, p2, p3, p4, p5⟩ := hp
  obtain ⟨c0, w0, e0, f0⟩ := writes v.role h0 p0
  obtain ⟨c1, w1, e1, f1⟩ := writes v.first h1 p1
  obtain ⟨c2, w2, e2, f2⟩ := writes v.last h2 p2
  obtain ⟨c3, w3, e3, f3⟩ := writes v.settled h3 p3
  obtain ⟨c4, w4, e4, f4⟩ := writes v.state h4 p4
  obtain ⟨c5, w5, e5, f5⟩ := writes v.batchable h5 p5
  exact composite_of v hw
    [(c0, w0), (c1, w1), (c2, w2), (c3, w3), (c4, w4), (c5, w5)] rfl (by simp only [Composite.fields, fld, List.map, e0, e1, e2, e3, e4, e5]) rfl
    (⟨⟨c0, w0, rfl, f0⟩, ⟨c1, w1, rfl, f1⟩, opt_of rfl f2, .inl ⟨c3, w3, rfl, f3⟩, opt_of rfl f4,
    .inl ⟨c5, w5, rfl, f5⟩⟩)⟩

instance : Writes TransferHead := ⟨fun v hw hp => by
  obtain ⟨h0, h1, h2, h3, h4, h5, h6, h7, h8, h9, h10, _⟩ := id hw
  obtain ⟨p0, p1, p2, p3, p4, p5, p6, p7, p8, p9, p10⟩ := hp
  obtain ⟨c0, w0, e0, f0⟩ := writes v.handle h0 p0
  obtain ⟨c1, w1, e1, f1⟩ := writes v.deliveryId h1 p1
  obtain ⟨c2, w2, e2, f2⟩ := writes v.deliveryTag h2 p2
  obtain ⟨c3, w3, e3, f3⟩ := writes v.messageFormat h3 p3
  obtain ⟨c4, w4, e4, f4⟩ := writes v.settled h4 p4
  obtain ⟨c5, w5, e5, f5⟩ := writes v.more h5 p5
  obtain ⟨c6, w6, e6, f6⟩ := writes v.rcvSettleMode h6 p6
  obtain ⟨c7, w7, e7, f7⟩ := writes v.state h7 p7
  obtain ⟨c8, w8, e8, f8⟩ := writes v.resume h8 p8
  obtain ⟨c9, w9, e9, f9⟩ := writes v.aborted h9 p9
  obtain ⟨c10, w10, e10, f10⟩ := writes v.batchable h10 p10
  exact composite_of v hw
    [(c0, w0), (c1, w1), (c2, w2), (c3, w3), (c4, w4), (c5, w5), (c6, w6), (c7, w7), (c8, w8), (c9, w9), (c10, w10)] rfl (by simp only [Composite.fields, fld, List.map, e0, e1, e2, e3, e4, e5, e6, e7, e8, e9, e10]) rfl
    (⟨⟨c0, w0, rfl, f0⟩, opt_of rfl f1, opt_of rfl f2, opt_of rfl f3, opt_of rfl f4, .inl ⟨c5, w5, rfl, f5⟩,
    opt_of rfl f6, opt_of rfl f7, .inl ⟨c8, w8, rfl, f8⟩, .inl ⟨c9, w9, rfl, f9⟩, .inl ⟨c10, w10, rfl, f10⟩⟩)⟩

instance : Writes SaslFrameBody := ⟨fun v hw hp => match v, hw, hp with
  | .saslMechanisms v, hw, hp => writes v hw hp
  | .saslInit v, hw, hp => writes v hw hp
  | .saslChallenge v, hw, hp => writes v hw hp
  | .saslResponse v, hw, hp => writes v hw hp
  | .saslOutcome v, hw, hp => writes v hw hp⟩

/-! ## Frames -/

theorem value_of [Wire α] [WF α] [Plain α] [Form α] [Writes α] {v : α} (hw : wf v) (hp : plain v) :
    Value (enc v) v := writes v hw hp

theorem performative_of {f : Frame} (hw : wf f) (hp : plain f) : performative f.encode f.asReceived := by
  cases f with
  | transfer t => exact ⟨enc t.head, t.payload, t.tenc_eq, value_of hw.1 hp, rfl⟩
  | empty => rfl
  | _ => exact value_of hw hp

/-- A frame as this library lays it out: no extended header. -/
theorem frame_of {type : UInt8} {n channel : Nat} {body : Bytes} (hn : n = 8 + body.length) (hl : n < U32)
    (hc : channel < 65536) : frame type channel (be 4 n ++ [2, type] ++ be 2 channel ++ body) body := by
  refine ⟨be 4 n, 2, be 2 channel, [], by simp, be_length _ _, ?_, be_length _ _, ?_, rfl⟩
  · rw [unsigned_be _ _ (by simpa using hl)]; simp [be_length]; omega
  · exact unsigned_be _ _ (by simpa using hc)

/-! ## Messages -/

theorem trees_of : ∀ l : List Variant, (∀ v ∈ l, wf v) → (∀ v ∈ l, plain v) → Trees (l.flatMap enc) l
  | [], _, _ => .nil
  | v :: l, hw, hp => by
    obtain ⟨c, w, he, hf⟩ := writes v (hw v (by simp)) (hp v (by simp))
    rw [List.flatMap_cons, he]
    exact .cons hf (trees_of l (fun x h => hw x (by simp [h])) (fun x h => hp x (by simp [h])))

theorem trees_length_ge : ∀ l : List Variant, (∀ v ∈ l, wf v) → (∀ v ∈ l, plain v) → l.length ≤ (l.flatMap enc).length
  | [], _, _ => by simp
  | v :: l, hw, hp => by
    obtain ⟨c, w, he, hf⟩ := writes v (hw v (by simp)) (hp v (by simp))
    have := trees_length_ge l (fun x h => hw x (by simp [h])) (fun x h => hp x (by simp [h]))
    rw [List.flatMap_cons, he]
    simp only [List.length_append, List.length_cons]
    omega

instance : Writes VList := ⟨fun l hw hp => by
  have hs : (l.items.flatMap enc).length = (l.items.map size).sum :=
    flatMap_length_sum (fun v => SizeWire.size_eq v) l.items
  have hge := trees_length_ge l.items hw.1 hp
  have h2 := hw.2
  obtain ⟨c, w, e, hc⟩ := encHeader_compounds (c8 := FC.list8) (c32 := FC.list32) (body := l.items.flatMap enc)
    (size := (l.items.map size).sum) (count := l.items.length) hs (by omega) (by omega) (by omega)
  exact ⟨c, w, e, .inr ⟨_, hc, trees_of l.items hw.1 hp⟩⟩⟩

theorem section_of [Wire α] [WF α] [Plain α] [Form α] [Writes α] {v : α} (code : UInt64) (name : String)
    (h0 : code ≠ 0) (h : code ≤ 255) (hw : wf v) (hp : plain v) :
    section_ code name (enc (Descriptor.ulong code) ++ enc v) v := by
  obtain ⟨c, w, he, hf⟩ := writes v hw hp
  refine ⟨0x53, [code.toUInt8], c, w, by rw [Composite.descriptor_head h0 h, he], hf,
    .inl ⟨.inr (.inl ⟨rfl, rfl, ?_⟩), by decide⟩⟩
  rw [UInt64.le_iff_toNat_le] at h
  simp [unsigned] at h ⊢
  omega

theorem maybe_of {p : Bytes → α → Prop} {f : α → Bytes} {o : Option α} (h : ∀ v, o = some v → p (f v) v) :
    maybe p (optEnc f o) o := by
  cases o with
  | none => rfl
  | some v => exact h v rfl

theorem many_of {p : Bytes → α → Prop} {f : α → Bytes} : ∀ {l : List α}, (∀ v ∈ l, p (f v) v) → Many p (l.flatMap f) l
  | [], _ => .nil
  | v :: l, h => by
    rw [List.flatMap_cons]
    exact .cons (h v (by simp)) (many_of fun x hx => h x (by simp [hx]))

theorem binHeader_enc (b : Bytes) : binHeader b.length ++ b = enc b := by
  simp only [binHeader, enc, encVar]
  split <;> simp_all

theorem encAll_data : ∀ l : List TransferBody, TransferBody.coherentAll l →
    TransferBody.encAll l = (l.map TransferBody.tenc).flatMap fun d => enc (Descriptor.ulong 117) ++ enc d
  | [], _ => rfl
  | t :: l, h => by
    rw [TransferBody.coherentAll] at h
    rw [TransferBody.encAll, esize_eq t h.1, List.map_cons, List.flatMap_cons, encAll_data l h.2, ← binHeader_enc]
    simp only [List.append_assoc]

theorem wf_some [WF α] {o : Option α} {v : α} (h : wf o) (he : o = some v) : wf v := by subst he; exact h
theorem plain_some [Plain α] {o : Option α} {v : α} (h : plain o) (he : o = some v) : plain v := by subst he; exact h

theorem many_data {l : List Bytes} (h : ∀ d ∈ l, wf d) :
    Many (section_ 0x75 "amqp:data:binary") (l.flatMap fun d => enc (Descriptor.ulong 117) ++ enc d) l :=
  many_of fun d hd => section_of 117 _ (by decide) (by decide) (h d hd) trivial

end Amqp
