import Verif.Model.DescribedList
import Verif.Props.Values
/-!
# C92: lists of described items
-/

namespace Amqp
open Dec

section
variable [Wire α] [Described α]

/-- What an application's type has to offer: its descriptor can be sent, what it encodes is one compound value, and it
decodes what it encodes. -/
structure Suitable (α : Type) [Wire α] [Described α] [WF α] : Prop where
  descriptor : wf (Described.descriptor α)
  compound : ∀ a : α, wf a → rawCompound (enc a)
  back : RoundTrips α
  size : ExactSize α

/-- A list that fits into an AMQP list. -/
def DList.Fits [WF α] (l : DList α) : Prop :=
  (∀ a ∈ l.items, wf a) ∧ (l.items.flatMap fun i => enc (Described.descriptor α) ++ enc i).length + 4 < U32

theorem content_length [WF α] (hs : Suitable α) (l : List α) :
    (l.flatMap fun i => enc (Described.descriptor α) ++ enc i).length = DList.content α l := by
  induction l with
  | nil => rfl
  | cons a l ih =>
    rw [List.flatMap_cons, List.length_append, ih, DList.content, DList.content, List.map_cons, List.sum_cons,
      List.length_append, SizeWire.size_eq, hs.size a, Nat.add_comm (size (Described.descriptor α))]

/-- One item is read back. -/
theorem item_back [WF α] (hs : Suitable α) (a : α) (h : wf a) (rest : Bytes) :
    DList.item α (enc (Described.descriptor α) ++ enc a ++ rest) = .ok (a, rest) := by
  have hv : (dec : Dec Variant) (enc (Described.descriptor α) ++ enc a ++ rest) =
      .ok (.describedCompound (Described.descriptor α) (enc a), rest) :=
    c02_variant_round_trip (.describedCompound (Described.descriptor α) (enc a)) ⟨hs.descriptor, hs.compound a h⟩ rest
  have hd : describedAs α (enc a) = .ok a := by
    have := hs.back a h []
    rw [List.append_nil] at this
    unfold describedAs
    rw [this]
  unfold DList.item
  rw [Dec.bind_ok hv]
  simp only [ne_eq, not_true_eq_false, if_false, hd]
  rfl

/-- **C92** A list of described items is read back as it was, whatever follows. -/
theorem c92_back [WF α] (hs : Suitable α) (l : DList α) (h : l.Fits) (rest : Bytes) :
    (dec : Dec (DList α)) (enc l ++ rest) = .ok (l, rest) := by
  obtain ⟨hw, hlen⟩ := h
  have hge : l.items.length * 1 ≤ (l.items.flatMap fun i => enc (Described.descriptor α) ++ enc i).length :=
    flatMap_length_ge 1 fun x _ => by
      have : 1 ≤ (enc (Described.descriptor α)).length := by
        cases Described.descriptor α <;> exact Nat.succ_le_succ (Nat.zero_le _)
      rw [List.length_append]; omega
  rw [content_length hs] at hlen hge
  obtain ⟨c, tl, he, -, hd⟩ := encHeader_rt (c8 := FC.list8) (c32 := FC.list32) (hdr := listHeader)
    (size := DList.content α l.items) (count := l.items.length) rfl rfl hlen (by omega) (by omega)
  have e : enc l ++ rest = c :: (tl ++ ((l.items.flatMap fun i => enc (Described.descriptor α) ++ enc i) ++ rest)) := by
    show encHeader FC.list8 FC.list32 _ _ ++ _ ++ rest = _
    rw [he]; simp
  rw [e]
  refine (Dec.bind_ok (hd _)).trans ?_
  exact Dec.map_ok (f := DList.mk) (repeatDec_rt l.items (fun x hx => item_back hs x (hw x hx)) rest)

/-- **C92** `encoded_size` is the number of bytes written. -/
theorem c92_size [WF α] (hs : Suitable α) (l : DList α) : size l = (enc l).length := by
  show _ = (encHeader FC.list8 FC.list32 _ _ ++ _).length
  rw [List.length_append, encHeader_length, content_length hs]
  rfl

/-- **C92** A peer that does not know the type reads a list of described values, each with the descriptor and the bytes of
the item. -/
theorem c92_plain_reading [WF α] (hs : Suitable α) (l : DList α) (h : l.Fits) (rest : Bytes) :
    (dec : Dec Variant) (enc l ++ rest) =
      .ok (.list (l.items.map fun a => .describedCompound (Described.descriptor α) (enc a)), rest) := by
  have hlist : ∀ m : List α, Variant.listEnc (m.map fun a => .describedCompound (Described.descriptor α) (enc a)) =
      m.flatMap fun i => enc (Described.descriptor α) ++ enc i := by
    intro m
    induction m with
    | nil => simp [Variant.listEnc]
    | cons a m ih =>
      rw [List.map_cons, Variant.listEnc, ih, List.flatMap_cons]
      rw [Variant.venc]
  have hwl : ∀ m : List α, (∀ a ∈ m, wf a) →
      Variant.wfvList (m.map fun a => .describedCompound (Described.descriptor α) (enc a)) := by
    intro m hm
    induction m with
    | nil => simp [Variant.wfvList]
    | cons a m ih =>
      rw [List.map_cons, Variant.wfvList]
      refine ⟨?_, ih fun x hx => hm x (by simp [hx])⟩
      rw [Variant.wfv]
      exact ⟨hs.descriptor, hs.compound a (hm a (by simp))⟩
  have hv : wf (Variant.list (l.items.map fun a => .describedCompound (Described.descriptor α) (enc a))) := by
    show Variant.wfv _
    rw [Variant.wfv]
    exact ⟨hwl _ h.1, by rw [hlist]; exact h.2⟩
  have he : enc l = enc (Variant.list (l.items.map fun a => .describedCompound (Described.descriptor α) (enc a))) := by
    show _ = Variant.venc _
    rw [Variant.venc, ← listEnc_length, hlist, content_length hs, List.length_map]
    rfl
  rw [he]
  exact c02_variant_round_trip _ hv rest

/-- **C92** An item with any other descriptor is refused, also one that names the same type in the other of the two forms
AMQP has for descriptors. -/
theorem c92_other_descriptor (d : Descriptor) (data rest : Bytes) (hd : wf d) (hr : rawCompound data)
    (hne : d ≠ Described.descriptor α) :
    DList.item α (enc d ++ data ++ rest) = .error (.unexpectedType "Unexpected descriptor") := by
  have hv : (dec : Dec Variant) (enc d ++ data ++ rest) = .ok (.describedCompound d data, rest) :=
    c02_variant_round_trip (.describedCompound d data) ⟨hd, hr⟩ rest
  unfold DList.item
  rw [Dec.bind_ok hv]
  simp only [ne_eq, Ne.symm hne, not_false_eq_true, if_true]
  rfl

/-- **C92** What comes out of the decoder was described as it should be: every item is the reading of one value with the
descriptor of the type. -/
theorem c92_only_described (s r : Bytes) (a : α) (h : DList.item α s = .ok (a, r)) :
    ∃ data, (dec : Dec Variant) s = .ok (.describedCompound (Described.descriptor α) data, r) ∧
      describedAs α data = .ok a := by
  unfold DList.item at h
  obtain ⟨v, r', hv, h⟩ := bind_inv h
  split at h
  · rename_i d data
    split at h
    · cases h
    · rename_i hn
      have hn : Described.descriptor α = d := by simpa using hn
      split at h
      · rename_i b hb
        obtain ⟨rfl, rfl⟩ := pure_inv h
        exact ⟨data, by rw [hn]; exact hv, hb⟩
      · cases h
  · cases h

theorem items_read : ∀ (vs : List Variant) (as : List α) (rest r : Bytes), Variant.wfvList vs →
    repeatDec vs.length (DList.item α) (Variant.listEnc vs ++ rest) = .ok (as, r) →
    ∃ datas : List Bytes, vs = datas.map (.describedCompound (Described.descriptor α)) ∧
      datas.map (describedAs α) = as.map .ok ∧ r = rest
  | [], as, rest, r, _, h => by
    obtain ⟨rfl, rfl⟩ := pure_inv h
    exact ⟨[], rfl, rfl, by simp [Variant.listEnc]⟩
  | v :: vs, as, rest, r, hw, h => by
    rw [Variant.wfvList] at hw
    rw [Variant.listEnc, List.append_assoc] at h
    obtain ⟨a, r1, ha, h⟩ := bind_inv h
    obtain ⟨as', r2, has, h⟩ := bind_inv h
    obtain ⟨rfl, rfl⟩ := pure_inv h
    obtain ⟨data, hv, hd⟩ := c92_only_described _ _ _ ha
    have hv' := c02_variant_round_trip v hw.1 (Variant.listEnc vs ++ rest)
    obtain ⟨rfl, rfl⟩ : v = .describedCompound (Described.descriptor α) data ∧ Variant.listEnc vs ++ rest = r1 := by
      have := hv'.symm.trans hv
      simpa using this
    obtain ⟨datas, rfl, hf, rfl⟩ := items_read vs as' rest _ hw.2 has
    exact ⟨data :: datas, rfl, by rw [List.map_cons, List.map_cons, hd, hf], rfl⟩

/-- **C92** Of the lists a peer may send, only those are accepted in which every item is described as the type is, and
its bytes are one encoding of it. -/
theorem c92_accepted (vs : List Variant) (h : wf (Variant.list vs)) (l : DList α) (rest r : Bytes)
    (hd : (dec : Dec (DList α)) (enc (Variant.list vs) ++ rest) = .ok (l, r)) :
    ∃ datas : List Bytes, vs = datas.map (.describedCompound (Described.descriptor α)) ∧
      datas.map (describedAs α) = l.items.map .ok ∧ r = rest := by
  have h : Variant.wfv (.list vs) := h
  rw [Variant.wfv] at h
  obtain ⟨hw, hlen⟩ := h
  have hge := listSize_ge vs
  rw [← listEnc_length] at hge
  obtain ⟨c, tl, he, -, hh⟩ := encHeader_rt (c8 := FC.list8) (c32 := FC.list32) (hdr := listHeader)
    (size := (Variant.listEnc vs).length) (count := vs.length) rfl rfl hlen (by omega) (by omega)
  have e : enc (Variant.list vs) ++ rest = c :: (tl ++ (Variant.listEnc vs ++ rest)) := by
    show Variant.venc _ ++ rest = _
    rw [Variant.venc, ← listEnc_length, he]; simp
  rw [e] at hd
  obtain ⟨x, r1, hx, hd⟩ := bind_inv (m := listHeader c) hd
  rw [hh] at hx
  cases hx
  obtain ⟨as, r2, has, hd⟩ := bind_inv hd
  obtain ⟨rfl, rfl⟩ := pure_inv hd
  exact items_read vs as rest _ hw has

/-- **C92** Violated for a type whose encoding is no compound: the trait does not ask for one, the list is written, and
its decoder refuses it. -/
theorem c92_simple_refused (v : Variant) (hd : wf (Described.descriptor α)) (h : wf v) (hn : v.isCompound = false)
    (rest : Bytes) :
    DList.item α (enc (Described.descriptor α) ++ enc v ++ rest) = .error (.unexpectedType "Expected compound type") := by
  have hv : (dec : Dec Variant) (enc (Described.descriptor α) ++ enc v ++ rest) =
      .ok (.described (Described.descriptor α) v, rest) :=
    c02_variant_round_trip (.described (Described.descriptor α) v) ⟨hd, h, hn⟩ rest
  unfold DList.item
  rw [Dec.bind_ok hv]
  rfl

end

/-! ## Examples -/

/-- An application's type: a list of values under the code 5. -/
instance : Described VList := ⟨.ulong 5⟩

theorem vlist_suitable : Suitable VList where
  descriptor := by show (5 : UInt64) ≠ 0; decide
  compound l h := by
    show rawCompound (encHeader _ _ (l.items.map size).sum _ ++ _)
    rw [← vlist_content_length]
    exact rawCompound_header (.inl rfl) (.inl rfl) h.2
  back := fun _ h rest => rt_dec h rest
  size l := (SizeWire.size_eq l).symm

example : enc (DList.mk [VList.mk [.ubyte 3], VList.mk []]) =
    [0xc0, 0x0f, 0x02, 0x00, 0x53, 0x05, 0xc0, 0x03, 0x01, 0x50, 0x03, 0x00, 0x53, 0x05, 0xc0, 0x01, 0x00] := by
  decide +kernel

theorem vlist_fits : (DList.mk [VList.mk [.ubyte 3], VList.mk []]).Fits := by
  refine ⟨?_, by decide +kernel⟩
  intro a ha
  simp only [List.mem_cons, List.not_mem_nil, or_false] at ha
  rcases ha with rfl | rfl
  · refine ⟨?_, by decide +kernel⟩
    intro x hx
    obtain rfl : x = .ubyte 3 := by simpa using hx
    trivial
  · exact ⟨fun x hx => by simp at hx, by decide +kernel⟩

example (rest : Bytes) :
    (dec : Dec (DList VList)) (enc (DList.mk [VList.mk [.ubyte 3], VList.mk []]) ++ rest) =
      .ok (⟨[⟨[.ubyte 3]⟩, ⟨[]⟩]⟩, rest) :=
  c92_back vlist_suitable _ vlist_fits rest

theorem sym_a_wf : wf (Descriptor.symbol (sym "a")) :=
  ⟨utf8_of_ascii _ (by decide), by decide⟩

/-- The same type named by a symbol. -/
example (rest : Bytes) : DList.item VList (enc (Descriptor.symbol (sym "a")) ++ [0xc0, 0x01, 0x00] ++ rest) =
    .error (.unexpectedType "Unexpected descriptor") :=
  c92_other_descriptor _ _ rest sym_a_wf (rawCompound_header (c8 := FC.list8) (c32 := FC.list32)
    (body := []) (count := 0) (.inl rfl) (.inl rfl) (by decide)) (by intro h; cases h)

/-- A list of plain numbers is none of the type. -/
example (rest r : Bytes) (l : DList VList) :
    (dec : Dec (DList VList)) (enc (Variant.list [.ubyte 1]) ++ rest) ≠ .ok (l, r) := by
  intro h
  have hw : wf (Variant.list [.ubyte 1]) := by
    show Variant.wfv _
    simp only [Variant.wfv, Variant.wfvList, true_and]
    decide +kernel
  obtain ⟨datas, hd, -⟩ := c92_accepted _ hw l rest r h
  cases datas <;> simp at hd

/-- An application's type whose encoding is a number. -/
instance : Described UInt32 := ⟨.ulong 6⟩

/-- **C92** Violated: a list of one such item is not read back, although the item alone is. -/
theorem c92_not_back : wf (Described.descriptor UInt32) ∧ RoundTrips UInt32 ∧
    (dec : Dec (DList UInt32)) (enc (DList.mk [(7 : UInt32)])) ≠ .ok (⟨[7]⟩, []) := by
  refine ⟨by show (6 : UInt64) ≠ 0; decide, fun _ h rest => rt_dec h rest, ?_⟩
  have e : (match (dec : Dec (DList UInt32)) (enc (DList.mk [(7 : UInt32)])) with
      | .ok _ => false
      | .error _ => true) = true := by decide +kernel
  intro h
  rw [h] at e
  cases e

end Amqp
