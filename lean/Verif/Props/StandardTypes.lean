import Verif.Lemmas.StandardTypes
import Verif.Props.Frame
/-! # C55: every standard encoding of a type, a performative, a frame and a stream is read -/

namespace Amqp
open Dec Standard

/-- **C55** Every encoding of a composite type that the specification allows is read as the value it denotes: the descriptor
numeric or symbolic, the list in any of its three forms, trailing fields left out or null, each field in any of its forms.
(Times and filters are restricted as `Spec/StandardTypes` says; see `c55_filters_not_read` and
`c50_timestamps_not_accepted`.) -/
theorem c55_types_read :
    Reads Error ∧ Reads Open ∧ Reads Begin ∧ Reads Attach ∧ Reads Flow ∧ Reads TransferHead ∧ Reads Disposition ∧
    Reads Detach ∧ Reads End ∧ Reads Close ∧ Reads Source ∧ Reads Target ∧ Reads Header ∧ Reads Properties ∧
    Reads Outcome ∧ Reads DeliveryState ∧ Reads SaslFrameBody ∧
    Reads (HMap Symbol Variant) ∧ Reads (HMap Variant Variant) ∧ Reads VecSymbolMap ∧ Reads VecStringMap ∧
    Reads (Multiple Symbol) :=
  ⟨Readable.reads, Readable.reads, Readable.reads, Readable.reads, Readable.reads, Readable.reads, Readable.reads,
    Readable.reads, Readable.reads, Readable.reads, Readable.reads, Readable.reads, Readable.reads, Readable.reads,
    Readable.reads, Readable.reads, Readable.reads, Readable.reads, Readable.reads, Readable.reads, Readable.reads,
    Readable.reads⟩

/-- A begin as another implementation may write it: symbolic descriptor, one-byte list, only the mandatory fields. -/
example : ∃ w, form 0 w (⟨none, 1, 0, 256, 4294967295, none, none, none⟩ : Begin) := by
  refine ⟨0xa3 :: (15 :: (sym "amqp:begin:list").bytes) ++ 0xc0 :: [11, 5, 0x40, 0x52, 1, 0x43, 0x70, 0, 0, 1, 0, 0x40],
    rfl, _, _, _, rfl, .inr ⟨.inl ⟨rfl, [15], rfl, rfl, rfl⟩, by decide⟩,
    [(0x40, []), (0x52, [1]), (0x43, []), (0x70, [0, 0, 1, 0]), (0x40, [])], by decide, ?_,
    .inr ⟨_, _, rfl, .inl ⟨rfl, [11], [5], rfl, rfl, rfl, rfl, rfl⟩⟩⟩
  exact ⟨.inr rfl, ⟨_, _, rfl, .inr (.inl ⟨rfl, rfl, rfl⟩)⟩, ⟨_, _, rfl, .inr (.inr ⟨rfl, rfl, rfl⟩)⟩,
    ⟨_, _, rfl, .inl ⟨rfl, rfl, rfl⟩⟩, .inr ⟨.inr rfl, rfl⟩, .inl rfl, .inl rfl, .inl rfl⟩

theorem Standard.Value.described [Composite α] [Listed α] [ListedWire α] {b : Bytes} {v : α} (h : @Value α ⟨composite⟩ b v) :
    ∃ t, b = FC.described :: t ∧ ∀ rest, ∃ d b', (dec : Dec Descriptor) (t ++ rest) = .ok (d, b' ++ rest) ∧
      (d = .ulong (Listed.code α) ∨ d = .symbol (sym (Listed.name α))) ∧
      (Composite.decInner : Dec α) (b' ++ rest) = .ok (v, rest) := by
  obtain ⟨c, w, rfl, h⟩ := h
  obtain ⟨rfl, hc⟩ := composite_dec (α := α) h
  exact ⟨w, rfl, hc⟩

theorem Frame.decode_cons (t : Bytes) :
    Frame.decode (FC.described :: t) = (do let d ← (dec : Dec Descriptor); Frame.decBody d : Dec Frame) t := rfl

/-- **C55** Every encoding of the body of an AMQP frame is read. -/
theorem c55_performatives_read (b : Bytes) (f : Frame) (h : performative b f) : Frame.decode b = .ok (f, []) := by
  cases f with
  | empty => rw [show b = [] from h]; rfl
  | transfer t =>
    obtain ⟨head, body⟩ := t
    obtain ⟨hd, payload, rfl, h, hp⟩ := h
    obtain ⟨t, rfl, hv⟩ := Standard.Value.described (α := TransferHead) h
    obtain ⟨d, b', h1, h2, h3⟩ := hv payload
    rw [List.cons_append, Frame.decode_cons, Dec.bind_ok h1]
    have : Transfer.decInner (b' ++ payload) = .ok (⟨head, body⟩, []) := by
      rw [Transfer.decInner, Dec.bind_ok h3]
      dsimp only at hp
      rw [hp]
    rcases h2 with rfl | rfl <;> exact Dec.map_ok this
  | _ v =>
    obtain ⟨t, rfl, hv⟩ := Standard.Value.described h
    obtain ⟨d, b', h1, h2, h3⟩ := hv []
    rw [List.append_nil] at h1
    rw [Frame.decode_cons, Dec.bind_ok h1]
    rcases h2 with rfl | rfl <;> exact Dec.map_ok h3

/-- **C55** The frame header is read exactly as laid out: the type must match, the data offset is at least two words, the
extended header is skipped, the channel is the two bytes after the type; anything else is refused. -/
theorem c55_header_exact (type : UInt8) (s : Bytes) (channel : UInt16) (body : Bytes) :
    decFrameHeader type s = .ok (channel, body) ↔
      ∃ doff ch ext, s = doff :: type :: ch ++ ext ++ body ∧ ch.length = 2 ∧ unsigned ch = channel.toNat ∧
        8 + ext.length = 4 * doff.toNat := by
  constructor
  · intro h
    match s with
    | doff :: ty :: c1 :: c0 :: t =>
      simp only [decFrameHeader] at h
      split at h
      · cases h
      rename_i ht
      split at h
      · cases h
      rename_i hd
      split at h
      · cases h
      rename_i hl
      simp only [Except.ok.injEq, Prod.mk.injEq] at h
      obtain ⟨rfl, rfl⟩ := h
      have ht : ty = type := Classical.byContradiction ht
      subst ht
      have hn : doff.toNat * 4 - 8 ≤ t.length := by simp at hl; omega
      refine ⟨doff, [c1, c0], t.take (doff.toNat * 4 - 8), ?_, rfl, ?_, ?_⟩
      · simp
      · rw [unsigned_eq]; simp [beNat]; have := c1.toNat_lt; have := c0.toNat_lt; omega
      · rw [List.length_take_of_le hn]; omega
    | [] => cases h
    | [_] => cases h
    | [_, _] => cases h
    | [_, _, _] => cases h
  · rintro ⟨doff, ch, ext, rfl, hl, hc, he⟩
    match ch, hl with
    | [c1, c0], _ =>
      simp only [List.cons_append, List.nil_append, decFrameHeader, List.append_assoc]
      rw [if_neg (by simp), if_neg (by omega), if_neg (by simp; omega)]
      have h1 : UInt16.ofNat (beNat [c1, c0]) = channel := by
        rw [← unsigned_eq, hc]; simp
      have h2 : doff.toNat * 4 - 8 + 4 = ext.length + 4 := by omega
      rw [h1, h2]
      simp

theorem frame_parts {type : UInt8} {n : Nat} {b body : Bytes} (h : frame type n b body) :
    8 ≤ b.length ∧ beNat (b.take 4) = b.length ∧ decFrameHeader type (b.drop 4) = .ok (UInt16.ofNat n, body) := by
  obtain ⟨size, doff, ch, ext, hb, hs, hu, hc, hn, he⟩ := h
  have e1 : b.take 4 = size := by rw [hb, ← hs]; simp
  have e2 : b.drop 4 = doff :: type :: ch ++ ext ++ body := by rw [hb, ← hs]; simp
  refine ⟨?_, ?_, ?_⟩
  · rw [hb]; simp [hs, hc]; omega
  · rw [e1, ← unsigned_eq, hu]
  · rw [e2, c55_header_exact]
    refine ⟨doff, ch, ext, rfl, hc, ?_, he⟩
    have := unsigned_lt ch
    rw [hc] at this
    rw [hn] at this ⊢
    simp; omega

theorem amqpFrame_dec {b : Bytes} {f : AmqpFrame} (h : amqpFrame b f) :
    8 ≤ b.length ∧ beNat (b.take 4) = b.length ∧ AmqpFrame.decode (b.drop 4) = .ok (f, []) := by
  obtain ⟨body, h, hp⟩ := h
  obtain ⟨h1, h2, h3⟩ := frame_parts h
  refine ⟨h1, h2, ?_⟩
  rw [AmqpFrame.decode, Dec.bind_ok h3, Dec.bind_ok (c55_performatives_read body _ hp), UInt16.ofNat_toNat]
  rfl

theorem saslFrame_dec {b : Bytes} {f : SaslFrame} (h : saslFrame b f) :
    8 ≤ b.length ∧ beNat (b.take 4) = b.length ∧ SaslFrame.decode (b.drop 4) = .ok (f, []) := by
  obtain ⟨body, n, h, c, w, rfl, hv⟩ := h
  obtain ⟨h1, h2, h3⟩ := frame_parts h
  refine ⟨h1, h2, ?_⟩
  have := Readable.dec hv []
  rw [List.append_nil] at this
  rw [SaslFrame.decode, Dec.bind_ok h3, Dec.bind_ok this]
  rfl

/-- A stream of standard encodings, in any chunks, is read. -/
theorem stream_read {α : Type} {decode : Bytes → Except Err (α × Bytes)} {std : Bytes → α → Prop}
    (hs : ∀ b a, std b a → 8 ≤ b.length ∧ beNat (b.take 4) = b.length ∧ decode (b.drop 4) = .ok (a, []))
    (max : Nat) (fs : List (Bytes × α)) (h : ∀ f ∈ fs, std f.1 f.2 ∧ admits max f.1.length) (chunks : List Bytes)
    (hc : chunks.flatten = (fs.map (·.1)).flatten) :
    codecRead decode max chunks .frameHeader [] = (fs.map (·.2), none) := by
  rw [codecRead_start, hc]
  clear hc
  have : ∀ n, (fs.map (·.1)).flatten.length < n →
      codecDrain decode max n .frameHeader (fs.map (·.1)).flatten = (fs.map (·.2), none, .frameHeader, []) := by
    intro n hn
    induction fs generalizing n with
    | nil =>
      obtain ⟨k, rfl⟩ : ∃ k, n = k + 1 := ⟨n - 1, by omega⟩
      rfl
    | cons f fs ih =>
      obtain ⟨k, rfl⟩ : ∃ k, n = k + 1 := ⟨n - 1, by omega⟩
      obtain ⟨hf, ha⟩ := h f (by simp)
      obtain ⟨h1, h2, h3⟩ := hs _ _ hf
      simp only [List.map_cons, List.flatten_cons, codecDrain]
      rw [codecDecode_enc h1 h2 ha h3]
      simp only [List.map_cons, List.flatten_cons, List.length_append] at hn
      dsimp only
      rw [ih (fun f hf => h f (by simp [hf])) k (by omega)]
  rw [this _ (Nat.lt_succ_self _)]

/-- **C55** Whatever mixture of encodings a conforming peer chooses for its frames, with or without extended headers, and
however the bytes arrive, exactly those frames are read. -/
theorem c55_amqp_stream (max : Nat) (fs : List (Bytes × AmqpFrame)) (h : ∀ f ∈ fs, amqpFrame f.1 f.2 ∧ admits max f.1.length)
    (chunks : List Bytes) (hc : chunks.flatten = (fs.map (·.1)).flatten) :
    codecRead AmqpFrame.decode max chunks .frameHeader [] = (fs.map (·.2), none) :=
  stream_read (decode := AmqpFrame.decode.run) (fun _ _ h => amqpFrame_dec h) max fs h chunks hc

/-- **C55** The same for SASL frames. -/
theorem c55_sasl_stream (max : Nat) (fs : List (Bytes × SaslFrame)) (h : ∀ f ∈ fs, saslFrame f.1 f.2 ∧ admits max f.1.length)
    (chunks : List Bytes) (hc : chunks.flatten = (fs.map (·.1)).flatten) :
    codecRead SaslFrame.decode max chunks .frameHeader [] = (fs.map (·.2), none) :=
  stream_read (decode := SaslFrame.decode.run) (fun _ _ h => saslFrame_dec h) max fs h chunks hc

/-- An end frame with an extended header of one word and the empty list, on channel 258. -/
def extendedEnd : Bytes := [0, 0, 0, 16, 3, 0, 1, 2, 9, 9, 9, 9, 0, 0x53, 0x17, 0x45]

theorem extendedEnd_standard : amqpFrame extendedEnd ⟨258, .end_ ⟨none⟩⟩ :=
  ⟨[0, 0x53, 0x17, 0x45], ⟨[0, 0, 0, 16], 3, [1, 2], [9, 9, 9, 9], rfl, rfl, rfl, rfl, rfl, rfl⟩,
    0, [0x53, 0x17, 0x45], rfl, rfl, 0x53, [0x17], [0x45], rfl, .inl ⟨.inr (.inl ⟨rfl, rfl, rfl⟩), by decide⟩,
    [], Nat.zero_le _, .inl rfl, .inl ⟨rfl, rfl⟩⟩

example : codecRead AmqpFrame.decode 512 [[0, 0, 0], [16, 3, 0, 1, 2, 9, 9], [9, 9, 0, 0x53, 0x17, 0x45]] .frameHeader [] =
    ([⟨258, .end_ ⟨none⟩⟩], none) :=
  c55_amqp_stream 512 [(extendedEnd, ⟨258, .end_ ⟨none⟩⟩)] (by
    intro f hf
    rw [List.mem_singleton.mp hf]
    exact ⟨extendedEnd_standard, .inr (by decide)⟩) _ rfl

/-- A data offset below two words is refused. -/
example : AmqpFrame.decode [1, 0, 0, 0] = .error .invalidSize := rfl

/-! ## Filters -/

/-- A filter set with one filter, as part 3, section 3.5.8 prescribes it: the name, then a described value. -/
def filterSet : Bytes := [9, 2, 0xa3, 1, 0x78, 0, 0x53, 1, 0xa1, 0]

/-- **C55** Violated: the values of a filter set are described values in the specification; this library expects strings
(definitions.rs, `FilterSet`).  A filter set with a described value does not decode, and neither does the attach frame that
carries it in its source: the connection is closed with a decode error. -/
theorem c55_filters_not_read :
    Tree 0xc1 filterSet (.map [(.symbol ⟨[0x78]⟩, .described (.ulong 1) (.string ⟨[]⟩))]) ∧
    (dec : Dec (HMap Symbol (Option Str))) (0xc1 :: filterSet) = .error (.invalidFormatCode 0) ∧
    Frame.decode ([0, 0x53, 0x12, 0xc0, 32, 6, 0xa1, 1, 0x78, 0x43, 0x41, 0x40, 0x40,
      0, 0x53, 0x28, 0xc0, 19, 8, 0x40, 0x40, 0x40, 0x40, 0x40, 0x40, 0x40, 0xc1] ++ filterSet) =
        .error (.invalidFormatCode 0) := by
  refine ⟨?_, rfl, rfl⟩
  refine .map (body := [0xa3, 1, 0x78, 0, 0x53, 1, 0xa1, 0]) (.inl ⟨rfl, [9], [2], ?_, rfl, rfl, rfl, rfl⟩) ?_ (by simp)
  · rfl
  · exact .cons (c := 0xa3) (w := [1, 0x78]) (c' := 0) (w' := [0x53, 1, 0xa1, 0]) (rest := [])
      (.scalar ⟨.inl ⟨rfl, [1], rfl, rfl, rfl⟩, by decide⟩) rfl
      (.described (dc := 0x53) (dw := [1]) (c := 0xa1) (w := [0]) ⟨.inr (.inl ⟨rfl, rfl, rfl⟩), by decide⟩
        (.scalar ⟨.inl ⟨rfl, [0], rfl, rfl, rfl⟩, [], rfl⟩) (by simp) (by simp) (by simp)) .nil

end Amqp
