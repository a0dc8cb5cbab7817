import Verif.Lemmas.Frame
import Verif.Lemmas.Io
/-! Frames, the stream codec and the protocol header: C03 (frames), C07, C08, C09, C10. -/

namespace Amqp

/-! ## C03 for frames: the length prefix is the length -/

/-- **C03** for frames: `encoded_size` is what is written and the prefix announces exactly the whole frame. -/
theorem c03_frame_length_prefix :
    (∀ f : AmqpFrame, wf f → f.esize = f.encode.length ∧ beNat (f.encode.take 4) = f.encode.length) ∧
    (∀ f : SaslFrame, wf f → f.esize = f.encode.length ∧ beNat (f.encode.take 4) = f.encode.length) :=
  ⟨fun _ h => ⟨AmqpFrame.esize_eq h, (AmqpFrame.raw h).2⟩, fun f h => ⟨SaslFrame.esize_eq f, (SaslFrame.raw h).2⟩⟩

/-! ## C07 -/

theorem codecRead_start (decode : Bytes → Except Err (α × Bytes)) (max : Nat) (cs : List Bytes) :
    codecRead decode max cs .frameHeader [] =
      ((codecDrain decode max (cs.flatten.length + 1) .frameHeader cs.flatten).1,
        (codecDrain decode max (cs.flatten.length + 1) .frameHeader cs.flatten).2.1) := by
  have := codecRead_eq (decode := decode) (max := max) cs .frameHeader [] (by trivial)
    (fun n hn => by obtain ⟨k, rfl⟩ : ∃ k, n = k + 1 := ⟨n - 1, by simp at hn; omega⟩; rfl)
  rwa [List.nil_append] at this

/-- **C07** One AMQP frame followed by anything is read back, and the reader is at the next frame. -/
theorem c07_amqp_frame_read_back (f : AmqpFrame) (h : wf f) (max : Nat) (ha : admits max f.encode.length) (rest : Bytes) :
    codecDecode AmqpFrame.decode max .frameHeader (codecEncode AmqpFrame.encode f [] ++ rest) =
      (.ready f.asReceived, .frameHeader, rest) :=
  codecDecode_enc (AmqpFrame.raw h).1 (AmqpFrame.raw h).2 ha (AmqpFrame.decode_encode h)

/-- **C07** One SASL frame followed by anything is read back, and the reader is at the next frame. -/
theorem c07_sasl_frame_read_back (f : SaslFrame) (h : wf f) (max : Nat) (ha : admits max f.encode.length) (rest : Bytes) :
    codecDecode SaslFrame.decode max .frameHeader (codecEncode SaslFrame.encode f [] ++ rest) =
      (.ready f, .frameHeader, rest) :=
  codecDecode_enc (SaslFrame.raw h).1 (SaslFrame.raw h).2 ha (SaslFrame.decode_encode h)

/-- Only a transfer is seen differently, and only in the representation of its payload. -/
theorem c07_frames_otherwise_identical (f : AmqpFrame) :
    f.asReceived.channel = f.channel ∧
    ((∀ t, f.performative ≠ .transfer t) → f.asReceived = f) ∧
    (∀ t, f.performative = .transfer t → ∃ t', f.asReceived.performative = .transfer t' ∧
      t'.head = t.head ∧ t'.payload = t.payload) := by
  obtain ⟨c, p⟩ := f
  refine ⟨rfl, fun h => ?_, fun t h => ?_⟩
  · cases p <;> first | rfl | exact absurd rfl (h _)
  · subst h
    refine ⟨t.asReceived, rfl, rfl, ?_⟩
    by_cases hp : t.payload = []
    · have : t.asReceived.body = none := by simp [Transfer.asReceived, hp]
      rw [Transfer.payload, this, hp]
    · have : t.asReceived.body = some (.data t.payload) := by simp [Transfer.asReceived, hp]
      rw [Transfer.payload, this]; rfl

/-- **C07** Any sequence of AMQP frames, written one after the other and received in any chunks, is read back as that
sequence, without error. -/
theorem c07_amqp_stream (fs : List AmqpFrame) (max : Nat) (h : ∀ f ∈ fs, wf f ∧ admits max f.encode.length)
    (chunks : List Bytes) (hc : chunks.flatten = fs.foldl (fun dst f => codecEncode AmqpFrame.encode f dst) []) :
    codecRead AmqpFrame.decode max chunks .frameHeader [] = (fs.map AmqpFrame.asReceived, none) := by
  have hf : ∀ (fs : List AmqpFrame) (d : Bytes),
      fs.foldl (fun dst f => codecEncode AmqpFrame.encode f dst) d = d ++ fs.flatMap AmqpFrame.encode := by
    intro fs
    induction fs with
    | nil => simp
    | cons f fs ih => intro d; rw [List.foldl_cons, ih, List.flatMap_cons, codecEncode, List.append_assoc]
  rw [codecRead_start, hc, hf]
  have := codecDrain_enc (decode := AmqpFrame.decode.run) (max := max) (encode := AmqpFrame.encode)
    (view := AmqpFrame.asReceived) (ok := fun f => wf f ∧ admits max f.encode.length)
    (fun f hf => ⟨(AmqpFrame.raw hf.1).1, (AmqpFrame.raw hf.1).2, hf.2, AmqpFrame.decode_encode hf.1⟩) fs
    (([] ++ (fs.flatMap AmqpFrame.encode)).length + 1) [] h (by simp) (by simp)
  simp only [List.append_nil, List.nil_append] at this ⊢
  rw [this]

/-- **C07** The same for SASL frames. -/
theorem c07_sasl_stream (fs : List SaslFrame) (max : Nat) (h : ∀ f ∈ fs, wf f ∧ admits max f.encode.length)
    (chunks : List Bytes) (hc : chunks.flatten = fs.foldl (fun dst f => codecEncode SaslFrame.encode f dst) []) :
    codecRead SaslFrame.decode max chunks .frameHeader [] = (fs, none) := by
  have hf : ∀ (fs : List SaslFrame) (d : Bytes),
      fs.foldl (fun dst f => codecEncode SaslFrame.encode f dst) d = d ++ fs.flatMap SaslFrame.encode := by
    intro fs
    induction fs with
    | nil => simp
    | cons f fs ih => intro d; rw [List.foldl_cons, ih, List.flatMap_cons, codecEncode, List.append_assoc]
  rw [codecRead_start, hc, hf]
  have := codecDrain_enc (decode := SaslFrame.decode.run) (max := max) (encode := SaslFrame.encode)
    (view := id) (ok := fun f => wf f ∧ admits max f.encode.length)
    (fun f hf => ⟨(SaslFrame.raw hf.1).1, (SaslFrame.raw hf.1).2, hf.2, SaslFrame.decode_encode hf.1⟩) fs
    (([] ++ (fs.flatMap SaslFrame.encode)).length + 1) [] h (by simp) (by simp)
  simp only [List.append_nil, List.nil_append, List.map_id] at this ⊢
  rw [this]

/-- Non-vacuity: a well-formed frame. -/
theorem c07_example_wf : wf (⟨7, .close ⟨none⟩⟩ : AmqpFrame) := ⟨⟨trivial, by decide⟩, by decide⟩

example : codecRead AmqpFrame.decode 64 [[0, 0, 0], [15, 2, 0, 0, 7, 0x00, 0x53, 0x18, 0xc0], [2, 1, 0x40]] .frameHeader [] =
    ([⟨7, .close ⟨none⟩⟩], none) :=
  c07_amqp_stream [⟨7, .close ⟨none⟩⟩] 64 (by
    intro f hf
    rw [List.mem_singleton.mp hf]
    exact ⟨c07_example_wf, .inr (by decide)⟩) _ (by decide)

/-! ## C08 -/

/-- **C08** How the bytes are cut into chunks does not matter: neither for the frames nor for the first error. -/
theorem c08_chunking_irrelevant (decode : Bytes → Except Err (α × Bytes)) (max : Nat) (cs cs' : List Bytes)
    (h : cs.flatten = cs'.flatten) :
    codecRead decode max cs .frameHeader [] = codecRead decode max cs' .frameHeader [] := by
  rw [codecRead_start, codecRead_start, h]

/-- **C08** What is read from any stream, in any chunks: the stream is a sequence of complete frames, each decoded to
the item yielded, followed by the beginning of a frame or by something that is refused for the reported reason. -/
theorem c08_stream_meaning (decode : Bytes → Except Err (α × Bytes)) (max : Nat) (cs : List Bytes) {as : List α}
    {e : Option CodecError} (h : codecRead decode max cs .frameHeader [] = (as, e)) :
    ∃ (raws : List Bytes) (rest : Bytes), cs.flatten = raws.flatten ++ rest ∧
      raws.map (fun raw => decode (raw.drop 4)) = as.map (fun a => Except.ok (a, [])) ∧
      (∀ raw ∈ raws, RawFrame max raw) ∧ Ending decode max rest e := by
  rw [codecRead_start] at h
  generalize hd : codecDrain decode max (cs.flatten.length + 1) .frameHeader cs.flatten = x at h
  obtain ⟨as', e', st', buf'⟩ := x
  obtain ⟨rfl, rfl⟩ := Prod.mk.inj h
  obtain ⟨raws, rest, h1, h2, h3, h4⟩ := codecDrain_spec _ _ (by omega) hd
  exact ⟨raws, rest, h1, h2, h3, by cases e' <;> exact h4⟩

example (decode : Bytes → Except Err (α × Bytes)) : codecRead decode 9 [[0], [0, 0, 10], [2, 0, 0, 1]] .frameHeader [] =
    codecRead decode 9 [[0, 0, 0, 10, 2, 0, 0, 1]] .frameHeader [] := c08_chunking_irrelevant _ _ _ _ rfl

/-! ## C09 -/

/-- **C09** A length prefix over the limit, or of at most 4, is refused as soon as 8 bytes are there, whatever follows
and without consuming anything. -/
theorem c09_refused_from_header (decode : Bytes → Except Err (α × Bytes)) (max : Nat) (hdr rest : Bytes)
    (h8 : hdr.length = 8) :
    (max ≠ 0 → max < beNat (hdr.take 4) →
      codecDecode decode max .frameHeader (hdr ++ rest) = (.error .maxSizeExceeded, .frameHeader, hdr ++ rest)) ∧
    (beNat (hdr.take 4) ≤ 4 → admits max (beNat (hdr.take 4)) →
      codecDecode decode max .frameHeader (hdr ++ rest) = (.error .invalidFrameSize, .frameHeader, hdr ++ rest)) := by
  have ht : (hdr ++ rest).take 4 = hdr.take 4 := take_append_of_le (by omega)
  constructor
  · intro h0 h
    simp only [codecDecode]
    rw [if_neg (by simp; omega), ht, if_pos ⟨h0, h⟩]
  · intro h ha
    simp only [codecDecode]
    rw [if_neg (by simp; omega), ht, if_neg (fun hh => ha.elim hh.1 (by omega)), if_pos h]

/-- **C09** With a limit, every frame yielded from any stream in any chunks had a length prefix within it, and that
many bytes. -/
theorem c09_yielded_frames_within_limit (decode : Bytes → Except Err (α × Bytes)) (max : Nat) (hm : max ≠ 0)
    (cs : List Bytes) {as : List α} {e : Option CodecError} (h : codecRead decode max cs .frameHeader [] = (as, e)) :
    ∃ (raws : List Bytes) (rest : Bytes), cs.flatten = raws.flatten ++ rest ∧ raws.length = as.length ∧
      ∀ raw ∈ raws, beNat (raw.take 4) = raw.length ∧ raw.length ≤ max := by
  obtain ⟨raws, rest, h1, h2, h3, _⟩ := c08_stream_meaning decode max cs h
  refine ⟨raws, rest, h1, by simpa using congrArg List.length h2, fun raw hr => ?_⟩
  obtain ⟨_, hs, ha⟩ := h3 raw hr
  exact ⟨hs, ha.resolve_left hm⟩

/-- **C09** The reader holds back for more bytes only for a frame that is within the limit. -/
theorem c09_waits_only_within_limit (decode : Bytes → Except Err (α × Bytes)) (max : Nat) (hm : max ≠ 0)
    (buf : Bytes) {st : DecodeState} {buf' : Bytes}
    (h : codecDecode decode max .frameHeader buf = (.pending, st, buf')) :
    buf.length < 8 ∨ (beNat (buf.take 4) ≤ max ∧ buf.length < beNat (buf.take 4)) := by
  simp only [codecDecode] at h
  by_cases h8 : buf.length < 8
  · exact .inl h8
  · rw [if_neg h8] at h
    by_cases h1 : max ≠ 0 ∧ beNat (buf.take 4) > max
    · rw [if_pos h1] at h; simp at h
    · rw [if_neg h1] at h
      have hle : beNat (buf.take 4) ≤ max := by
        by_cases hh : beNat (buf.take 4) > max
        · exact absurd ⟨hm, hh⟩ h1
        · omega
      by_cases h2 : beNat (buf.take 4) ≤ 4
      · rw [if_pos h2] at h; simp at h
      · rw [if_neg h2] at h
        by_cases h3 : buf.length < beNat (buf.take 4)
        · exact .inr ⟨hle, h3⟩
        · rw [if_neg h3] at h
          have := (codecFrame_pending h).1
          simp at this; omega

example : codecDecode AmqpFrame.decode 100 .frameHeader [0, 0, 0, 101, 0, 0, 0, 0] =
    (.error .maxSizeExceeded, .frameHeader, [0, 0, 0, 101, 0, 0, 0, 0]) :=
  (c09_refused_from_header _ 100 [0, 0, 0, 101, 0, 0, 0, 0] [] rfl).1 (by decide) (by decide)

/-! ## C10 -/

/-- The three protocol headers of AMQP 1.0.0. -/
def protocolHeader : ProtocolId → Bytes
  | .amqp => [65, 77, 81, 80, 0, 1, 0, 0]
  | .amqpTls => [65, 77, 81, 80, 2, 1, 0, 0]
  | .amqpSasl => [65, 77, 81, 80, 3, 1, 0, 0]

theorem protocolId_cases (hdr rest : Bytes) (h8 : hdr.length = 8) :
    (∃ p, hdr = protocolHeader p ∧ protocolIdDecode (hdr ++ rest) = (.ready p, rest)) ∨
    ((∀ p, hdr ≠ protocolHeader p) ∧ ∃ e, protocolIdDecode (hdr ++ rest) = (.error e, rest)) := by
  obtain ⟨a, b, c, d, p, x, y, z, rfl⟩ : ∃ a b c d p x y z, hdr = [a, b, c, d, p, x, y, z] := by
    match hdr, h8 with
    | [a, b, c, d, p, x, y, z], _ => exact ⟨a, b, c, d, p, x, y, z, rfl⟩
  clear h8
  have hi : protocolIdDecode ([a, b, c, d, p, x, y, z] ++ rest) =
      if [a, b, c, d] ≠ [0x41, 0x4d, 0x51, 0x50] then (.error .invalidHeader, rest)
      else if [x, y, z] ≠ [1, 0, 0] then (.error .incompatible, rest)
      else match p with
        | 0 => (.ready .amqp, rest)
        | 2 => (.ready .amqpTls, rest)
        | 3 => (.ready .amqpSasl, rest)
        | _ => (.error .unknown, rest) := by
    rw [protocolIdDecode, if_neg (by simp)]; rfl
  rw [hi]
  by_cases h1 : [a, b, c, d] = [0x41, 0x4d, 0x51, 0x50]
  · rw [if_neg (not_not_intro h1)]
    by_cases h2 : [x, y, z] = [1, 0, 0]
    · rw [if_neg (not_not_intro h2)]
      simp only [List.cons.injEq, and_true] at h1 h2
      obtain ⟨rfl, rfl, rfl, rfl⟩ := h1
      obtain ⟨rfl, rfl, rfl⟩ := h2
      split
      · exact .inl ⟨.amqp, rfl, rfl⟩
      · exact .inl ⟨.amqpTls, rfl, rfl⟩
      · exact .inl ⟨.amqpSasl, rfl, rfl⟩
      · rename_i n0 n2 n3
        refine .inr ⟨fun q hq => ?_, _, rfl⟩
        cases q <;> simp [protocolHeader] at hq
        · exact n0 hq
        · exact n2 hq
        · exact n3 hq
    · rw [if_pos h2]
      refine .inr ⟨fun q hq => h2 ?_, _, rfl⟩
      cases q <;> simp [protocolHeader] at hq <;> simp [hq]
  · rw [if_pos h1]
    refine .inr ⟨fun q hq => h1 ?_, _, rfl⟩
    cases q <;> simp [protocolHeader] at hq <;> simp [hq]

/-- **C10** The protocol header decoder: waits for 8 bytes, accepts exactly the three headers, consumes exactly 8
bytes. -/
theorem c10_protocol_header_exact :
    (∀ buf : Bytes, buf.length < 8 → protocolIdDecode buf = (.pending, buf)) ∧
    (∀ (hdr rest : Bytes) (p : ProtocolId), hdr.length = 8 →
      ((protocolIdDecode (hdr ++ rest)).1 = .ready p ↔ hdr = protocolHeader p)) ∧
    (∀ hdr rest : Bytes, hdr.length = 8 → (∀ p, hdr ≠ protocolHeader p) →
      ∃ e, protocolIdDecode (hdr ++ rest) = (.error e, rest)) ∧
    (∀ hdr rest : Bytes, hdr.length = 8 → (protocolIdDecode (hdr ++ rest)).2 = rest) := by
  refine ⟨fun buf h => if_pos h, fun hdr rest p h8 => ?_, fun hdr rest h8 hn => ?_, fun hdr rest h8 => ?_⟩
  · rcases protocolId_cases hdr rest h8 with ⟨q, hq, hd⟩ | ⟨hn, e, hd⟩
    · rw [hd, hq]
      constructor
      · intro h; cases h; rfl
      · intro h; revert h; cases p <;> cases q <;> simp [protocolHeader]
    · rw [hd]
      exact ⟨nofun, fun h => absurd h (hn p)⟩
  · rcases protocolId_cases hdr rest h8 with ⟨q, hq, _⟩ | ⟨_, h⟩
    · exact absurd hq (hn q)
    · exact h
  · rcases protocolId_cases hdr rest h8 with ⟨q, _, hd⟩ | ⟨_, e, hd⟩ <;> rw [hd]

/-- **C10** The encoder writes these headers, and the decoder inverts it whatever follows. -/
theorem c10_inverts_encoder (p : ProtocolId) (rest : Bytes) :
    protocolIdEncode p = protocolHeader p ∧ protocolIdDecode (protocolIdEncode p ++ rest) = (.ready p, rest) := by
  cases p <;> exact ⟨rfl, by rw [protocolIdDecode, if_neg (by simp [protocolIdEncode])]; rfl⟩

example : protocolIdDecode [65, 77, 81, 80, 1, 1, 0, 0, 9] = (.error .unknown, [9]) := rfl

end Amqp
