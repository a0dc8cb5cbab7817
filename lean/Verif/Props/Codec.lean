import Verif.Lemmas.Claims
import Verif.Lemmas.Structs
/-!
# Properties of the value codec

C01–C06, C18, C19, C44, C45.  The shapes of the claims (`RoundTrips`, `ExactSize`, ...) are in `Spec/Claims.lean`, the
well-formedness conditions in `Spec/Codec.lean` and `Spec/Compound.lean`.
-/

namespace Amqp
open Dec

/-! ## C01 -/

/-- **C01** Every primitive survives encode/decode and what follows it is left alone. -/
theorem c01_primitives_round_trip :
    RoundTrips Bool ∧ RoundTrips UInt8 ∧ RoundTrips UInt16 ∧ RoundTrips UInt32 ∧ RoundTrips UInt64 ∧
    RoundTrips Int8 ∧ RoundTrips Int16 ∧ RoundTrips Int32 ∧ RoundTrips Int64 ∧ RoundTrips F32 ∧ RoundTrips F64 ∧
    RoundTrips Char ∧ RoundTrips Uuid ∧ RoundTrips Bytes ∧ RoundTrips Str ∧ RoundTrips Symbol :=
  ⟨roundTrips, roundTrips, roundTrips, roundTrips, roundTrips, roundTrips, roundTrips, roundTrips, roundTrips,
    roundTrips, roundTrips, roundTrips, roundTrips, roundTrips, roundTrips, roundTrips⟩

/-- The fixed-width primitives have no side condition at all. -/
theorem c01_fixed_width_unconditional (rest : Bytes) :
    (∀ v : Bool, (dec : Dec Bool) (enc v ++ rest) = .ok (v, rest)) ∧
    (∀ v : UInt8, (dec : Dec UInt8) (enc v ++ rest) = .ok (v, rest)) ∧
    (∀ v : UInt16, (dec : Dec UInt16) (enc v ++ rest) = .ok (v, rest)) ∧
    (∀ v : UInt32, (dec : Dec UInt32) (enc v ++ rest) = .ok (v, rest)) ∧
    (∀ v : UInt64, (dec : Dec UInt64) (enc v ++ rest) = .ok (v, rest)) ∧
    (∀ v : Int8, (dec : Dec Int8) (enc v ++ rest) = .ok (v, rest)) ∧
    (∀ v : Int16, (dec : Dec Int16) (enc v ++ rest) = .ok (v, rest)) ∧
    (∀ v : Int32, (dec : Dec Int32) (enc v ++ rest) = .ok (v, rest)) ∧
    (∀ v : Int64, (dec : Dec Int64) (enc v ++ rest) = .ok (v, rest)) ∧
    (∀ v : F32, (dec : Dec F32) (enc v ++ rest) = .ok (v, rest)) ∧
    (∀ v : F64, (dec : Dec F64) (enc v ++ rest) = .ok (v, rest)) ∧
    (∀ v : Char, (dec : Dec Char) (enc v ++ rest) = .ok (v, rest)) ∧
    (∀ v : Uuid, (dec : Dec Uuid) (enc v ++ rest) = .ok (v, rest)) :=
  ⟨fun v => roundTrips v trivial rest, fun v => roundTrips v trivial rest, fun v => roundTrips v trivial rest,
    fun v => roundTrips v trivial rest, fun v => roundTrips v trivial rest, fun v => roundTrips v trivial rest,
    fun v => roundTrips v trivial rest, fun v => roundTrips v trivial rest, fun v => roundTrips v trivial rest,
    fun v => roundTrips v trivial rest, fun v => roundTrips v trivial rest, fun v => roundTrips v trivial rest,
    fun v => roundTrips v trivial rest⟩

-- the side conditions of strings are met by a non-trivial string
example : wf (Str.mk (ascii "a string")) := ⟨utf8_of_ascii _ (by decide), by decide⟩
example : wf (List.replicate 300 (7 : UInt8) : Bytes) := by
  show List.length _ < _
  rw [List.length_replicate]; decide

/-! ## C02 -/

/-- **C02** Every well-formed value tree, of any shape and depth, survives encode/decode. -/
theorem c02_variant_round_trip : RoundTrips Variant := roundTrips

-- a nested, non-trivial well-formed value
example : wf (Variant.list [.uint 7, .map [(.symbol (sym "k"), .list [.null, .boolean true])],
    .described (.ulong 3) (.string ⟨ascii "x"⟩)]) := by
  have h1 : validUtf8 (ascii "x") = true := utf8_of_ascii _ (by decide)
  have h2 : validUtf8 (sym "k").bytes = true := utf8_of_ascii _ (by decide)
  refine ⟨⟨trivial, ⟨⟨⟨h2, by decide⟩, rfl, ⟨⟨trivial, trivial, trivial⟩, by decide⟩, trivial⟩, by decide,
    by simp⟩, ⟨show (3 : UInt64) ≠ 0 by decide, ⟨h1, by decide⟩, rfl⟩, trivial⟩, by decide⟩

/-! The side conditions of `wf` that are not limits of the wire format itself are forced: each of these values is
representable in the Rust type and does not survive. -/

/-- A described value whose numeric descriptor is 0 is written with the one-byte zero code, which the descriptor
decoder does not know. -/
theorem c02_zero_descriptor_lost (v : Variant) (rest : Bytes) :
    (dec : Dec Variant) (enc (Variant.described (.ulong 0) v) ++ rest) = .error (.invalidFormatCode 0x44) := rfl

/-- A described list comes back as opaque bytes, not as a list. -/
theorem c02_described_list_changes :
    (dec : Dec Variant) (enc (Variant.described (.ulong 1) (.list []))) =
      .ok (.describedCompound (.ulong 1) [0xc0, 1, 0], []) := rfl

/-- A map with a map inside a key cannot be read back: hashing it panics. -/
theorem c02_map_as_key_panics :
    (dec : Dec Variant) (enc (Variant.map [(.map [], .null)])) = .error .panic := rfl

/-- An array that says it has 256 elements (of zero width) loses its count. -/
theorem c02_array_count_truncated :
    (dec : Dec Variant) (enc (Variant.array 256 (.formatCode 0x40) [])) =
      .ok (.array 0 (.formatCode 0x40) [], []) := rfl

/-- The statement without side conditions is therefore false. -/
theorem c02_unconditional_false :
    ¬ ∀ (v : Variant) (rest : Bytes), (dec : Dec Variant) (enc v ++ rest) = .ok (v, rest) := by
  intro h
  have := h (.described (.ulong 0) .null) []
  rw [c02_zero_descriptor_lost] at this
  exact nomatch this

/-- Typed collections: hash maps (in any iteration order), ordered maps, lists, arrays, array constructors. -/
theorem c02_collections_round_trip :
    RoundTrips (HMap Symbol Variant) ∧ RoundTrips (HMap Str Variant) ∧ RoundTrips (HMap Variant Variant) ∧
    RoundTrips VecSymbolMap ∧ RoundTrips VecStringMap ∧ RoundTrips VList ∧ RoundTrips (Arr Symbol) ∧
    RoundTrips (Multiple Symbol) ∧ RoundTrips Constructor :=
  ⟨roundTrips, roundTrips, roundTrips, roundTrips, roundTrips, roundTrips, roundTrips, roundTrips, roundTrips⟩

/-! ## C03 -/

/-- **C03** `encoded_size` is the number of bytes `encode` writes: primitives and collections, no side condition. -/
theorem c03_encoded_size_exact :
    ExactSize Bool ∧ ExactSize UInt8 ∧ ExactSize UInt16 ∧ ExactSize UInt32 ∧ ExactSize UInt64 ∧ ExactSize Int8 ∧
    ExactSize Int16 ∧ ExactSize Int32 ∧ ExactSize Int64 ∧ ExactSize F32 ∧ ExactSize F64 ∧ ExactSize Char ∧
    ExactSize Timestamp ∧ ExactSize Uuid ∧ ExactSize Bytes ∧ ExactSize Str ∧ ExactSize Symbol ∧
    ExactSize Descriptor ∧ ExactSize Constructor ∧ ExactSize Variant ∧ ExactSize (HMap Symbol Variant) ∧
    ExactSize (HMap Str Variant) ∧ ExactSize (HMap Variant Variant) ∧ ExactSize VecSymbolMap ∧
    ExactSize VecStringMap ∧ ExactSize VList ∧ ExactSize (Arr Symbol) ∧ ExactSize (Multiple Symbol) :=
  ⟨exactSize, exactSize, exactSize, exactSize, exactSize, exactSize, exactSize, exactSize, exactSize, exactSize,
    exactSize, exactSize, exactSize, exactSize, exactSize, exactSize, exactSize, exactSize, exactSize, exactSize,
    exactSize, exactSize, exactSize, exactSize, exactSize, exactSize, exactSize, exactSize⟩

/-- **C03** The same for every protocol type. -/
theorem c03_protocol_encoded_size_exact :
    ExactSize Role ∧ ExactSize SenderSettleMode ∧ ExactSize ReceiverSettleMode ∧ ExactSize AmqpError ∧
    ExactSize ConnectionError ∧ ExactSize SessionError ∧ ExactSize LinkError ∧ ExactSize SaslCode ∧
    ExactSize TerminusDurability ∧ ExactSize TerminusExpiryPolicy ∧ ExactSize ErrorCondition ∧
    ExactSize DistributionMode ∧ ExactSize MessageId ∧ ExactSize Error ∧ ExactSize Open ∧ ExactSize Begin ∧
    ExactSize Attach ∧ ExactSize Flow ∧ ExactSize TransferHead ∧ ExactSize Disposition ∧ ExactSize Detach ∧
    ExactSize End ∧ ExactSize Close ∧ ExactSize Source ∧ ExactSize Target ∧ ExactSize Header ∧
    ExactSize Properties ∧ ExactSize Received ∧ ExactSize Accepted ∧ ExactSize Rejected ∧ ExactSize Released ∧
    ExactSize Modified ∧ ExactSize SaslMechanisms ∧ ExactSize SaslInit ∧ ExactSize SaslChallenge ∧
    ExactSize SaslResponse ∧ ExactSize SaslOutcome ∧ ExactSize DeliveryState ∧ ExactSize Outcome ∧
    ExactSize SaslFrameBody :=
  ⟨exactSize, exactSize, exactSize, exactSize, exactSize, exactSize, exactSize, exactSize, exactSize, exactSize,
    exactSize, exactSize, exactSize, exactSize, exactSize, exactSize, exactSize, exactSize, exactSize, exactSize,
    exactSize, exactSize, exactSize, exactSize, exactSize, exactSize, exactSize, exactSize, exactSize, exactSize,
    exactSize, exactSize, exactSize, exactSize, exactSize, exactSize, exactSize, exactSize, exactSize, exactSize⟩

/-! ## C04 -/

/-- **C04** Decoding depends only on the bytes it consumes: primitives, value trees and maps. -/
theorem c04_reads_only_itself :
    ReadsOnlyItself Bool ∧ ReadsOnlyItself UInt8 ∧ ReadsOnlyItself UInt16 ∧ ReadsOnlyItself UInt32 ∧
    ReadsOnlyItself UInt64 ∧ ReadsOnlyItself Int8 ∧ ReadsOnlyItself Int16 ∧ ReadsOnlyItself Int32 ∧
    ReadsOnlyItself Int64 ∧ ReadsOnlyItself F32 ∧ ReadsOnlyItself F64 ∧ ReadsOnlyItself Char ∧
    ReadsOnlyItself Timestamp ∧ ReadsOnlyItself Uuid ∧ ReadsOnlyItself Bytes ∧ ReadsOnlyItself Str ∧
    ReadsOnlyItself Symbol ∧ ReadsOnlyItself Descriptor ∧ ReadsOnlyItself Constructor ∧ ReadsOnlyItself Variant ∧
    ReadsOnlyItself (HMap Symbol Variant) ∧ ReadsOnlyItself (HMap Str Variant) ∧
    ReadsOnlyItself (HMap Variant Variant) ∧ ReadsOnlyItself VecSymbolMap ∧ ReadsOnlyItself VecStringMap ∧
    ReadsOnlyItself VList :=
  ⟨readsOnlyItself, readsOnlyItself, readsOnlyItself, readsOnlyItself, readsOnlyItself, readsOnlyItself,
    readsOnlyItself, readsOnlyItself, readsOnlyItself, readsOnlyItself, readsOnlyItself, readsOnlyItself,
    readsOnlyItself, readsOnlyItself, readsOnlyItself, readsOnlyItself, readsOnlyItself, readsOnlyItself,
    readsOnlyItself, readsOnlyItself, readsOnlyItself, readsOnlyItself, readsOnlyItself, readsOnlyItself,
    readsOnlyItself, readsOnlyItself⟩

/-- **C04** The same for every protocol type. -/
theorem c04_protocol_reads_only_itself :
    ReadsOnlyItself Role ∧ ReadsOnlyItself SenderSettleMode ∧ ReadsOnlyItself ReceiverSettleMode ∧
    ReadsOnlyItself AmqpError ∧ ReadsOnlyItself ConnectionError ∧ ReadsOnlyItself SessionError ∧
    ReadsOnlyItself LinkError ∧ ReadsOnlyItself SaslCode ∧ ReadsOnlyItself TerminusDurability ∧
    ReadsOnlyItself TerminusExpiryPolicy ∧ ReadsOnlyItself ErrorCondition ∧ ReadsOnlyItself DistributionMode ∧
    ReadsOnlyItself MessageId ∧ ReadsOnlyItself Error ∧ ReadsOnlyItself Open ∧ ReadsOnlyItself Begin ∧
    ReadsOnlyItself Attach ∧ ReadsOnlyItself Flow ∧ ReadsOnlyItself TransferHead ∧ ReadsOnlyItself Disposition ∧
    ReadsOnlyItself Detach ∧ ReadsOnlyItself End ∧ ReadsOnlyItself Close ∧ ReadsOnlyItself Source ∧
    ReadsOnlyItself Target ∧ ReadsOnlyItself Header ∧ ReadsOnlyItself Properties ∧ ReadsOnlyItself Received ∧
    ReadsOnlyItself Accepted ∧ ReadsOnlyItself Rejected ∧ ReadsOnlyItself Released ∧ ReadsOnlyItself Modified ∧
    ReadsOnlyItself SaslMechanisms ∧ ReadsOnlyItself SaslInit ∧ ReadsOnlyItself SaslChallenge ∧
    ReadsOnlyItself SaslResponse ∧ ReadsOnlyItself SaslOutcome ∧ ReadsOnlyItself DeliveryState ∧
    ReadsOnlyItself Outcome ∧ ReadsOnlyItself SaslFrameBody :=
  ⟨readsOnlyItself, readsOnlyItself, readsOnlyItself, readsOnlyItself, readsOnlyItself, readsOnlyItself,
    readsOnlyItself, readsOnlyItself, readsOnlyItself, readsOnlyItself, readsOnlyItself, readsOnlyItself,
    readsOnlyItself, readsOnlyItself, readsOnlyItself, readsOnlyItself, readsOnlyItself, readsOnlyItself,
    readsOnlyItself, readsOnlyItself, readsOnlyItself, readsOnlyItself, readsOnlyItself, readsOnlyItself,
    readsOnlyItself, readsOnlyItself, readsOnlyItself, readsOnlyItself, readsOnlyItself, readsOnlyItself,
    readsOnlyItself, readsOnlyItself, readsOnlyItself, readsOnlyItself, readsOnlyItself, readsOnlyItself,
    readsOnlyItself, readsOnlyItself, readsOnlyItself, readsOnlyItself⟩

/-- **C04** as stated also holds for arrays and multiple-valued fields. -/
theorem c04_arrays_ignore_later_bytes :
    IgnoresLaterBytes (Arr Symbol) ∧ IgnoresLaterBytes (Multiple Symbol) :=
  ⟨ignoresLaterBytes, ignoresLaterBytes⟩

/-- The stronger form fails for typed arrays: the declared size is only checked to be available, not consumed. -/
theorem c04_array_needs_following_bytes :
    (dec : Dec (Arr UInt8)) ([0xe0, 4, 1, 0x50, 7] ++ [1]) = .ok (⟨[7]⟩, [1]) ∧
    (dec : Dec (Arr UInt8)) [0xe0, 4, 1, 0x50, 7] = .error (.incomplete 3) := ⟨rfl, rfl⟩

/-! ## C05 -/

/-- **C05** A value cut short anywhere is reported as incomplete: primitives, value trees, collections. -/
theorem c05_truncation_detected :
    TruncationDetected Bool ∧ TruncationDetected UInt8 ∧ TruncationDetected UInt16 ∧ TruncationDetected UInt32 ∧
    TruncationDetected UInt64 ∧ TruncationDetected Int8 ∧ TruncationDetected Int16 ∧ TruncationDetected Int32 ∧
    TruncationDetected Int64 ∧ TruncationDetected F32 ∧ TruncationDetected F64 ∧ TruncationDetected Char ∧
    TruncationDetected Timestamp ∧ TruncationDetected Uuid ∧ TruncationDetected Bytes ∧ TruncationDetected Str ∧
    TruncationDetected Symbol ∧ TruncationDetected Variant ∧ TruncationDetected (HMap Symbol Variant) ∧
    TruncationDetected (HMap Str Variant) ∧ TruncationDetected (HMap Variant Variant) ∧
    TruncationDetected VecSymbolMap ∧ TruncationDetected VecStringMap ∧ TruncationDetected VList ∧
    TruncationDetected (Arr Symbol) ∧ TruncationDetected (Multiple Symbol) :=
  ⟨truncationDetected, truncationDetected, truncationDetected, truncationDetected, truncationDetected,
    truncationDetected, truncationDetected, truncationDetected, truncationDetected, truncationDetected,
    truncationDetected, truncationDetected, truncationDetected, truncationDetected, truncationDetected,
    truncationDetected, truncationDetected, truncationDetected, truncationDetected, truncationDetected,
    truncationDetected, truncationDetected, truncationDetected, truncationDetected, truncationDetected,
    truncationDetected⟩

/-- **C05** The same for every protocol type. -/
theorem c05_protocol_truncation_detected :
    TruncationDetected Role ∧ TruncationDetected SenderSettleMode ∧ TruncationDetected ReceiverSettleMode ∧
    TruncationDetected AmqpError ∧ TruncationDetected ConnectionError ∧ TruncationDetected SessionError ∧
    TruncationDetected LinkError ∧ TruncationDetected SaslCode ∧ TruncationDetected TerminusDurability ∧
    TruncationDetected TerminusExpiryPolicy ∧ TruncationDetected ErrorCondition ∧
    TruncationDetected DistributionMode ∧ TruncationDetected MessageId ∧ TruncationDetected Error ∧
    TruncationDetected Open ∧ TruncationDetected Begin ∧ TruncationDetected Attach ∧ TruncationDetected Flow ∧
    TruncationDetected TransferHead ∧ TruncationDetected Disposition ∧ TruncationDetected Detach ∧
    TruncationDetected End ∧ TruncationDetected Close ∧ TruncationDetected Source ∧ TruncationDetected Target ∧
    TruncationDetected Header ∧ TruncationDetected Properties ∧ TruncationDetected Received ∧
    TruncationDetected Accepted ∧ TruncationDetected Rejected ∧ TruncationDetected Released ∧
    TruncationDetected Modified ∧ TruncationDetected SaslMechanisms ∧ TruncationDetected SaslInit ∧
    TruncationDetected SaslChallenge ∧ TruncationDetected SaslResponse ∧ TruncationDetected SaslOutcome ∧
    TruncationDetected DeliveryState ∧ TruncationDetected Outcome ∧ TruncationDetected SaslFrameBody :=
  ⟨truncationDetected, truncationDetected, truncationDetected, truncationDetected, truncationDetected,
    truncationDetected, truncationDetected, truncationDetected, truncationDetected, truncationDetected,
    truncationDetected, truncationDetected, truncationDetected, truncationDetected, truncationDetected,
    truncationDetected, truncationDetected, truncationDetected, truncationDetected, truncationDetected,
    truncationDetected, truncationDetected, truncationDetected, truncationDetected, truncationDetected,
    truncationDetected, truncationDetected, truncationDetected, truncationDetected, truncationDetected,
    truncationDetected, truncationDetected, truncationDetected, truncationDetected, truncationDetected,
    truncationDetected, truncationDetected, truncationDetected, truncationDetected, truncationDetected⟩

example : ∃ n, (dec : Dec Variant) [0xa1, 3, 0x61] = .error (.incomplete n) :=
  truncationDetected (α := Variant) (.string ⟨[0x61, 0x62, 0x63]⟩)
    (show wf (Str.mk _) from ⟨utf8_of_ascii _ (by decide), by decide⟩) _ [0x62, 0x63] rfl (by decide)

/-! ## C18 -/

/-- **C18** A vector of any array-encodable type survives encode/decode. -/
theorem c18_arrays_round_trip :
    RoundTrips (Arr Bool) ∧ RoundTrips (Arr UInt8) ∧ RoundTrips (Arr UInt16) ∧ RoundTrips (Arr UInt32) ∧
    RoundTrips (Arr UInt64) ∧ RoundTrips (Arr Int8) ∧ RoundTrips (Arr Int16) ∧ RoundTrips (Arr Int32) ∧
    RoundTrips (Arr Int64) ∧ RoundTrips (Arr F32) ∧ RoundTrips (Arr F64) ∧ RoundTrips (Arr Char) ∧
    RoundTrips (Arr Timestamp) ∧ RoundTrips (Arr Uuid) ∧ RoundTrips (Arr Bytes) ∧ RoundTrips (Arr Str) ∧
    RoundTrips (Arr Symbol) :=
  ⟨roundTrips, roundTrips, roundTrips, roundTrips, roundTrips, roundTrips, roundTrips, roundTrips, roundTrips,
    roundTrips, roundTrips, roundTrips, roundTrips, roundTrips, roundTrips, roundTrips, roundTrips⟩

/-- **C18** Multiple-valued fields survive, whatever the number of elements. -/
theorem c18_multiple_round_trip : RoundTrips (Multiple Symbol) ∧ RoundTrips (Multiple Str) ∧ RoundTrips (Multiple Bytes) :=
  ⟨roundTrips, roundTrips, roundTrips⟩

/-- **C18** A single element is written bare. -/
theorem c18_single_is_bare (s : Symbol) : enc (Multiple.mk [s]) = enc s := rfl

/-- **C18** The receiver does not care whether the peer wrote a single element bare or as a one-element array. -/
theorem c18_single_either_way (s : Symbol) (h : wf (Multiple.mk [s])) (rest : Bytes) :
    (dec : Dec (Multiple Symbol)) (enc s ++ rest) = .ok (⟨[s]⟩, rest) ∧
    (dec : Dec (Multiple Symbol)) (enc (Arr.mk [s]) ++ rest) = .ok (⟨[s]⟩, rest) := by
  refine ⟨roundTrips (Multiple.mk [s]) h rest, ?_⟩
  obtain ⟨c, tl, he, hd⟩ := LawfulWire.rt (Arr.mk [s]) h
  have hc : c = FC.array8 ∨ c = FC.array32 := by
    have : enc (Arr.mk [s]) = encHeader FC.array8 FC.array32 (arrContentSize [s] + 1) 1 ++ (arrCtor Symbol :: [s].flatMap arrEnc) := rfl
    rw [he, encHeader] at this
    split at this
    · exact .inr (by injection this)
    · exact .inl (by injection this)
  rw [he]
  show (decF c : Dec (Multiple Symbol)) (tl ++ rest) = _
  have : (decF c : Dec (Multiple Symbol)) = (do let a ← (decF c : Dec (Arr Symbol)); return ⟨a.items⟩) := if_pos hc
  rw [this]
  exact Dec.map_ok (f := fun a : Arr Symbol => Multiple.mk a.items) (hd rest)

/-- **C18** An array whose element constructor carries a descriptor is refused, never misread. -/
theorem c18_described_elements_refused (d : Descriptor) (h : wf d) (c : UInt8) (n : Nat) (body rest : Bytes)
    (h8 : (enc (Constructor.described d c)).length + body.length + 1 ≤ 255) (hn : n < 256) :
    (dec : Dec (Arr Symbol)) (0xe0 :: (be 1 ((enc (Constructor.described d c)).length + body.length + 1) ++ be 1 n ++
      (enc (Constructor.described d c) ++ (body ++ rest)))) = .error (.invalidDescriptor d) := by
  show (decF 0xe0 : Dec (Arr Symbol)) _ = _
  refine (Dec.bind_ok (compound8_enc _ n h8 hn _)).trans ?_
  refine (Dec.bind_ok (r := enc (Constructor.described d c) ++ (body ++ rest)) (a := ()) ?_).trans ?_
  · show (if _ then _ else _) = _
    rw [if_neg (by simp)]
  · exact (Dec.bind_ok (roundTrips (Constructor.described d c) h _)).trans rfl

example : wf (Multiple.mk [sym "PLAIN", sym "ANONYMOUS"]) := by
  have h1 : validUtf8 (sym "PLAIN").bytes = true := utf8_of_ascii _ (by decide)
  have h2 : validUtf8 (sym "ANONYMOUS").bytes = true := utf8_of_ascii _ (by decide)
  refine ⟨fun x hx => ?_, by decide⟩
  simp only [List.mem_cons, List.not_mem_nil, or_false] at hx
  rcases hx with rfl | rfl
  · exact ⟨h1, by decide⟩
  · exact ⟨h2, by decide⟩

/-! ## C19 -/

/-- The instant truncated to milliseconds (towards the past). -/
def Timestamp.truncMs (t : Timestamp) : Timestamp := ⟨t.secs, t.nanos / 1000000 * 1000000⟩

/-- What the type `DateTime<Utc>` can hold outside leap seconds. -/
def Timestamp.valid (t : Timestamp) : Prop := minSecs ≤ t.secs ∧ t.secs ≤ maxSecs ∧ t.nanos < 1000000000

/-- **C19**, for instants from 1970 on: read back truncated to milliseconds. -/
theorem c19_timestamp_partial (t : Timestamp) (hv : t.valid) (h0 : 0 ≤ t.secs) (rest : Bytes) :
    (dec : Dec Timestamp) (enc t ++ rest) = .ok (t.truncMs, rest) := by
  obtain ⟨h1, h2, h3⟩ := hv
  have he : enc t = enc t.truncMs := by
    simp only [enc, Timestamp.truncMs, timestampMillis]
    rw [Nat.mul_div_cancel _ (by decide)]
  rw [he]
  refine roundTrips t.truncMs (show wfTimestamp t.truncMs from ⟨h1, h2, ?_, ?_, .inl h0⟩) rest <;>
    simp only [Timestamp.truncMs] <;> omega

/-- **C19** holds before 1970 too, more than a second before and off the whole second. -/
theorem c19_before_epoch_partial (t : Timestamp) (hv : t.valid) (h0 : t.secs ≤ -2) (hn : 1000000 ≤ t.nanos) (rest : Bytes) :
    (dec : Dec Timestamp) (enc t ++ rest) = .ok (t.truncMs, rest) := by
  obtain ⟨h1, h2, h3⟩ := hv
  have he : enc t = enc t.truncMs := by
    simp only [enc, Timestamp.truncMs, timestampMillis]
    rw [Nat.mul_div_cancel _ (by decide)]
  rw [he]
  refine roundTrips t.truncMs (show wfTimestamp t.truncMs from ⟨h1, h2, ?_, ?_, .inr ⟨h0, ?_⟩⟩) rest <;>
    simp only [Timestamp.truncMs] <;> omega

/-- **C19** is violated just before the epoch: half a second before comes back as half a second after. -/
theorem c19_sign_lost_before_epoch :
    (dec : Dec Timestamp) (enc (Timestamp.mk (-1) 500000000)) = .ok (⟨0, 500000000⟩, []) := rfl

/-- **C19** is violated on whole seconds before 1970: the decoder computes a leap second, which is accepted as a
different instant at the end of a minute and refused otherwise. -/
theorem c19_whole_second_before_epoch :
    (dec : Dec Timestamp) (enc (Timestamp.mk (-60) 0)) = .ok (⟨-61, 1000000000⟩, []) ∧
    (dec : Dec Timestamp) (enc (Timestamp.mk (-1) 0)) = .error .datetimeParse := ⟨rfl, rfl⟩

example : Timestamp.valid ⟨1700000000, 123456789⟩ := by simp [Timestamp.valid, minSecs, maxSecs]

/-! ## C44, C45 -/

/-- **C44** Different values have different encodings. -/
theorem c44_unambiguous :
    Unambiguous Bool ∧ Unambiguous UInt8 ∧ Unambiguous UInt16 ∧ Unambiguous UInt32 ∧ Unambiguous UInt64 ∧
    Unambiguous Int8 ∧ Unambiguous Int16 ∧ Unambiguous Int32 ∧ Unambiguous Int64 ∧ Unambiguous F32 ∧
    Unambiguous F64 ∧ Unambiguous Char ∧ Unambiguous Timestamp ∧ Unambiguous Uuid ∧ Unambiguous Bytes ∧
    Unambiguous Str ∧ Unambiguous Symbol ∧ Unambiguous Variant ∧ Unambiguous (HMap Symbol Variant) ∧
    Unambiguous (HMap Str Variant) ∧ Unambiguous (HMap Variant Variant) ∧ Unambiguous VecSymbolMap ∧
    Unambiguous VecStringMap ∧ Unambiguous VList ∧ Unambiguous (Arr Symbol) ∧ Unambiguous (Multiple Symbol) :=
  ⟨unambiguous, unambiguous, unambiguous, unambiguous, unambiguous, unambiguous, unambiguous, unambiguous,
    unambiguous, unambiguous, unambiguous, unambiguous, unambiguous, unambiguous, unambiguous, unambiguous,
    unambiguous, unambiguous, unambiguous, unambiguous, unambiguous, unambiguous, unambiguous, unambiguous,
    unambiguous, unambiguous⟩

/-- **C44** A concatenation of encodings can be split in one way only. -/
theorem c44_uniquely_parsable :
    UniquelyParsable Bool ∧ UniquelyParsable UInt8 ∧ UniquelyParsable UInt16 ∧ UniquelyParsable UInt32 ∧
    UniquelyParsable UInt64 ∧ UniquelyParsable Int8 ∧ UniquelyParsable Int16 ∧ UniquelyParsable Int32 ∧
    UniquelyParsable Int64 ∧ UniquelyParsable F32 ∧ UniquelyParsable F64 ∧ UniquelyParsable Char ∧
    UniquelyParsable Timestamp ∧ UniquelyParsable Uuid ∧ UniquelyParsable Bytes ∧ UniquelyParsable Str ∧
    UniquelyParsable Symbol ∧ UniquelyParsable Variant ∧ UniquelyParsable (HMap Symbol Variant) ∧
    UniquelyParsable (HMap Str Variant) ∧ UniquelyParsable (HMap Variant Variant) ∧ UniquelyParsable VecSymbolMap ∧
    UniquelyParsable VecStringMap ∧ UniquelyParsable VList ∧ UniquelyParsable (Arr Symbol) ∧
    UniquelyParsable (Multiple Symbol) :=
  ⟨uniquelyParsable, uniquelyParsable, uniquelyParsable, uniquelyParsable, uniquelyParsable, uniquelyParsable,
    uniquelyParsable, uniquelyParsable, uniquelyParsable, uniquelyParsable, uniquelyParsable, uniquelyParsable,
    uniquelyParsable, uniquelyParsable, uniquelyParsable, uniquelyParsable, uniquelyParsable, uniquelyParsable,
    uniquelyParsable, uniquelyParsable, uniquelyParsable, uniquelyParsable, uniquelyParsable, uniquelyParsable,
    uniquelyParsable, uniquelyParsable⟩

/-- **C44** The same for every protocol type. -/
theorem c44_protocol_uniquely_parsable :
    UniquelyParsable Role ∧ UniquelyParsable SenderSettleMode ∧ UniquelyParsable ReceiverSettleMode ∧
    UniquelyParsable AmqpError ∧ UniquelyParsable ConnectionError ∧ UniquelyParsable SessionError ∧
    UniquelyParsable LinkError ∧ UniquelyParsable SaslCode ∧ UniquelyParsable TerminusDurability ∧
    UniquelyParsable TerminusExpiryPolicy ∧ UniquelyParsable ErrorCondition ∧ UniquelyParsable DistributionMode ∧
    UniquelyParsable MessageId ∧ UniquelyParsable Error ∧ UniquelyParsable Open ∧ UniquelyParsable Begin ∧
    UniquelyParsable Attach ∧ UniquelyParsable Flow ∧ UniquelyParsable TransferHead ∧
    UniquelyParsable Disposition ∧ UniquelyParsable Detach ∧ UniquelyParsable End ∧ UniquelyParsable Close ∧
    UniquelyParsable Source ∧ UniquelyParsable Target ∧ UniquelyParsable Header ∧ UniquelyParsable Properties ∧
    UniquelyParsable Received ∧ UniquelyParsable Accepted ∧ UniquelyParsable Rejected ∧ UniquelyParsable Released ∧
    UniquelyParsable Modified ∧ UniquelyParsable SaslMechanisms ∧ UniquelyParsable SaslInit ∧
    UniquelyParsable SaslChallenge ∧ UniquelyParsable SaslResponse ∧ UniquelyParsable SaslOutcome ∧
    UniquelyParsable DeliveryState ∧ UniquelyParsable Outcome ∧ UniquelyParsable SaslFrameBody :=
  ⟨uniquelyParsable, uniquelyParsable, uniquelyParsable, uniquelyParsable, uniquelyParsable, uniquelyParsable,
    uniquelyParsable, uniquelyParsable, uniquelyParsable, uniquelyParsable, uniquelyParsable, uniquelyParsable,
    uniquelyParsable, uniquelyParsable, uniquelyParsable, uniquelyParsable, uniquelyParsable, uniquelyParsable,
    uniquelyParsable, uniquelyParsable, uniquelyParsable, uniquelyParsable, uniquelyParsable, uniquelyParsable,
    uniquelyParsable, uniquelyParsable, uniquelyParsable, uniquelyParsable, uniquelyParsable, uniquelyParsable,
    uniquelyParsable, uniquelyParsable, uniquelyParsable, uniquelyParsable, uniquelyParsable, uniquelyParsable,
    uniquelyParsable, uniquelyParsable, uniquelyParsable, uniquelyParsable⟩

/-- **C45** An error other than "incomplete" does not go away when more bytes arrive. -/
theorem c45_errors_are_final :
    ErrorsAreFinal Bool ∧ ErrorsAreFinal UInt8 ∧ ErrorsAreFinal UInt16 ∧ ErrorsAreFinal UInt32 ∧
    ErrorsAreFinal UInt64 ∧ ErrorsAreFinal Int8 ∧ ErrorsAreFinal Int16 ∧ ErrorsAreFinal Int32 ∧
    ErrorsAreFinal Int64 ∧ ErrorsAreFinal F32 ∧ ErrorsAreFinal F64 ∧ ErrorsAreFinal Char ∧
    ErrorsAreFinal Timestamp ∧ ErrorsAreFinal Uuid ∧ ErrorsAreFinal Bytes ∧ ErrorsAreFinal Str ∧
    ErrorsAreFinal Symbol ∧ ErrorsAreFinal Variant ∧ ErrorsAreFinal (HMap Symbol Variant) ∧
    ErrorsAreFinal (HMap Str Variant) ∧ ErrorsAreFinal (HMap Variant Variant) ∧ ErrorsAreFinal VecSymbolMap ∧
    ErrorsAreFinal VecStringMap ∧ ErrorsAreFinal VList ∧ ErrorsAreFinal (Arr Symbol) ∧
    ErrorsAreFinal (Multiple Symbol) :=
  ⟨errorsAreFinal, errorsAreFinal, errorsAreFinal, errorsAreFinal, errorsAreFinal, errorsAreFinal, errorsAreFinal,
    errorsAreFinal, errorsAreFinal, errorsAreFinal, errorsAreFinal, errorsAreFinal, errorsAreFinal, errorsAreFinal,
    errorsAreFinal, errorsAreFinal, errorsAreFinal, errorsAreFinal, errorsAreFinal, errorsAreFinal, errorsAreFinal,
    errorsAreFinal, errorsAreFinal, errorsAreFinal, errorsAreFinal, errorsAreFinal⟩

/-- **C45** The same for every protocol type. -/
theorem c45_protocol_errors_are_final :
    ErrorsAreFinal Role ∧ ErrorsAreFinal SenderSettleMode ∧ ErrorsAreFinal ReceiverSettleMode ∧
    ErrorsAreFinal AmqpError ∧ ErrorsAreFinal ConnectionError ∧ ErrorsAreFinal SessionError ∧
    ErrorsAreFinal LinkError ∧ ErrorsAreFinal SaslCode ∧ ErrorsAreFinal TerminusDurability ∧
    ErrorsAreFinal TerminusExpiryPolicy ∧ ErrorsAreFinal ErrorCondition ∧ ErrorsAreFinal DistributionMode ∧
    ErrorsAreFinal MessageId ∧ ErrorsAreFinal Error ∧ ErrorsAreFinal Open ∧ ErrorsAreFinal Begin ∧
    ErrorsAreFinal Attach ∧ ErrorsAreFinal Flow ∧ ErrorsAreFinal TransferHead ∧ ErrorsAreFinal Disposition ∧
    ErrorsAreFinal Detach ∧ ErrorsAreFinal End ∧ ErrorsAreFinal Close ∧ ErrorsAreFinal Source ∧
    ErrorsAreFinal Target ∧ ErrorsAreFinal Header ∧ ErrorsAreFinal Properties ∧ ErrorsAreFinal Received ∧
    ErrorsAreFinal Accepted ∧ ErrorsAreFinal Rejected ∧ ErrorsAreFinal Released ∧ ErrorsAreFinal Modified ∧
    ErrorsAreFinal SaslMechanisms ∧ ErrorsAreFinal SaslInit ∧ ErrorsAreFinal SaslChallenge ∧
    ErrorsAreFinal SaslResponse ∧ ErrorsAreFinal SaslOutcome ∧ ErrorsAreFinal DeliveryState ∧
    ErrorsAreFinal Outcome ∧ ErrorsAreFinal SaslFrameBody :=
  ⟨errorsAreFinal, errorsAreFinal, errorsAreFinal, errorsAreFinal, errorsAreFinal, errorsAreFinal, errorsAreFinal,
    errorsAreFinal, errorsAreFinal, errorsAreFinal, errorsAreFinal, errorsAreFinal, errorsAreFinal, errorsAreFinal,
    errorsAreFinal, errorsAreFinal, errorsAreFinal, errorsAreFinal, errorsAreFinal, errorsAreFinal, errorsAreFinal,
    errorsAreFinal, errorsAreFinal, errorsAreFinal, errorsAreFinal, errorsAreFinal, errorsAreFinal, errorsAreFinal,
    errorsAreFinal, errorsAreFinal, errorsAreFinal, errorsAreFinal, errorsAreFinal, errorsAreFinal, errorsAreFinal,
    errorsAreFinal, errorsAreFinal, errorsAreFinal, errorsAreFinal, errorsAreFinal⟩

end Amqp
