import Verif.Lemmas.PanicStructs
/-! C06: hostile bytes and panics. -/

namespace Amqp

theorem neverPanics [Wire α] [QuietWire α] : NeverPanics α := fun s => Total.decAny.quiet s trivial

theorem panicsOnlyOnHazard [Wire α] [CalmWire α] : PanicsOnlyOnHazard (dec : Dec α) :=
  fun s h => Classical.byContradiction fun hn => Total.dec.quiet s hn h

/-- **C06** for scalars, identifiers and enumerations: whatever the bytes, the decoder returns a value or an error. -/
theorem c06_scalars_never_panic :
    NeverPanics Bool ∧ NeverPanics UInt8 ∧ NeverPanics UInt16 ∧ NeverPanics UInt32 ∧ NeverPanics UInt64 ∧
    NeverPanics Int8 ∧ NeverPanics Int16 ∧ NeverPanics Int32 ∧ NeverPanics Int64 ∧ NeverPanics F32 ∧ NeverPanics F64 ∧
    NeverPanics Char ∧ NeverPanics Timestamp ∧ NeverPanics Uuid ∧ NeverPanics Bytes ∧ NeverPanics Str ∧
    NeverPanics Symbol ∧ NeverPanics Descriptor ∧ NeverPanics Constructor ∧ NeverPanics (Option Str) ∧
    NeverPanics Role ∧ NeverPanics SenderSettleMode ∧ NeverPanics ReceiverSettleMode ∧ NeverPanics AmqpError ∧
    NeverPanics ConnectionError ∧ NeverPanics SessionError ∧ NeverPanics LinkError ∧ NeverPanics SaslCode ∧
    NeverPanics TerminusDurability ∧ NeverPanics TerminusExpiryPolicy ∧ NeverPanics ErrorCondition ∧
    NeverPanics DistributionMode ∧ NeverPanics MessageId :=
  ⟨neverPanics, neverPanics, neverPanics, neverPanics, neverPanics, neverPanics, neverPanics, neverPanics, neverPanics,
    neverPanics, neverPanics, neverPanics, neverPanics, neverPanics, neverPanics, neverPanics, neverPanics, neverPanics,
    neverPanics, neverPanics, neverPanics, neverPanics, neverPanics, neverPanics, neverPanics, neverPanics, neverPanics,
    neverPanics, neverPanics, neverPanics, neverPanics, neverPanics, neverPanics⟩

/-- **C06** for value trees and collections: a panic needs an undersized compound header or a map in a map. -/
theorem c06_values_panic_only_on_hazard_partial :
    PanicsOnlyOnHazard (dec : Dec Variant) ∧ PanicsOnlyOnHazard (dec : Dec VList) ∧
    PanicsOnlyOnHazard (dec : Dec VecSymbolMap) ∧ PanicsOnlyOnHazard (dec : Dec VecStringMap) ∧
    PanicsOnlyOnHazard (dec : Dec (HMap Symbol Variant)) ∧ PanicsOnlyOnHazard (dec : Dec (HMap Variant Variant)) ∧
    PanicsOnlyOnHazard (dec : Dec (Arr Symbol)) ∧ PanicsOnlyOnHazard (dec : Dec (Multiple Symbol)) :=
  ⟨panicsOnlyOnHazard, panicsOnlyOnHazard, panicsOnlyOnHazard, panicsOnlyOnHazard, panicsOnlyOnHazard, panicsOnlyOnHazard,
    panicsOnlyOnHazard, panicsOnlyOnHazard⟩

/-- **C06** for the protocol types. -/
theorem c06_protocol_panic_only_on_hazard_partial :
    PanicsOnlyOnHazard (dec : Dec Open) ∧ PanicsOnlyOnHazard (dec : Dec Begin) ∧ PanicsOnlyOnHazard (dec : Dec Attach) ∧
    PanicsOnlyOnHazard (dec : Dec Flow) ∧ PanicsOnlyOnHazard (dec : Dec TransferHead) ∧
    PanicsOnlyOnHazard (dec : Dec Disposition) ∧ PanicsOnlyOnHazard (dec : Dec Detach) ∧ PanicsOnlyOnHazard (dec : Dec End) ∧
    PanicsOnlyOnHazard (dec : Dec Close) ∧ PanicsOnlyOnHazard (dec : Dec Error) ∧ PanicsOnlyOnHazard (dec : Dec Source) ∧
    PanicsOnlyOnHazard (dec : Dec Target) ∧ PanicsOnlyOnHazard (dec : Dec DeliveryState) ∧
    PanicsOnlyOnHazard (dec : Dec Outcome) ∧ PanicsOnlyOnHazard (dec : Dec SaslFrameBody) ∧
    PanicsOnlyOnHazard (dec : Dec Header) ∧ PanicsOnlyOnHazard (dec : Dec Properties) ∧ PanicsOnlyOnHazard (dec : Dec Section) :=
  ⟨panicsOnlyOnHazard, panicsOnlyOnHazard, panicsOnlyOnHazard, panicsOnlyOnHazard, panicsOnlyOnHazard, panicsOnlyOnHazard,
    panicsOnlyOnHazard, panicsOnlyOnHazard, panicsOnlyOnHazard, panicsOnlyOnHazard, panicsOnlyOnHazard, panicsOnlyOnHazard,
    panicsOnlyOnHazard, panicsOnlyOnHazard, panicsOnlyOnHazard, panicsOnlyOnHazard, panicsOnlyOnHazard, panicsOnlyOnHazard⟩

/-- **C06** for frames and messages. -/
theorem c06_frames_panic_only_on_hazard_partial :
    PanicsOnlyOnHazard Frame.decode ∧ PanicsOnlyOnHazard AmqpFrame.decode ∧ PanicsOnlyOnHazard SaslFrame.decode ∧
    (∀ s, Message.decode s = .error .panic → Hazard s) :=
  ⟨fun s h => Classical.byContradiction fun hn => Total.frame.quiet s hn h,
    fun s h => Classical.byContradiction fun hn => Total.amqpFrame.quiet s hn h,
    fun s h => Classical.byContradiction fun hn => Total.saslFrame.quiet s hn h,
    fun s h => Classical.byContradiction fun hn => decodeLoop_calm s.length .empty s hn h⟩

/-- **C06** for the stream codec: a frame whose bytes hold no hazard is decoded or refused, never a panic. -/
theorem c06_stream_panic_only_on_hazard_partial (max : Nat) (st : DecodeState) (buf : Bytes) :
    (∀ st' buf', codecDecode AmqpFrame.decode max st buf = (.error (.parse .panic), st', buf') → Hazard buf) ∧
    (∀ st' buf', codecDecode SaslFrame.decode max st buf = (.error (.parse .panic), st', buf') → Hazard buf) := by
  have key : ∀ {α : Type} (d : Dec α), PanicsOnlyOnHazard d → ∀ st' buf',
      codecDecode d max st buf = (.error (.parse .panic), st', buf') → Hazard buf := by
    intro α d hd st' buf' h
    have hf : ∀ (n : Nat) (b : Bytes), codecFrame d n b = (.error (.parse .panic), st', buf') → Hazard b := by
      intro n b h
      simp only [codecFrame] at h
      split at h
      · simp at h
      · cases hh : d (b.take n) with
        | error e =>
          rw [hh] at h
          simp at h
          exact (hd _ (by rw [hh, h.1])).infix (List.take_prefix _ _).isInfix
        | ok x =>
          rw [hh] at h
          simp only at h
          split at h <;> simp at h
    cases st with
    | frame n => exact hf n buf h
    | frameHeader =>
      simp only [codecDecode] at h
      repeat' split at h
      all_goals try (simp at h; done)
      exact (hf _ _ h).infix (List.drop_suffix _ _).isInfix
  exact ⟨key _ c06_frames_panic_only_on_hazard_partial.2.1, key _ c06_frames_panic_only_on_hazard_partial.2.2.1⟩

/-- **C06** is false in general.  Each of the three kinds of hazard panics: 8-bit and 32-bit lists, maps and arrays that
announce a size too small for their own count, and a map inside a map key. -/
theorem c06_hazards_panic :
    (dec : Dec Variant) [0xc0, 0, 0] = .error .panic ∧ (dec : Dec Variant) [0xc1, 0, 0] = .error .panic ∧
    (dec : Dec Variant) [0xe0, 0, 0] = .error .panic ∧
    (dec : Dec Variant) [0xd0, 0, 0, 0, 3, 0, 0, 0, 0] = .error .panic ∧
    (dec : Dec Variant) [0xd1, 0, 0, 0, 0, 0, 0, 0, 0] = .error .panic ∧
    (dec : Dec Variant) [0xf0, 0, 0, 0, 1, 0, 0, 0, 0] = .error .panic ∧
    (dec : Dec Variant) [0xc1, 5, 2, 0xc1, 1, 0, 0x40] = .error .panic :=
  ⟨rfl, rfl, rfl, rfl, rfl, rfl, rfl⟩

/-- **C06** A peer can do this with a 14-byte frame, before anything has been negotiated: an `open` whose list header
announces size 0. -/
theorem c06_open_frame_panics :
    AmqpFrame.decode [2, 0, 0, 0, 0x00, 0x53, 0x10, 0xc0, 0, 0] = .error .panic := rfl

theorem c06_variant_not_panic_free : ¬ NeverPanics Variant := fun h => h _ c06_hazards_panic.1

/-- Non-vacuity: ordinary frames hold no hazard, so they cannot cause a panic. -/
example : ¬ Hazard [0, 0, 0, 15, 2, 0, 0, 7, 0x00, 0x53, 0x18, 0xc0, 2, 1, 0x40] := by
  rintro (⟨c, hc, h⟩ | ⟨c, hc, b, hb, h⟩ | h)
  · simp at hc
    have : ∀ c ∈ ([0xc0, 0xc1, 0xe0] : Bytes), ¬ [c, 0] <:+: [0, 0, 0, 15, 2, 0, 0, 7, 0x00, 0x53, 0x18, 0xc0, 2, 1, 0x40] := by
      decide
    exact this c (by simpa using hc) h
  · have h1 : [c] <:+: [0, 0, 0, 15, 2, 0, 0, 7, 0x00, 0x53, 0x18, 0xc0, 2, 1, 0x40] :=
      List.IsInfix.trans ⟨[], [0, 0, 0, b], rfl⟩ h
    have : ∀ c ∈ ([0xd0, 0xd1, 0xf0] : Bytes), ¬ [c] <:+: [0, 0, 0, 15, 2, 0, 0, 7, 0x00, 0x53, 0x18, 0xc0, 2, 1, 0x40] := by
      decide
    exact this c hc h1
  · revert h; decide

end Amqp
