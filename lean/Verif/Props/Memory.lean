import Verif.Lemmas.MemoryStream
import Verif.Spec.Codec
/-!
# C69: what bytes from the network can make a decoder hold

A decoded value never holds more than the bytes it was decoded from: one unit for every node and one for every byte of
text or binary data (`weight`, Spec/Memory.lean and Spec/MemoryStructs.lean).  So a frame is bounded by the maximal frame
size, and everything read from a connection by the bytes that arrived on it.

Not so for three things the decoders do on the way: arrays of zero-width elements, the capacity set aside before the
first element has been read, and the depth of the recursion.
-/

namespace Amqp
open Dec Weigh

/-- **C69** A decoded value holds no more than the bytes it took. -/
theorem c69_value {s r : Bytes} {v : Variant} (h : (dec : Dec Variant) s = .ok (v, r)) : v.weight + r.length ≤ s.length :=
  Cost.dec (α := Variant) s v r h

/-- **C69** …and is nested no deeper than that. -/
theorem c69_depth {s r : Bytes} {v : Variant} (h : (dec : Dec Variant) s = .ok (v, r)) : v.depth + r.length ≤ s.length :=
  Nat.le_trans (Nat.add_le_add_right (depth_le_weight v) _) (c69_value h)

/-- **C69** The same for the properties of a performative… -/
theorem c69_properties {s r : Bytes} {m : HMap Symbol Variant} (h : (dec : Dec (HMap Symbol Variant)) s = .ok (m, r)) :
    weight m + r.length ≤ s.length := Cost.dec s m r h
/-- **C69** …for the unsettled map of an attach… -/
theorem c69_unsettled {s r : Bytes} {m : HMap Variant Variant} (h : (dec : Dec (HMap Variant Variant)) s = .ok (m, r)) :
    weight m + r.length ≤ s.length := Cost.dec s m r h
/-- **C69** …for annotations… -/
theorem c69_annotations {s r : Bytes} {m : VecSymbolMap} (h : (dec : Dec VecSymbolMap) s = .ok (m, r)) :
    weight m + r.length ≤ s.length := Cost.dec s m r h
/-- **C69** …for application properties… -/
theorem c69_application_properties {s r : Bytes} {m : VecStringMap} (h : (dec : Dec VecStringMap) s = .ok (m, r)) :
    weight m + r.length ≤ s.length := Cost.dec s m r h
/-- **C69** …for sequences… -/
theorem c69_sequence {s r : Bytes} {l : VList} (h : (dec : Dec VList) s = .ok (l, r)) :
    weight l + r.length ≤ s.length := Cost.dec s l r h
/-- **C69** …and for capabilities. -/
theorem c69_capabilities {s r : Bytes} {l : Multiple Symbol} (h : (dec : Dec (Multiple Symbol)) s = .ok (l, r)) :
    weight l + r.length ≤ s.length := Cost.dec s l r h

/-- **C69** A decoded frame holds no more than its bytes. -/
theorem c69_frame {s r : Bytes} {f : AmqpFrame} (h : AmqpFrame.decode s = .ok (f, r)) : weight f + r.length ≤ s.length :=
  Cost.amqpFrame s f r h
/-- **C69** …nor does a SASL frame. -/
theorem c69_sasl {s r : Bytes} {f : SaslFrame} (h : SaslFrame.decode s = .ok (f, r)) : weight f + r.length ≤ s.length :=
  Cost.saslFrame s f r h

/-- **C69** A decoded message holds no more than its bytes. -/
theorem c69_message {s : Bytes} {m : Message} (h : Message.decode s = .ok m) : weight m ≤ s.length := by
  have := decodeLoop_cost _ _ _ _ h
  rw [Message.weight_eq Message.empty] at this
  simpa [Message.empty, weight, TransferBody.weights] using this

/-- **C69** Of everything read from a connection, however it is cut into chunks: each frame stays under the maximal frame
size… -/
theorem c69_stream_frame {maxSize : Nat} (hm : maxSize ≠ 0) (chunks : List Bytes) :
    ∀ f ∈ (codecRead AmqpFrame.decode.run maxSize chunks .frameHeader []).1, weight f + 4 ≤ maxSize :=
  fun f hf => (codecRead_cost Cost.amqpFrame chunks (st := .frameHeader) trivial []).2 f hf hm

/-- **C69** …and all frames together hold no more than the bytes that arrived. -/
theorem c69_stream_total (maxSize : Nat) (chunks : List Bytes) :
    weight (codecRead AmqpFrame.decode.run maxSize chunks .frameHeader []).1 ≤ chunks.flatten.length := by
  have := (codecRead_cost Cost.amqpFrame (maxSize := maxSize) chunks (st := .frameHeader) trivial []).1
  rwa [List.length_nil, Nat.zero_add] at this

/-- **C69** What is set aside for a list that turns out to be well-formed is no more than its bytes. -/
theorem c69_reserve_list {fmt : UInt8} {s r : Bytes} {l : VList} {n : Nat} (h : (decF fmt : Dec VList) s = .ok (l, r))
    (hn : listReserve fmt s = some n) : n + r.length ≤ s.length := by
  have hw := CostWire.cost (α := VList) fmt s l r h
  have hc : 1 + weight l.items + r.length ≤ s.length + 1 := hw
  have hl := length_le_weight l.items
  have : l.items.length = n := by
    change (listHeader fmt >>= fun (x : Nat × Nat) => _) s = _ at h
    rw [listReserve] at hn
    cases h1 : listHeader fmt s with
    | error e => rw [h1] at hn; cases hn
    | ok x =>
      obtain ⟨⟨sz, count⟩, r1⟩ := x
      rw [h1] at hn
      obtain rfl := Option.some.inj hn
      rw [Dec.bind_ok h1] at h
      cases h2 : repeatDec count (dec : Dec Variant) r1 with
      | error e => simp only at h; rw [Dec.bind_err h2] at h; cases h
      | ok y =>
        simp only at h
        rw [Dec.bind_ok h2] at h
        cases h
        exact repeatDec_count _ _ _ _ h2
  omega

/-! ## Violations -/

/-- An array of `count` elements that take no bytes: ten bytes in all. -/
def hollowArray (count : Nat) : Bytes := FC.array32 :: be 4 5 ++ be 4 count ++ [FC.uint0]

/-- **C69** Violated: ten bytes decode to a `Vec<u32>` of any length up to 2³²-1; the elements of an array of zero-width
codes are never counted against the size of the array. -/
theorem c69_hollow_array {n : Nat} (hn : n < 2 ^ 32) :
    (hollowArray n).length = 10 ∧ (dec : Dec (Arr UInt32)) (hollowArray n) = .ok (⟨List.replicate n 0⟩, []) := by
  refine ⟨by simp [hollowArray, be_length], ?_⟩
  have h1 : arrayHeader FC.array32 (be 4 5 ++ be 4 n ++ [FC.uint0]) = .ok ((1, n), [FC.uint0]) := by
    show compound32 _ = _
    simpa using compound32_enc 1 n (by decide) hn [FC.uint0]
  have h3 : (dec : Dec Constructor) [FC.uint0] = .ok (.formatCode FC.uint0, []) := rfl
  rw [hollowArray, List.cons_append, List.cons_append, weigh_dec_cons, arr_decF h1 (by simp) h3,
    Dec.bind_ok (repeatDec_const (d := (decF FC.uint0 : Dec UInt32)) (a := 0) (fun s => rfl) [] n)]
  rfl

/-- **C69** Violated: a list, a map or an array of a dozen bytes makes its decoder set memory aside for up to 2³²-1
elements, whatever the size of the frame; the input is only then found to be too short. -/
theorem c69_reserve_unbounded {n : Nat} (hn : n < 2 ^ 32) :
    listReserve FC.list32 (be 4 4 ++ be 4 n) = some n ∧
    mapReserve FC.map32 (be 4 4 ++ be 4 n) = some (n / 2) ∧
    arrReserve FC.array32 (be 4 5 ++ be 4 n ++ [FC.symbol8]) = some n ∧
    (n > 0 → (decF FC.list32 : Dec VList) (be 4 4 ++ be 4 n) = .error (.incomplete 1)) ∧
    (n > 1 → (decF FC.map32 : Dec (HMap Symbol Variant)) (be 4 4 ++ be 4 n) = .error (.incomplete 1)) ∧
    (n > 0 → (decF FC.array32 : Dec (Multiple Symbol)) (be 4 5 ++ be 4 n ++ [FC.symbol8]) = .error (.incomplete 1)) := by
  have h0 : compound32 (be 4 4 ++ be 4 n) = .ok ((0, n), []) := by
    simpa using compound32_enc 0 n (by decide) hn []
  have h1 : compound32 (be 4 5 ++ be 4 n ++ [FC.symbol8]) = .ok ((1, n), [FC.symbol8]) := by
    simpa using compound32_enc 1 n (by decide) hn [FC.symbol8]
  have hl : listHeader FC.list32 (be 4 4 ++ be 4 n) = .ok ((0, n), []) := h0
  have hm : mapHeader FC.map32 (be 4 4 ++ be 4 n) = .ok ((0, n), []) := h0
  have ha : arrayHeader FC.array32 (be 4 5 ++ be 4 n ++ [FC.symbol8]) = .ok ((1, n), [FC.symbol8]) := h1
  refine ⟨by rw [listReserve, hl], ?_, ?_, fun hp => ?_, fun hp => ?_, fun hp => ?_⟩
  · rw [mapReserve, hm]; rfl
  · rw [arrReserve, ha]; rfl
  · obtain ⟨k, rfl⟩ : ∃ k, n = k + 1 := ⟨n - 1, by omega⟩
    change (listHeader FC.list32 >>= fun (x : Nat × Nat) => _) _ = _
    rw [Dec.bind_ok hl]
    rfl
  · obtain ⟨k, hk⟩ : ∃ k, n / 2 = k + 1 := ⟨n / 2 - 1, by omega⟩
    change (mapHeader FC.map32 >>= fun (x : Nat × Nat) => _) _ = _
    rw [Dec.bind_ok hm]
    simp only [hk]
    rfl
  · obtain ⟨k, rfl⟩ : ∃ k, n = k + 1 := ⟨n - 1, by omega⟩
    have h3 : (dec : Dec Constructor) [FC.symbol8] = .ok (.formatCode FC.symbol8, []) := rfl
    have h4 : repeatDec (k + 1) (decF FC.symbol8 : Dec Symbol) [] = .error (.incomplete 1) := rfl
    have h5 := arr_decF (α := Symbol) ha (by simp) h3
    rw [Dec.bind_err h4] at h5
    rw [multiple_decF (.inr rfl), Dec.bind_err h5]

/-- A null under `n` descriptors. -/
def nested : Nat → Variant
  | 0 => .null
  | n + 1 => .described (.ulong 1) (nested n)

/-- **C69** Violated: nothing but the frame size limits the depth of the recursion: three bytes a level are enough. -/
theorem c69_deep (n : Nat) : ∃ s : Bytes, s.length = 3 * n + 1 ∧ ∃ v, (dec : Dec Variant) s = .ok (v, []) ∧ v.depth = n + 1 := by
  refine ⟨(nested n).venc, ?_, nested n, ?_, ?_⟩
  · induction n with
    | zero => rfl
    | succ n ih => rw [nested, Variant.venc, List.length_append, ih]; show 3 + _ = _; omega
  · have hw : (nested n).wfv ∧ (nested n).isCompound = false := by
      induction n with
      | zero => exact ⟨by simp [nested, Variant.wfv], rfl⟩
      | succ n ih => exact ⟨by rw [nested, Variant.wfv]; exact ⟨by simp [wf, wfDescriptor], ih.1, ih.2⟩, rfl⟩
    have := rt_dec (α := Variant) (a := nested n) hw.1 []
    rwa [List.append_nil] at this
  · induction n with
    | zero => rfl
    | succ n ih => rw [nested, Variant.depth, ih]; omega

/-! ## The theorems say something -/

/-- A list of a null and a string of two bytes: five units from nine bytes. -/
example : (dec : Dec Variant) [0xc0, 6, 2, 0x40, 0xa1, 2, 0x68, 0x69, 0] =
    .ok (.list [.null, .string ⟨[0x68, 0x69]⟩], [0]) ∧
    (Variant.list [.null, .string ⟨[0x68, 0x69]⟩]).weight = 5 ∧
    (Variant.list [.null, .string ⟨[0x68, 0x69]⟩]).depth = 2 := by
  refine ⟨rfl, by simp [Variant.weight, Variant.weightList], by simp [Variant.depth, Variant.depthList]⟩

/-- The bound is reached. -/
example : (dec : Dec Variant) [0x45] = .ok (.list [], []) ∧ (Variant.list []).weight = 1 := ⟨rfl, by simp [Variant.weight, Variant.weightList]⟩

/-- Reading a stream of one end frame, in two pieces: one unit from twelve bytes. -/
example : weight (codecRead AmqpFrame.decode.run 64 [[0, 0, 0, 12, 2, 0, 0, 1, 0, 0x53], [0x17, 0x45]] .frameHeader []).1 = 1 := rfl

end Amqp
