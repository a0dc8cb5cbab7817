import Verif.Spec.Session
import Verif.Lemmas.Message
import Verif.Lemmas.SessionGet
/-!
# The transfer frames of a delivery
-/

namespace Amqp.Rt.Session

theorem chunkSize_pos (mfs : UInt32) : 0 < chunkSize mfs := by
  unfold chunkSize
  split
  · next h =>
    rw [UInt32.toNat_sub_of_le _ _ (by rw [UInt32.le_iff_toNat_le]; exact Nat.le_of_lt (UInt32.lt_iff_toNat_lt.mp h))]
    have := UInt32.lt_iff_toNat_lt.mp h
    omega
  · split
    · decide
    · next h =>
      have : mfs.toNat ≠ 0 := fun h' => h (by apply UInt32.toNat_inj.mp; simpa using h')
      omega

/-- A frame the loop sends. -/
def chunk (handle : UInt32) (format : Option UInt32) (more : Bool) (b : Bytes) : Transfer :=
  { head := { emptyTransfer with handle, messageFormat := format, batchable := true, more }, body := some (.data b) }

@[simp] theorem payload_data (h : TransferHead) (b : Bytes) : Transfer.payload { head := h, body := some (.data b) } = b := rfl

theorem length_drop_lt {b : Bytes} {max : Nat} (hm : 0 < max) (hb : b ≠ []) :
    (b.drop (min max b.length)).length < b.length := by
  have : 0 < b.length := List.length_pos_iff.mpr hb
  rw [List.length_drop]; omega

theorem chunkFrames_spec (h : UInt32) (f : Option UInt32) {max : Nat} (hmax : 0 < max) (n : Nat) (b : Bytes)
    (hb : b ≠ []) (hn : b.length ≤ n) :
    ∃ cs : List Transfer, chunkFrames h f max n b = cs.map .transfer ∧ cs ≠ [] ∧
      (∀ c ∈ cs, ∃ m p, c = chunk h f m p ∧ p.length ≤ max) ∧
      cs.map (·.head.more) = List.replicate (cs.length - 1) true ++ [false] ∧
      (cs.map Transfer.payload).flatten = b := by
  induction n generalizing b with
  | zero => exact (hb (List.length_eq_zero_iff.mp (Nat.le_zero.mp hn))).elim
  | succ n ih =>
    unfold chunkFrames
    rw [if_neg hb]
    by_cases hd : b.drop (min max b.length) = []
    · refine ⟨[chunk h f false (b.take (min max b.length))], ?_, by simp, ?_, rfl, ?_⟩
      · have : chunkFrames h f max n (b.drop (min max b.length)) = [] := by
          rw [hd]; cases n <;> simp [chunkFrames]
        rw [this]; simp [chunk, hd]
      · simp only [List.mem_singleton, forall_eq]
        exact ⟨false, _, rfl, by rw [List.length_take]; omega⟩
      · simp only [List.map_cons, List.map_nil, List.flatten_cons, List.flatten_nil, List.append_nil, chunk, payload_data]
        have := List.take_append_drop (min max b.length) b
        rw [hd, List.append_nil] at this
        exact this
    · have hlt := length_drop_lt hmax hb
      obtain ⟨cs, h₁, h₂, h₃, h₄, h₅⟩ := ih (b.drop (min max b.length)) hd (by omega)
      refine ⟨chunk h f true (b.take (min max b.length)) :: cs, ?_, by simp, ?_, ?_, ?_⟩
      · rw [h₁, List.map_cons]
        congr 2
        have : (b.drop (min max b.length)).isEmpty = false := by simpa using hd
        simp [chunk, this]
      · intro c hc
        rcases List.mem_cons.mp hc with rfl | hc
        · exact ⟨true, _, rfl, by rw [List.length_take]; omega⟩
        · exact h₃ c hc
      · rw [List.map_cons, h₄]
        have : 0 < cs.length := List.length_pos_iff.mpr h₂
        simp only [List.length_cons, chunk]
        rw [show cs.length + 1 - 1 = (cs.length - 1) + 1 by omega, List.replicate_succ, List.cons_append]
      · rw [List.map_cons, List.flatten_cons, h₅]
        simp only [chunk, payload_data]
        exact List.take_append_drop _ _

theorem map_const_replicate {α β} (l : List α) (f : α → β) (b : β) (h : ∀ a ∈ l, f a = b) :
    l.map f = List.replicate l.length b := by
  induction l with
  | nil => rfl
  | cons a l ih => simp [List.replicate_succ, h a, ih fun x hx => h x (by simp [hx])]

/-- The frames of a delivery, as a list of transfers. -/
theorem transferFrames_spec (mfs h id : UInt32) (tag : Bytes) (body : TransferBody) (settled : Bool)
    (format : Option UInt32) (hc : body.coherent) :
    ∃ ts : List Transfer, transferFrames mfs h id tag body settled format = ts.map .transfer ∧
      WholeDelivery h id tag body.tenc (if format.isNone then body.format else format) settled ts ∧
      (∀ t ∈ ts, t.payload.length ≤ chunkSize mfs ∧
        t.head.rcvSettleMode = none ∧ (t.head.deliveryTag = none ∨ t.head.deliveryTag = some tag) ∧
        (t.head.state = none ∨ t.head.state = some (.accepted {})) ∧ ∀ b, t.body = some b → b.esize = t.payload.length) := by
  have hsize := esize_eq body hc
  have hpos := chunkSize_pos mfs
  unfold transferFrames
  dsimp only
  split
  · next hbig =>
    have hlen : chunkSize mfs < body.tenc.length := by omega
    have hmin : min (chunkSize mfs) body.tenc.length = chunkSize mfs := by omega
    rw [hmin]
    have hd : body.tenc.drop (chunkSize mfs) ≠ [] := by
      intro h; have := congrArg List.length h; simp at this; omega
    obtain ⟨cs, h₁, h₂, h₃, h₄, h₅⟩ := chunkFrames_spec h (if format.isNone then body.format else format) hpos
      body.tenc.length (body.tenc.drop (chunkSize mfs)) hd (by rw [List.length_drop]; omega)
    rw [h₁]
    refine ⟨_ :: cs, rfl, ?_, ?_⟩
    · have hl : 0 < cs.length := List.length_pos_iff.mpr h₂
      have hcs : ∀ c ∈ cs, c.head.deliveryId = none ∧ c.head.deliveryTag = none ∧ c.head.settled = none ∧
          c.head.handle = h ∧ c.head.messageFormat = (if format.isNone then body.format else format) ∧
          c.head.aborted = false ∧ c.head.resume = false := by
        intro c hc
        obtain ⟨m, p, rfl, _⟩ := h₃ c hc
        exact ⟨rfl, rfl, rfl, rfl, rfl, rfl, rfl⟩
      constructor
      · rw [List.map_cons, map_const_replicate cs _ none fun c hc => (hcs c hc).1]; rfl
      · rw [List.map_cons, map_const_replicate cs _ none fun c hc => (hcs c hc).2.1]; rfl
      · rw [List.map_cons, map_const_replicate cs _ none fun c hc => (hcs c hc).2.2.1]; rfl
      · rw [List.map_cons, h₄]
        simp only [List.length_cons]
        rw [show cs.length + 1 - 1 = (cs.length - 1) + 1 by omega, List.replicate_succ, List.cons_append]
      · intro t ht
        rcases List.mem_cons.mp ht with rfl | ht
        · rfl
        · exact (hcs t ht).2.2.2.1
      · intro t ht
        rcases List.mem_cons.mp ht with rfl | ht
        · rfl
        · exact (hcs t ht).2.2.2.2.1
      · intro t ht
        rcases List.mem_cons.mp ht with rfl | ht
        · exact ⟨rfl, rfl⟩
        · exact (hcs t ht).2.2.2.2.2
      · rw [List.map_cons, List.flatten_cons, h₅]
        exact List.take_append_drop _ _
    · intro t ht
      rcases List.mem_cons.mp ht with rfl | ht
      · refine ⟨?_, rfl, .inr rfl, ?_, ?_⟩
        · simp only [payload_data, List.length_take]; omega
        · cases settled <;> simp
        · rintro _ ⟨⟩; rfl
      · obtain ⟨m, p, rfl, hp⟩ := h₃ t ht
        refine ⟨hp, rfl, .inl rfl, .inl rfl, ?_⟩
        rintro _ ⟨⟩; rfl
  · next hsmall =>
    refine ⟨[_], rfl, ?_, ?_⟩
    · constructor <;> first
        | rfl
        | (intro t ht; obtain rfl := List.mem_singleton.mp ht; first | rfl | exact ⟨rfl, rfl⟩)
        | (simp [Transfer.payload]; done)
    · intro t ht
      obtain rfl := List.mem_singleton.mp ht
      refine ⟨?_, rfl, .inr rfl, ?_, ?_⟩
      · simp only [Transfer.payload]; omega
      · cases settled <;> simp
      · rintro _ ⟨⟩; exact hsize

end Amqp.Rt.Session
