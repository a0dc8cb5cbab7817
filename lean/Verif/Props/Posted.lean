import Verif.Lemmas.ConnectionFit
import Verif.Model.Stream
import Verif.Props.Frame
import Verif.Props.Net
/-!
# What is posted can be read: C73
-/

namespace Amqp.Rt
open Session Examples

/-! ## C73 -/

/-- **C73** A frame a session has posted, on whatever channel, is read back by the codec as it was posted: for sessions used
with values that are well formed, whatever else the peer does. -/
theorem c73_frame_read_back (s₀ : Session) (hf : Fresh s₀) (steps : List Step) (h : ∀ st ∈ steps, st.Fit) {s : Session}
    (hs : s = s₀.run steps) (hm : s.maxFrameSize ≠ 0) (hh : s.Honest) (f : Frame) (hl : .frame f ∈ s.log)
    (channel : UInt16) (max : Nat) (ha : admits max (AmqpFrame.encode ⟨channel, f⟩).length) (rest : Bytes) :
    codecDecode AmqpFrame.decode max .frameHeader (codecEncode AmqpFrame.encode ⟨channel, f⟩ [] ++ rest) =
      (.ready ⟨channel, f.asReceived⟩, .frameHeader, rest) := by
  subst hs
  exact c07_amqp_frame_read_back _ ((run_fit s₀ hf steps h hm hh f hl).wf channel) max ha rest

theorem Conn.Fits.read {c : Conn} (hf : c.Fits) (ho : c.ObjsOk) (hm : c.maxFrameSize ≠ 0) (hh : c.Honest) (max : Nat)
    (ha : ∀ f ∈ c.out, admits max f.encode.length) (chunks : List Bytes) (hc : chunks.flatten = c.bytes) :
    codecRead AmqpFrame.decode max chunks .frameHeader [] = (c.out.map AmqpFrame.asReceived, none) := by
  refine c07_amqp_stream c.out max (fun f hmem => ⟨?_, ha f hmem⟩) chunks hc
  obtain ⟨⟨ch, p⟩, hp, rfl⟩ := List.mem_map.1 hmem
  exact (hf.all ho hm hh hp).wf ch

/-- **C73** Everything a connection has posted, its own frames and those of all its sessions, received in any chunks, is
read back as it was posted, without error. -/
theorem c73_connection_read_back (cfg : ConnCfg) (steps : List CStep) (h : ∀ st ∈ steps, st.Fit) {c : Conn}
    (hc : c = (Conn.new cfg).run steps) (hm : c.maxFrameSize ≠ 0) (hh : c.Honest) (max : Nat)
    (ha : ∀ f ∈ c.out, admits max f.encode.length) (chunks : List Bytes) (hb : chunks.flatten = c.bytes) :
    codecRead AmqpFrame.decode max chunks .frameHeader [] = (c.out.map AmqpFrame.asReceived, none) := by
  subst hc
  exact (Conn.run_fits cfg steps h).read (Conn.Reachable.objsOk ⟨cfg, steps, rfl⟩) hm hh max ha chunks hb

/-- **C73** Transfers are within a limit above 2048; the limit is a matter of the other frames only.

Missing for the full property: the size of the other frames, which the code does not look at (`c73_attach_over_limit`), and
limits up to 2048 (`c24_small_limit_exceeded`). -/
theorem c73_within_limit_partial (cfg : ConnCfg) (steps : List CStep) (h : ∀ st ∈ steps, st.Fit) {c : Conn}
    (hc : c = (Conn.new cfg).run steps) (hm : c.maxFrameSize > 2048) (hh : c.Honest) (max : Nat)
    (hmax : max = 0 ∨ c.maxFrameSize.toNat ≤ max)
    (ha : ∀ f ∈ c.out, (∀ t, f.performative ≠ .transfer t) → admits max f.encode.length)
    (chunks : List Bytes) (hb : chunks.flatten = c.bytes) :
    codecRead AmqpFrame.decode max chunks .frameHeader [] = (c.out.map AmqpFrame.asReceived, none) := by
  have hm0 : c.maxFrameSize ≠ 0 := by rintro h; rw [h] at hm; exact absurd hm (by decide)
  refine c73_connection_read_back cfg steps h hc hm0 hh max (fun f hf => ?_) chunks hb
  by_cases ht : ∃ t, f.performative = .transfer t
  · obtain ⟨t, ht⟩ := ht
    rcases hmax with hmax | hmax
    · exact .inl hmax
    refine .inr (Nat.le_trans ?_ hmax)
    obtain ⟨⟨ch, p⟩, hp, rfl⟩ := List.mem_map.1 hf
    cases ht
    subst hc
    have hfit := Conn.run_fits cfg steps h
    rcases Conn.wire_mem hp with hl | ⟨s, hl⟩
    · exact absurd rfl ((hfit.own _ _ hl).2 t)
    · obtain ⟨x, hx, hl⟩ := hfit.said s _ hl
      have ho := Conn.Reachable.objsOk ⟨cfg, steps, rfl⟩ x (Conn.obj?_mem hx)
      have hx' := hh x (Conn.obj?_mem hx)
      have := c24_sent_frames_fit_partial x ho.1 (by rw [ho.2]; exact hm) (fun y hy => (hx' y hy).1)
        (fun y hy => (hx' y hy).2) ch t (List.mem_filterMap.mpr ⟨_, hl, rfl⟩)
      rw [ho.2] at this
      exact this
  · exact ha f hf fun t h => ht ⟨t, h⟩

/-- **C73** Between two connections of the library nothing need be assumed of what arrives: it is what the other side has
posted.  At every moment of every exchange, all the bytes the left connection has sent are read as the frames it posted, of
which the right connection has been given the first `toRight`; and the other way round. -/
theorem c73_two_connections {σ₀ : Net} (hf : σ₀.Fresh) (steps : List NStep) (h : ∀ st ∈ steps, st.Fit) {σ : Net}
    (hσ : σ = σ₀.run steps) (max : Nat) :
    (σ.left.maxFrameSize ≠ 0 → σ.left.Honest → (∀ f ∈ σ.left.out, admits max f.encode.length) → ∀ chunks : List Bytes,
      chunks.flatten = σ.left.bytes →
      codecRead AmqpFrame.decode max chunks .frameHeader [] = (σ.left.out.map AmqpFrame.asReceived, none)) ∧
    (σ.right.maxFrameSize ≠ 0 → σ.right.Honest → (∀ f ∈ σ.right.out, admits max f.encode.length) → ∀ chunks : List Bytes,
      chunks.flatten = σ.right.bytes →
      codecRead AmqpFrame.decode max chunks .frameHeader [] = (σ.right.out.map AmqpFrame.asReceived, none)) := by
  subst hσ
  obtain ⟨hl, hr⟩ := Net.run_fits hf steps h
  obtain ⟨kl, kr⟩ := (hf.inv steps).1
  exact ⟨fun hm hh ha chunks hb => hl.read kl.objsOk hm hh max ha chunks hb,
    fun hm hh ha chunks hb => hr.read kr.objsOk hm hh max ha chunks hb⟩

/-! ## Non-vacuity and the limit -/

theorem anAttach_fit {n : String} (hn : Amqp.Fit (text n)) (h : UInt32) (r : Role) : (anAttach n h r).Fit :=
  ⟨hn, fit_none, fit_none, fit_none, fit_none, fit_none, fit_none⟩

theorem a_fit : Amqp.Fit (text "a") := by
  refine ⟨⟨by decide +kernel, ?_⟩, ?_⟩
  · show (text "a").bytes.length < U32
    decide +kernel
  · have : (enc (text "a")).length = 3 := by decide +kernel
    omega

/-- The exchange of C70 is one of well-formed values. -/
theorem sendThrough_fit : ∀ st ∈ sendThrough, st.Fit := by
  have hp : (pass 0).Fit := ⟨fun _ h => h, fit_none⟩
  have ho : (CStep.openSession none none none).Fit := ⟨fit_none, fit_none, fit_none⟩
  intro st h
  simp only [sendThrough, openThree, List.cons_append, List.nil_append, List.mem_cons, List.not_mem_nil, or_false] at h
  rcases h with rfl | rfl | rfl | rfl | rfl | rfl | rfl | rfl | rfl | rfl | rfl | rfl | rfl | rfl | rfl | rfl | rfl | rfl <;>
    first | exact ho | exact hp | exact anAttach_fit a_fit _ _ | exact True.intro

theorem honest_of {l : List Session} (h : (l.all fun x => x.sends.all fun y => (match y.req.body with | .data _ => true | _ => false) &&
    (match y.req.tag with | some g => decide (g.length ≤ 1996) | none => true)) = true) : ∀ x ∈ l, x.Honest := by
  intro x hx y hy
  have := List.all_eq_true.1 (List.all_eq_true.1 h x hx) y hy
  rw [Bool.and_eq_true] at this
  constructor
  · cases hb : y.req.body with
    | data b => trivial
    | message m => rw [hb] at this; exact absurd this.1 (by simp)
  · intro g hg
    rw [hg] at this
    exact of_decide_eq_true this.2

/-- Non-vacuity: the left connection of that exchange has posted five frames, which are read from its bytes. -/
example : (aNet.run sendThrough).left.out.length = 5 ∧
    codecRead AmqpFrame.decode 65535 [(aNet.run sendThrough).left.bytes] .frameHeader [] =
      ((aNet.run sendThrough).left.out.map AmqpFrame.asReceived, none) := by
  refine ⟨by decide +kernel, ?_⟩
  refine (c73_two_connections aNet_fresh sendThrough sendThrough_fit rfl 65535).1 (by decide +kernel) ?_ ?_ _ (by simp)
  · exact honest_of (by decide +kernel)
  · have : ((aNet.run sendThrough).left.out.all fun f => decide (f.encode.length ≤ 65535)) = true := by decide +kernel
    exact fun f hf => .inr (of_decide_eq_true (List.all_eq_true.1 this f hf))

/-- An attach under a name of 600 bytes. -/
def longAttach : Attach := { anAttach "a" 0 .sender with name := ⟨List.replicate 600 0x61⟩ }

theorem longAttach_fit : longAttach.Fit := by
  refine ⟨⟨⟨by decide +kernel, ?_⟩, ?_⟩, fit_none, fit_none, fit_none, fit_none, fit_none, fit_none⟩
  · show longAttach.name.bytes.length < U32
    decide +kernel
  · have : (enc longAttach.name).length = 605 := by decide +kernel
    omega

/-- **C73** Violated: the size of frames other than transfers is not looked at.  With a peer that accepts frames of up to 512
bytes, a link is attached under a name of 600 bytes; the frame is longer and the peer refuses it. -/
theorem c73_attach_over_limit :
    ∃ (a : Attach) (f : Frame), a.Fit ∧ .frame f ∈ ((start 100 512).run [.attachSender a]).log ∧
      (AmqpFrame.encode ⟨0, f⟩).length > 512 ∧
      ∃ r, codecDecode AmqpFrame.decode 512 .frameHeader (codecEncode AmqpFrame.encode ⟨0, f⟩ []) = (.error .maxSizeExceeded, r) := by
  have hp : (posted ((start 100 512).run [.attachSender longAttach]).log)[0]?.isSome = true := by decide +kernel
  refine ⟨longAttach, ((posted ((start 100 512).run [.attachSender longAttach]).log)[0]?).getD .empty, longAttach_fit, ?_, ?_, ?_⟩
  · have := List.mem_of_getElem? (some_getD (a := Frame.empty) hp)
    obtain ⟨e, he, h⟩ := List.mem_filterMap.1 this
    cases e <;> cases h
    exact he
  · decide +kernel
  · generalize hb : codecEncode AmqpFrame.encode _ [] = b
    have h1 : ¬ b.length < 8 := by subst hb; decide +kernel
    have h2 : (512 ≠ 0 ∧ beNat (b.take 4) > 512) := by subst hb; decide +kernel
    unfold codecDecode
    dsimp only
    rw [if_neg h1, if_pos h2]
    exact ⟨_, rfl⟩

end Amqp.Rt
