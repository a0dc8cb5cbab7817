import Verif.Lemmas.Stream
import Verif.Props.Net
import Verif.Props.Posted
/-!
# Two connections of the library connected by bytes: C75
-/

namespace Amqp.Rt
open Session Examples

/-! ## C75 -/

/-- **C75** Two connections connected by bytes, carried over in pieces of any size and read at any time, behave as two
connections between which whole frames go: some exchange of frames leads to the same two connections. -/
theorem c75_refines {β₀ : BNet} (hf : β₀.Fresh) (steps : List BStep) (h : ∀ st ∈ steps, st.Fit) {β : BNet}
    (hβ : β = β₀.run steps) (hl : β.Legible) :
    ∃ ns k k', (∀ st ∈ ns, NStep.Fit st) ∧ β₀.frames.run ns = ⟨β.left, β.right, k, k'⟩ := by
  subst hβ
  obtain ⟨ns, hn, ht⟩ := hf.tracks steps h hl
  refine ⟨ns, (β₀.frames.run ns).toRight, (β₀.frames.run ns).toLeft, hn, ?_⟩
  rw [← ht.left, ← ht.right]

/-- **C75** Neither codec ever fails. -/
theorem c75_no_error {β₀ : BNet} (hf : β₀.Fresh) (steps : List BStep) (h : ∀ st ∈ steps, st.Fit) {β : BNet}
    (hβ : β = β₀.run steps) (hl : β.Legible) : β.atRight.failed = none ∧ β.atLeft.failed = none := by
  subst hβ
  obtain ⟨_, _, ht⟩ := hf.tracks steps h hl
  exact ⟨ht.toRight.fine, ht.toLeft.fine⟩

/-- **C75** When all bytes have been carried over and neither codec has another frame, every frame has arrived. -/
theorem c75_all_arrived {β₀ : BNet} (hf : β₀.Fresh) (steps : List BStep) (h : ∀ st ∈ steps, st.Fit) {β : BNet}
    (hβ : β = β₀.run steps) (hl : β.Legible) (hd : β.Drained) :
    ∃ ns, (∀ st ∈ ns, NStep.Fit st) ∧ β₀.frames.run ns = ⟨β.left, β.right, β.left.wire.length, β.right.wire.length⟩ := by
  subst hβ
  obtain ⟨ns, hn, ht⟩ := hf.tracks steps h hl
  obtain ⟨kl, kr⟩ := hf.reachable steps
  obtain ⟨fl, fr⟩ := Net.run_fits hf.frames ns hn
  rw [ht.left] at fl
  rw [ht.right] at fr
  have hlen : ∀ c : Conn, c.out.length = c.wire.length := fun c => List.length_map _
  have e1 : (β₀.frames.run ns).toRight = (β₀.run steps).left.wire.length := by
    rcases ht.toRight.decode (hl.1.frames fl kl.objsOk) with ⟨_, _, _, _, ha⟩ | ⟨f, buf, _, he, _⟩
    · exact (ha (hd.toRight.trans (congrArg _ (Conn.bytes_eq _)))).trans (hlen _)
    · have := hd.atRight; rw [he] at this; cases this
  have e2 : (β₀.frames.run ns).toLeft = (β₀.run steps).right.wire.length := by
    rcases ht.toLeft.decode (hl.2.frames fr kr.objsOk) with ⟨_, _, _, _, ha⟩ | ⟨f, buf, _, he, _⟩
    · exact (ha (hd.toLeft.trans (congrArg _ (Conn.bytes_eq _)))).trans (hlen _)
    · have := hd.atLeft; rw [he] at this; cases this
  refine ⟨ns, hn, ?_⟩
  rw [← e1, ← e2, ← ht.left, ← ht.right]

/-- **C75** So what holds of connections that exchange frames holds of connections that exchange bytes.  No frame is refused
on either side. -/
theorem c75_no_refusal {β₀ : BNet} (hf : β₀.Fresh) (steps : List BStep) (h : ∀ st ∈ steps, st.Fit) {β : BNet}
    (hβ : β = β₀.run steps) (hl : β.Legible) (hu : β.frames.Undisturbed) (e : PErr) :
    CEv.refused e ∉ β.left.log ∧ CEv.refused e ∉ β.right.log := by
  obtain ⟨ns, k, k', _, hn⟩ := c75_refines hf steps h hβ hl
  exact c70_no_refusal (σ := ⟨β.left, β.right, k, k'⟩) hf.frames ns hn.symm
    ⟨hu.1, hu.2, hu.3, hu.4, hu.5, hu.6⟩ e

/-- **C75** The messages an application takes from a receiver link are those sent on the sender link at the other end, in that
order, however the bytes are cut up on the way. -/
theorem c75_messages_in_order {β₀ : BNet} (hf : β₀.Fresh) (steps : List BStep) (h : ∀ st ∈ steps, st.Fit) {β : BNet}
    (hβ : β = β₀.run steps) (hl : β.Legible) (hu : β.frames.Undisturbed)
    {i j : Ref} {x y : Session} (hx : β.left.obj? i = some x) (hy : β.right.obj? j = some y)
    (hj : Joined x y) {ra rb : Ref} {hdl : UInt32} (hr : SoleSender x hdl ra)
    (ht : receivedOn rb y.log <+: transfersOn hdl (arrived y.log)) :
    (handedOn rb y.log).length ≤ (sentOn ra x).length ∧
    ∀ (k : Nat) d t, (handedOn rb y.log)[k]? = some (d, t) → ∃ q, (sentOn ra x)[k]? = some q ∧ SameMessage q t.asArrival := by
  obtain ⟨ns, k, k', _, hn⟩ := c75_refines hf steps h hβ hl
  exact c70_messages_in_order (σ := ⟨β.left, β.right, k, k'⟩) hf.frames ns hn.symm
    ⟨hu.1, hu.2, hu.3, hu.4, hu.5, hu.6⟩ hx hy hj hr (fun q hq => (hl.1.honest x (Conn.obj?_mem hx) q hq).1) ht

/-- **C75** When all bytes have been carried over and read, all messages sent are there to be taken. -/
theorem c75_nothing_missing {β₀ : BNet} (hf : β₀.Fresh) (steps : List BStep) (h : ∀ st ∈ steps, st.Fit) {β : BNet}
    (hβ : β = β₀.run steps) (hl : β.Legible) (hu : β.frames.Undisturbed) (hd : β.Drained)
    {i j : Ref} {x y : Session} (hx : β.left.obj? i = some x) (hy : β.right.obj? j = some y)
    (hj : Joined x y) {ra rb : Ref} {hdl : UInt32} (hr : SoleSender x hdl ra)
    (ht : receivedOn rb y.log = transfersOn hdl (arrived y.log)) :
    (assemble (receivedOn rb y.log)).open_ = none ∧
    (assemble (receivedOn rb y.log)).done.length = (sentOn ra x).length ∧
    ∀ (k : Nat) q a, (sentOn ra x)[k]? = some q → (assemble (receivedOn rb y.log)).done[k]? = some a → SameMessage q a := by
  obtain ⟨ns, _, hn⟩ := c75_all_arrived hf steps h hβ hl hd
  exact c70_nothing_missing (σ := ⟨β.left, β.right, _, _⟩) hf.frames ns hn.symm
    ⟨hu.1, hu.2, hu.3, hu.4, hu.5, hu.6⟩ hx hy hj hr (fun q hq => (hl.1.honest x (Conn.obj?_mem hx) q hq).1) ht rfl

/-! ## Non-vacuity -/

/-- The two connections of `aNet`, connected by bytes. -/
def aBNet : BNet := ⟨Conn.new aCfg, Conn.new aCfg, 0, 0, { max := 65535 }, { max := 65535 }⟩

theorem aBNet_fresh : aBNet.Fresh := ⟨aCfg, aCfg, 65535, 65535, rfl⟩

/-- Every frame is carried over in three pieces, the first of which ends inside the frame header, and the codec is asked
after each. -/
def inPieces : NStep → List BStep
  | .left st => [.left st]
  | .right st => [.right st]
  | .arriveRight => [.carryRight 3, .readRight, .carryRight 9, .readRight, .carryRight 1000, .readRight]
  | .arriveLeft => [.carryLeft 3, .readLeft, .carryLeft 9, .readLeft, .carryLeft 1000, .readLeft]

/-- The exchange of C70 in bytes. -/
def sendBytes : List BStep := sendThrough.flatMap inPieces

theorem sendBytes_fit : ∀ st ∈ sendBytes, st.Fit := by
  intro st hm
  obtain ⟨a, ha, hm⟩ := List.mem_flatMap.1 hm
  have hf := sendThrough_fit a ha
  cases a
  case left a => cases List.mem_singleton.1 hm; exact hf
  case right a => cases List.mem_singleton.1 hm; exact hf
  all_goals
    simp only [inPieces, List.mem_cons, List.not_mem_nil, or_false] at hm
    rcases hm with rfl | rfl | rfl | rfl | rfl | rfl <;> exact True.intro

theorem legible_of {c : Conn} {max : Nat} (h : ∀ x ∈ c.objs, x.Honest) (hm : c.maxFrameSize ≠ 0)
    (hs : (c.out.all fun f => decide (f.encode.length ≤ max)) = true) : c.Legible max :=
  ⟨h, hm, fun f hf => .inr (of_decide_eq_true (List.all_eq_true.1 hs f hf))⟩

theorem sendBytes_legible : (aBNet.run sendBytes).Legible := by
  have hm : (aBNet.run sendBytes).atRight.max = 65535 ∧ (aBNet.run sendBytes).atLeft.max = 65535 := by decide +kernel
  unfold BNet.Legible
  rw [hm.1, hm.2]
  exact ⟨legible_of (honest_of (by decide +kernel)) (by decide +kernel) (by decide +kernel),
    legible_of (honest_of (by decide +kernel)) (by decide +kernel) (by decide +kernel)⟩

theorem sendBytes_undisturbed : (aBNet.run sendBytes).frames.Undisturbed where
  leftError := by decide +kernel
  rightError := by decide +kernel
  leftEnd := no_end (by decide +kernel)
  rightEnd := no_end (by decide +kernel)
  leftFew := by decide +kernel
  rightFew := by decide +kernel

theorem pending_of {p : Poll AmqpFrame CodecError} (h : (match p with | .pending => true | _ => false) = true) : p = .pending := by
  cases p <;> first | rfl | cases h

theorem sendBytes_drained : (aBNet.run sendBytes).Drained where
  toRight := by decide +kernel
  toLeft := by decide +kernel
  atRight := pending_of (by decide +kernel)
  atLeft := pending_of (by decide +kernel)

/-- The sessions the message goes between are joined, and it has arrived. -/
example : (aBNet.run sendBytes).left.bytes.length > 100 ∧
    ((aBNet.run sendBytes).left.obj? 0).map (fun x => (sentOn 0 x).map (·.body.tenc)) = some [[7]] ∧
    ((aBNet.run sendBytes).right.obj? 0).map (fun y => (assemble (receivedOn 0 y.log)).done.length) = some 1 := by
  decide +kernel

end Amqp.Rt
