import Verif.Lemmas.NetStep
import Verif.Props.Pair
import Verif.Props.ConnectionWitnesses
/-!
# Two connections of the library connected to each other: C70
-/

namespace Amqp.Rt
open Session Examples

/-! ## A concrete exchange -/

def aNet : Net := ⟨Conn.new aCfg, Conn.new aCfg, 0, 0⟩

theorem aNet_fresh : aNet.Fresh := ⟨aCfg, aCfg, rfl⟩

/-- The left application opens two sessions and the right one another; all is answered. -/
def openThree : List NStep := [.left (.openSession none none none), .left (.openSession none none none),
  .arriveRight, .right (.openSession none none none), .arriveRight, .arriveLeft, .arriveLeft, .arriveLeft, .arriveRight]

/-- On the first session the right application attaches a receiver link and grants, and a message goes over it. -/
def sendThrough : List NStep := openThree ++ [.right (.local 0 (.attachReceiver (anAttach "a" 0 .receiver))), .arriveLeft,
  .left (.local 0 (pass 0)), .arriveRight, .right (.local 0 (.grant 0 1)), .arriveLeft, .left (.local 0 (pass 0)),
  .left (.local 0 (.send (aSend 0 [7] true))), .arriveRight]

/-! ## C70 -/

/-- **C70** Two sessions joined to each other by two connections behave as a pair of sessions whose frames go straight from
one to the other: there is a run of such a pair that leads to the same two sessions, with as many frames arrived. -/
theorem c70_refines {σ₀ : Net} (hf : σ₀.Fresh) (steps : List NStep) {σ : Net} (hσ : σ = σ₀.run steps) (hu : σ.Undisturbed)
    {i j : Ref} {x y : Session} (hx : σ.left.obj? i = some x) (hy : σ.right.obj? j = some y) (hj : Joined x y) :
    ∃ (π₀ : Pair) (ps : List PStep), π₀.Fresh ∧ π₀.run ps =
      ⟨x, y, framesOn σ.left σ.toRight (UInt16.ofNat x.id), framesOn σ.right σ.toLeft (UInt16.ofNat y.id)⟩ := by
  subst hσ
  have h := (hf.inv steps).2 hu
  rw [framesOn_eq h.left, framesOn_eq h.right]
  exact h.pair i j x y hx hy hj

/-- **C70** A session on the right is joined to a session on the left, unless the peer's application opened it and the answer
is still on its way. -/
theorem c70_partner {σ₀ : Net} (hf : σ₀.Fresh) (steps : List NStep) {σ : Net} (hσ : σ = σ₀.run steps) (hu : σ.Undisturbed)
    {j : Ref} {y : Session} (hy : σ.right.obj? j = some y) :
    (∃ i x, σ.left.obj? i = some x ∧ Joined x y) ∨
    (y.isLocal = false ∧ (∃ op, σ.left.sessions.get y.remoteChannelId.toNat = some (.opening op)) ∧
      ∀ i x, σ.left.obj? i = some x → x.remoteChannelId ≠ UInt16.ofNat y.id) := by
  subst hσ
  exact ((hf.inv steps).2 hu).partner hy

/-- **C70** It is joined to no other, and no session that is not joined to it uses its channel. -/
theorem c70_one_partner {σ₀ : Net} (hf : σ₀.Fresh) (steps : List NStep) {σ : Net} (hσ : σ = σ₀.run steps) (hu : σ.Undisturbed)
    {i i' j : Ref} {x x' y : Session} (hx : σ.left.obj? i = some x) (hx' : σ.left.obj? i' = some x')
    (hy : σ.right.obj? j = some y) (hj : Joined x y)
    (hj' : x'.remoteChannelId = UInt16.ofNat y.id ∨ y.remoteChannelId = UInt16.ofNat x'.id) : i = i' := by
  subst hσ
  have h := (hf.inv steps).2 hu
  have hj'' : Joined x' y := by
    rcases hj' with hj' | hj'
    · exact (fun q : Joined y x' => ⟨q.2, q.1⟩) (h.swap.joined hy hx' hj')
    · exact h.joined hx' hy hj'
  exact h.left.uniq hx hx' (hj.2.symm.trans hj''.2)

/-- **C70** No frame is refused, on either side. -/
theorem c70_no_refusal {σ₀ : Net} (hf : σ₀.Fresh) (steps : List NStep) {σ : Net} (hσ : σ = σ₀.run steps) (hu : σ.Undisturbed)
    (e : PErr) : CEv.refused e ∉ σ.left.log ∧ CEv.refused e ∉ σ.right.log := by
  subst hσ
  have h := (hf.inv steps).2 hu
  exact ⟨h.left.refused e, h.right.refused e⟩

/-- **C70** When every frame has arrived every session either application opened is there on both sides: no slot waits for an
answer, and every session is joined to one. -/
theorem c70_answered {σ₀ : Net} (hf : σ₀.Fresh) (steps : List NStep) {σ : Net} (hσ : σ = σ₀.run steps) (hu : σ.Undisturbed)
    (hl : σ.toRight = σ.left.wire.length) (hr : σ.toLeft = σ.right.wire.length) :
    (∀ k op, σ.left.sessions.get k ≠ some (.opening op) ∧ σ.right.sessions.get k ≠ some (.opening op)) ∧
    (∀ j y, σ.right.obj? j = some y → ∃ i x, σ.left.obj? i = some x ∧ Joined x y) ∧
    (∀ i x, σ.left.obj? i = some x → ∃ j y, σ.right.obj? j = some y ∧ Joined x y) := by
  subst hσ
  have h := (hf.inv steps).2 hu
  rw [hl, hr] at h
  refine ⟨fun k op => ⟨h.answered k op, h.swap.answered k op⟩, fun j y hy => ?_, fun i x hx => ?_⟩
  · rcases h.partner hy with h' | ⟨_, ⟨op, ho⟩, _⟩
    · exact h'
    · exact absurd ho (h.answered _ op)
  · rcases h.swap.partner hx with ⟨j, y, hy, hj⟩ | ⟨_, ⟨op, ho⟩, _⟩
    · exact ⟨j, y, hy, hj.2, hj.1⟩
    · exact absurd ho (h.swap.answered _ op)

/-- **C70** A session is given the frames of the session it is joined to, in the order they were posted, and none of another's. -/
theorem c70_frames_in_order {σ₀ : Net} (hf : σ₀.Fresh) (steps : List NStep) {σ : Net} (hσ : σ = σ₀.run steps)
    (hu : σ.Undisturbed) {i j : Ref} {x y : Session} (hx : σ.left.obj? i = some x) (hy : σ.right.obj? j = some y)
    (hj : Joined x y) :
    arrived y.log <+: (posted x.log).map Frame.asReceived ∧ arrived x.log <+: (posted y.log).map Frame.asReceived := by
  obtain ⟨π₀, ps, h0, hr⟩ := c70_refines hf steps hσ hu hx hy hj
  have := c62_frames_in_order h0 ps
  rw [hr] at this
  exact this

/-- **C70** The messages an application takes from a receiver link are those sent on the sender link at the other end, in that
order, whatever else goes over the two connections. -/
theorem c70_messages_in_order {σ₀ : Net} (hf : σ₀.Fresh) (steps : List NStep) {σ : Net} (hσ : σ = σ₀.run steps)
    (hu : σ.Undisturbed) {i j : Ref} {x y : Session} (hx : σ.left.obj? i = some x) (hy : σ.right.obj? j = some y)
    (hj : Joined x y) {ra rb : Ref} {h : UInt32} (hr : SoleSender x h ra) (hc : ∀ q ∈ x.sends, q.req.body.coherent)
    (ht : receivedOn rb y.log <+: transfersOn h (arrived y.log)) :
    (handedOn rb y.log).length ≤ (sentOn ra x).length ∧
    ∀ (k : Nat) d t, (handedOn rb y.log)[k]? = some (d, t) → ∃ q, (sentOn ra x)[k]? = some q ∧ SameMessage q t.asArrival := by
  obtain ⟨π₀, ps, h0, hp⟩ := c70_refines hf steps hσ hu hx hy hj
  exact c62_messages_in_order h0 ps hp.symm hr hc ht

/-- **C70** When all frames of the left connection have arrived, all messages sent are there to be taken. -/
theorem c70_nothing_missing {σ₀ : Net} (hf : σ₀.Fresh) (steps : List NStep) {σ : Net} (hσ : σ = σ₀.run steps)
    (hu : σ.Undisturbed) {i j : Ref} {x y : Session} (hx : σ.left.obj? i = some x) (hy : σ.right.obj? j = some y)
    (hj : Joined x y) {ra rb : Ref} {h : UInt32} (hr : SoleSender x h ra) (hc : ∀ q ∈ x.sends, q.req.body.coherent)
    (ht : receivedOn rb y.log = transfersOn h (arrived y.log)) (hall : σ.toRight = σ.left.wire.length) :
    (assemble (receivedOn rb y.log)).open_ = none ∧
    (assemble (receivedOn rb y.log)).done.length = (sentOn ra x).length ∧
    ∀ (k : Nat) q a, (sentOn ra x)[k]? = some q → (assemble (receivedOn rb y.log)).done[k]? = some a → SameMessage q a := by
  obtain ⟨π₀, ps, h0, hp⟩ := c70_refines hf steps hσ hu hx hy hj
  subst hσ
  have hi := (hf.inv steps).2 hu
  refine c62_nothing_missing h0 ps hp.symm hr hc ht (hi.right.calm _ _ hy).1 ?_
  show framesOn _ _ _ = (posted x.log).length
  rw [framesOn_eq hi.left, hall]
  unfold seen
  rw [List.take_length]
  obtain ⟨b, _, hb⟩ := hi.left.est i x hx
  rw [hb]; rfl

/-! The exchange above is undisturbed, its sessions are joined, and the message arrives. -/

theorem no_end {w : List (UInt16 × Frame)} (h : (w.all fun p => match p.2 with | .end_ _ => false | _ => true) = true) :
    ∀ ch e, (ch, Frame.end_ e) ∉ w := fun _ _ hm => Bool.false_ne_true (List.all_eq_true.1 h _ hm)

theorem aNet_undisturbed : (aNet.run sendThrough).Undisturbed where
  leftError := by decide +kernel
  rightError := by decide +kernel
  leftEnd := no_end (by decide +kernel)
  rightEnd := no_end (by decide +kernel)
  leftFew := by decide +kernel
  rightFew := by decide +kernel

example : (aNet.run sendThrough).left.objs.map (fun x => (x.id, x.remoteChannelId, x.isLocal)) =
      [(0, 0, true), (2, 1, false), (1, 2, true)] ∧
    (aNet.run sendThrough).right.objs.map (fun y => (y.id, y.remoteChannelId, y.isLocal)) =
      [(0, 0, false), (2, 1, false), (1, 2, true)] ∧
    (aNet.run sendThrough).toRight = (aNet.run sendThrough).left.wire.length ∧
    (aNet.run sendThrough).toLeft = (aNet.run sendThrough).right.wire.length := by decide +kernel

/-- The sessions the message goes between. -/
def leftOne : Session := ((aNet.run sendThrough).left.obj? 0).getD (start 100)
def rightOne : Session := ((aNet.run sendThrough).right.obj? 0).getD (start 100)

theorem some_getD {o : Option α} {a : α} (h : o.isSome = true) : o = some (o.getD a) := by
  cases o with
  | none => cases h
  | some b => rfl

theorem sole_of {s : Session} {k : UInt32} (h : s.snds.map (fun l => UInt32.ofNat l.id) = [k]) : SoleSender s k 0 := by
  obtain ⟨l, hl, hk⟩ := List.map_eq_singleton_iff.1 h
  exact sole_one hl hk

theorem coherent_of {l : List SendReq} (h : (l.all fun q => match q.body with | .data _ => true | _ => false) = true) :
    ∀ q ∈ l, q.body.coherent := by
  intro q hq
  have := List.all_eq_true.1 h q hq
  cases hb : q.body with
  | data b => trivial
  | message m => rw [hb] at this; cases this

example : (aNet.run sendThrough).left.obj? 0 = some leftOne ∧ (aNet.run sendThrough).right.obj? 0 = some rightOne ∧
    Joined leftOne rightOne ∧ SoleSender leftOne 0 0 ∧ (∀ q ∈ leftOne.sends.map (·.req), q.body.coherent) ∧
    (receivedOn 0 rightOne.log).map (·.tenc) = (transfersOn 0 (arrived rightOne.log)).map (·.tenc) ∧
    (sentOn 0 leftOne).map (·.body.tenc) = [[7]] ∧ (assemble (receivedOn 0 rightOne.log)).done.length = 1 :=
  ⟨some_getD (by decide +kernel), some_getD (by decide +kernel), ⟨by decide +kernel, by decide +kernel⟩,
    sole_of (by decide +kernel), coherent_of (by decide +kernel), by decide +kernel, by decide +kernel, by decide +kernel⟩

/-- While the answer is on its way. -/
example : ((aNet.run (openThree.take 3)).right.obj? 0).map (·.remoteChannelId) = some 0 ∧
    ((aNet.run (openThree.take 3)).left.sessions.get 0).map (fun | .opening op => some op | _ => none) = some (some 0) ∧
    (aNet.run (openThree.take 3)).left.objs.length = 0 := by decide +kernel

end Amqp.Rt
