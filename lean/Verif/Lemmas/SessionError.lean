import Verif.Lemmas.SessionRoute
/-!
# What sets a session's error

Only the failure of the connection and the peer's `End` do.  And what never changes: the session's channels and its frame
size.
-/

namespace Amqp.Rt
open Session

/-- The steps that end a session. -/
def Step.ends : Step → Bool
  | .fail _ | .endConfirmed _ | .peer (.end_ _) => true
  | _ => false

namespace Session

@[simp] theorem dropLink_error' (s : Session) (l : Link) : (s.dropLink l).error = s.error := by
  unfold dropLink; split <;> rfl

@[simp] theorem setLink_error' (s : Session) (k : Nat) (l : Link) : (s.setLink k l).error = s.error := by
  unfold setLink; split <;> simp

@[simp] theorem removeLink_error' (s : Session) (k : Nat) : (s.removeLink k).error = s.error := by
  unfold removeLink; split <;> simp

@[simp] theorem detachSender_error' (s : Session) (id c e) : (s.detachSender id c e).error = s.error := by
  unfold detachSender; dsimp only; split <;> simp

@[simp] theorem closeSender_error' (s : Session) (r e) : (s.closeSender r e).error = s.error := by
  unfold closeSender; split
  · split <;> simp
  · rfl

@[simp] theorem detachReceiver_error' (s : Session) (id c e) : (s.detachReceiver id c e).error = s.error := by
  unfold detachReceiver; dsimp only; split
  · split <;> simp
  all_goals simp

@[simp] theorem closeReceiver_error' (s : Session) (r e) : (s.closeReceiver r e).error = s.error := by
  unfold closeReceiver; split
  · dsimp only; split <;> simp
  · rfl

@[simp] theorem checkAdd_error' (s : Session) (a b) : (s.checkAdd a b).error = s.error := by
  unfold checkAdd; split <;> simp

@[simp] theorem rcvLinkFlow_error' (s : Session) (a b c) : (s.rcvLinkFlow a b c).error = s.error := rfl

@[simp] theorem setLinkCredit_error' (s : Session) (r n) : (s.setLinkCredit r n).error = s.error := by
  unfold setLinkCredit; split <;> simp

@[simp] theorem handleFlow_error' (s : Session) (f l) : (s.handleFlow f l).error = s.error := by
  unfold handleFlow; dsimp only; split <;> split <;> simp

@[simp] theorem windowLoop_error' (s : Session) (t req tag) : (s.windowLoop t req tag).error = s.error := by
  unfold windowLoop; split
  · dsimp only; split <;> simp
  · rfl

@[simp] theorem creditLoop_error' (s : Session) (t req tag) : (s.creditLoop t req tag).error = s.error := by
  unfold creditLoop; split
  · split <;> simp
  · rfl

theorem sendStart_error' (s : Session) (req) : (s.sendStart req).error = s.error := by
  unfold sendStart; split
  · dsimp only; split
    · rfl
    · split
      · rfl
      · split
        · split
          · rfl
          · unfold sendStart.go; split <;> simp
        · unfold sendStart.go; split <;> simp
  · rfl

theorem sendResume_error' (s : Session) (t) : (s.sendResume t).error = s.error := by
  unfold sendResume; split
  · split <;> simp
  · split <;> simp
  · rfl

theorem onComplete_error' (s : Session) (g e t) : (s.onComplete g e t).error = s.error := by
  unfold onComplete
  split
  · split <;> simp
  · split
    · simp
    · unfold confirmReceiver; split
      · split <;> simp
      · simp
  · split
    · unfold refuseSender; split <;> simp
    · unfold confirmSender registerSender; split
      · dsimp only; split <;> simp
      · rfl
  all_goals first | rfl | (split <;> simp)

@[simp] theorem countDelivery_error' (s : Session) (r l) : (s.countDelivery r l).error = s.error := by
  unfold countDelivery; simp

@[simp] theorem charge_error' (s : Session) (r t) : (s.charge r t).error = s.error := by
  unfold charge; split <;> simp

theorem handleTransfer_error' (s : Session) (r t) : (s.handleTransfer r t).1.error = s.error := by
  unfold handleTransfer; split
  · rfl
  · split
    · simp
    · split
      · unfold continueTransfer
        split
        · simp
        · split
          · simp
          · dsimp only; split
            · simp
            · split <;> simp
      · unfold beginTransfer
        split
        · split <;> simp
        · simp

theorem handleAttach_error' (s : Session) (a) : (s.handleAttach a).1.error = s.error := by
  unfold handleAttach; split
  · split
    · dsimp only; split <;> rfl
    · rfl
    · rfl
  · rfl

theorem handleDetach_error' (s : Session) (f) : (s.handleDetach f).1.error = s.error := by
  unfold handleDetach detachEstablishedSender detachEstablishedReceiver failPending
  dsimp only
  generalize (match s.remoteHandles.get f.handle with
    | some idx => some idx
    | none => if s.links.contains f.handle.toNat then some f.handle.toNat else none) = idx
  (repeat' split) <;> simp [forget]

theorem settleDeliveries_error' (s : Session) (d) : (s.settleDeliveries d).error = s.error := by
  unfold settleDeliveries; dsimp only; split
  · exact foldl_field Session.error (f := disposeOne _ d) (fun _ _ => by simp) _ s
  · simp

theorem enqueue_error' (s : Session) (a) : (s.enqueue a).error = s.error := by
  unfold enqueue; split <;> rfl

theorem handleFrame_error' (s : Session) (f) : (s.handleFrame f).1.error = s.error := by
  unfold handleFrame; split
  · rfl
  · split
    · split <;> simp
    · exact settleDeliveries_error' s _
    · split
      · rfl
      · split <;> first | rfl | exact handleTransfer_error' s _ _
    · exact handleDetach_error' s _
    · rfl

theorem finishFrame_error' (p : Session × Except PErr Action) : (finishFrame p).error = p.1.error := by
  unfold finishFrame; split
  · exact enqueue_error' _ _
  · rfl

theorem step_error (s : Session) (st : Step) (h : st.ends = false) : (s.step st).error = s.error := by
  cases st <;> unfold step
  case peer f =>
    unfold onPeer
    cases f
    case attach a =>
      dsimp only
      split
      · rfl
      · unfold onAttach
        have := handleAttach_error' (s.note (.peer (.attach a))) a
        cases hx : (s.note (.peer (.attach a))).handleAttach a with
        | mk s' b =>
        rw [hx] at this
        cases b
        · dsimp only
          split <;> (rw [enqueue_error']; exact this)
        · dsimp only
          rw [enqueue_error']; exact this
    case end_ e => simp [Step.ends] at h
    all_goals exact (finishFrame_error' _).trans (handleFrame_error' _ _)
  case endConfirmed => simp [Step.ends] at h
  case fail => simp [Step.ends] at h
  case complete i g e =>
    dsimp only
    split
    · exact onComplete_error' s _ _ _
    · rfl
  case attachSender => rfl
  case attachReceiver => rfl
  case send => exact sendStart_error' s _
  case resumeSend => exact sendResume_error' s _
  case recv r =>
    dsimp only
    unfold pollRecv; (repeat' split) <;> simp
  case take r => dsimp only; unfold getDelivery; (repeat' split) <;> simp
  case endSession => dsimp only; unfold endLocal; (repeat' split) <;> simp
  all_goals dsimp only
  all_goals first | rfl | (split <;> simp; done) | simp

end Session

/-- What is fixed when the session is made. -/
theorem Micro.fixed {s s' : Session} (h : Micro s s') :
    s'.id = s.id ∧ s'.remoteChannelId = s.remoteChannelId ∧ s'.maxFrameSize = s.maxFrameSize ∧ s'.isLocal = s.isLocal := by
  cases h <;> first | exact ⟨rfl, rfl, rfl, rfl⟩ | simp

theorem Session.step_fixed (s : Session) (st : Step) :
    (s.step st).id = s.id ∧ (s.step st).remoteChannelId = s.remoteChannelId ∧
      (s.step st).maxFrameSize = s.maxFrameSize ∧ (s.step st).isLocal = s.isLocal :=
  (step_micros s st).invariant
    (P := fun x => x.id = s.id ∧ x.remoteChannelId = s.remoteChannelId ∧ x.maxFrameSize = s.maxFrameSize ∧
      x.isLocal = s.isLocal)
    (fun a b m h => by obtain ⟨h1, h2, h3, h4⟩ := m.fixed; rw [h1, h2, h3, h4]; exact h) ⟨rfl, rfl, rfl, rfl⟩

theorem Session.step_log (s : Session) (st : Step) : ∃ evs, (s.step st).log = s.log ++ evs :=
  (step_micros s st).invariant (P := fun x => ∃ evs, x.log = s.log ++ evs)
    (fun a b m ⟨e, h⟩ => by obtain ⟨e', h'⟩ := m.log_grows; exact ⟨e ++ e', by rw [h', h, List.append_assoc]⟩)
    ⟨[], by simp⟩

end Amqp.Rt
