import Verif.Lemmas.SessionLife
import Verif.Spec.Posted
/-!
# The frames of a session other than transfers
-/

namespace Amqp.Rt

/-- The frame an event sends, if it is not a transfer. -/
def Ev.talk? : Ev → Option Frame
  | .frame (.transfer _) => none
  | .frame f => some f
  | _ => none

def Session.talk (s : Session) : List Frame := s.log.filterMap Ev.talk?

namespace Session

theorem talk_congr {s s' : Session} (h : s.log = s'.log) : s.talk = s'.talk := by simp [talk, h]

theorem talk_append {s s' : Session} {l : List Ev} (h : s'.log = s.log ++ l) (hl : ∀ e ∈ l, e.talk? = none) :
    s'.talk = s.talk := by
  unfold talk
  have : l.filterMap Ev.talk? = [] := List.filterMap_eq_nil_iff.mpr hl
  rw [h, List.filterMap_append, this, List.append_nil]

theorem note_talk {s : Session} {e : Ev} (h : e.talk? = none) : (s.note e).talk = s.talk :=
  talk_append (l := [e]) rfl (by simpa using h)

@[simp] theorem post_attach_talk (s : Session) (a : Attach) : (s.post (.attach a)).talk = s.talk ++ [.attach a] := by
  simp [talk, post, note, Ev.talk?]
@[simp] theorem post_detach_talk (s : Session) (a : Detach) : (s.post (.detach a)).talk = s.talk ++ [.detach a] := by
  simp [talk, post, note, Ev.talk?]
@[simp] theorem post_flow_talk (s : Session) (a) : (s.post (.flow a)).talk = s.talk ++ [.flow a] := by
  simp [talk, post, note, Ev.talk?]
@[simp] theorem post_end_talk (s : Session) (a) : (s.post (.end_ a)).talk = s.talk ++ [.end_ a] := by
  simp [talk, post, note, Ev.talk?]

@[simp] theorem modSnd_talk (s : Session) (r f) : (s.modSnd r f).talk = s.talk := rfl
@[simp] theorem modRcv_talk (s : Session) (r f) : (s.modRcv r f).talk = s.talk := rfl
@[simp] theorem modSend_talk (s : Session) (r f) : (s.modSend r f).talk = s.talk := rfl
@[simp] theorem modWait_talk (s : Session) (r f) : (s.modWait r f).talk = s.talk := rfl
@[simp] theorem newOp_talk (s : Session) : s.newOp.talk = s.talk := rfl
@[simp] theorem insertLink_talk (s : Session) (l) : (s.insertLink l).talk = s.talk := rfl
@[simp] theorem note_panic_talk (s : Session) : (s.note .panic).talk = s.talk := note_talk rfl
@[simp] theorem note_overflow_talk (s : Session) : (s.note .overflow).talk = s.talk := note_talk rfl
@[simp] theorem note_attached_talk (s : Session) (op l) : (s.note (.attached op l)).talk = s.talk := note_talk rfl
@[simp] theorem note_attachFailed_talk (s : Session) (op e) : (s.note (.attachFailed op e)).talk = s.talk := note_talk rfl
@[simp] theorem note_detached_talk (s : Session) (op e) : (s.note (.detached op e)).talk = s.talk := note_talk rfl
@[simp] theorem note_opDropped_talk (s : Session) (op) : (s.note (.opDropped op)).talk = s.talk := note_talk rfl
@[simp] theorem note_refused_talk (s : Session) (e) : (s.note (.refused e)).talk = s.talk := note_talk rfl
@[simp] theorem note_peer_talk (s : Session) (f) : (s.note (.peer f)).talk = s.talk := note_talk rfl
@[simp] theorem note_control_talk (s : Session) (f) : (s.note (.control f)).talk = s.talk := note_talk rfl
@[simp] theorem note_closeSession_talk (s : Session) (f) : (s.note (.closeSession f)).talk = s.talk := note_talk rfl
@[simp] theorem note_granted_talk (s : Session) (r n) : (s.note (.granted r n)).talk = s.talk := note_talk rfl
@[simp] theorem note_windowed_talk (s : Session) (f) : (s.note (.windowed f)).talk = s.talk := note_talk rfl

@[simp] theorem note_received_talk (s : Session) (r t) : (s.note (.received r t)).talk = s.talk := note_talk rfl
@[simp] theorem note_declined_talk (s : Session) (r t) : (s.note (.declined r t)).talk = s.talk := note_talk rfl
@[simp] theorem note_handed_talk (s : Session) (r d t) : (s.note (.handed r d t)).talk = s.talk := note_talk rfl

theorem foldl_talk {α : Type} {f : Session → α → Session} (h : ∀ s a, (f s a).talk = s.talk) (l : List α) (s : Session) :
    (l.foldl f s).talk = s.talk := by
  induction l generalizing s with
  | nil => rfl
  | cons a l ih => exact (ih _).trans (h _ _)

@[simp] theorem dropLink_talk (s : Session) (l : Link) : (s.dropLink l).talk = s.talk := by
  unfold dropLink; split <;> simp

@[simp] theorem setLink_talk (s : Session) (k : Nat) (l : Link) : (s.setLink k l).talk = s.talk := by
  unfold setLink
  split
  · rw [dropLink_talk]; rfl
  · rfl

@[simp] theorem removeLink_talk (s : Session) (k : Nat) : (s.removeLink k).talk = s.talk := by
  unfold removeLink
  split
  · rw [dropLink_talk]; rfl
  · rfl

@[simp] theorem drainPending_talk (s : Session) (m) : (s.drainPending m).talk = s.talk := talk_congr (by simp)
@[simp] theorem dropSent_talk (s : Session) : s.dropSent.talk = s.talk := talk_congr (by simp)
@[simp] theorem dropReceived_talk (s : Session) : s.dropReceived.talk = s.talk := talk_congr (by simp)
@[simp] theorem failDeliveries_talk (s : Session) (b h e) : (s.failDeliveries b h e).talk = s.talk := talk_congr (by simp)
@[simp] theorem sndRemoteDetached_talk (s : Session) (r e) : (s.sndRemoteDetached r e).talk = s.talk := talk_congr (by simp)
@[simp] theorem rcvRemoteDetached_talk (s : Session) (r e) : (s.rcvRemoteDetached r e).talk = s.talk := rfl
@[simp] theorem finishSend_talk (s : Session) (t r) : (s.finishSend t r).talk = s.talk := rfl
@[simp] theorem waitStart_talk (s : Session) (r) : (s.waitStart r).talk = s.talk := talk_congr (by simp)
@[simp] theorem waitResume_talk (s : Session) (r) : (s.waitResume r).talk = s.talk := talk_congr (by simp)
@[simp] theorem startDelivery_talk (s : Session) (r l id t) : (s.startDelivery r l id t).talk = s.talk :=
  talk_congr (by simp)
@[simp] theorem applyFlow_talk (s : Session) (r f) : (s.applyFlow r f).talk = s.talk :=
  talk_append (applyFlow_log s r f) (by simp [Ev.talk?])
@[simp] theorem emit_talk (s : Session) (t req h tag) : (s.emit t req h tag).talk = s.talk :=
  talk_append (emit_log s t req h tag) (by
    intro e he
    rcases List.mem_cons.mp he with rfl | he
    · rfl
    · obtain ⟨f, hf, rfl⟩ := List.mem_map.mp he
      obtain ⟨ts, hts⟩ := transferFrames_transfers s.maxFrameSize h s.nextOutgoingId tag req.body req.settled req.format
      rw [hts] at hf
      obtain ⟨_, _, rfl⟩ := List.mem_map.mp hf
      rfl)
@[simp] theorem takeCredit_talk (s : Session) (t r) : (s.takeCredit t r).talk = s.talk :=
  talk_append (takeCredit_log s t r) (by simp [Ev.talk?])

@[simp] theorem windowLoop_talk (s : Session) (t req tag) : (s.windowLoop t req tag).talk = s.talk := by
  unfold windowLoop
  split
  · dsimp only
    split
    · rfl
    · simp
  · rfl

@[simp] theorem creditLoop_talk (s : Session) (t req tag) : (s.creditLoop t req tag).talk = s.talk := by
  unfold creditLoop
  split
  · split <;> simp
  · rfl

@[simp] theorem sendStart_talk (s : Session) (req) : (s.sendStart req).talk = s.talk := by
  have go : ∀ t l, (sendStart.go req s t l).talk = s.talk := by
    intro t l
    unfold sendStart.go
    split
    · rw [creditLoop_talk]; rfl
    · dsimp only; rw [creditLoop_talk]; rfl
  unfold sendStart
  split
  · dsimp only
    split
    · rfl
    · split
      · rfl
      · split
        · split
          · rfl
          · exact go _ _
        · exact go _ _
  · rfl

@[simp] theorem sendResume_talk (s : Session) (t) : (s.sendResume t).talk = s.talk := by
  unfold sendResume
  split
  · split <;> simp
  · split <;> simp
  · rfl

@[simp] theorem checkAdd_talk (s : Session) (a b : UInt32) : (s.checkAdd a b).talk = s.talk := by
  unfold checkAdd; split <;> simp

@[simp] theorem countDelivery_talk (s : Session) (r : Ref) (l : Rcv) : (s.countDelivery r l).talk = s.talk := by
  unfold countDelivery
  rw [modRcv_talk, checkAdd_talk]

@[simp] theorem charge_talk (s : Session) (r t) : (s.charge r t).talk = s.talk := by
  unfold charge; split <;> simp

@[simp] theorem enqueue_talk (s : Session) (a : Action) : (s.enqueue a).talk = s.talk := by
  unfold enqueue; split <;> rfl

@[simp] theorem sendCancel_talk (s : Session) (t) : (s.sendCancel t).talk = s.talk := by
  unfold sendCancel; first | rfl | (split <;> first | rfl | simp)

@[simp] theorem disposeOne_talk (b disp) (s : Session) (no) : (disposeOne b disp s no).talk = s.talk :=
  talk_congr (by simp)

@[simp] theorem settleDeliveries_talk (s : Session) (d) : (s.settleDeliveries d).talk = s.talk := by
  unfold settleDeliveries
  dsimp only
  split
  · exact foldl_talk (fun s a => disposeOne_talk _ _ s a) _ _
  · simp

@[simp] theorem newRemoteSender_talk (s : Session) (a) : (s.newRemoteSender a).1.talk = s.talk := rfl
@[simp] theorem newRemoteReceiver_talk (s : Session) (a) : (s.newRemoteReceiver a).1.talk = s.talk := rfl

@[simp] theorem handleAttach_talk (s : Session) (a) : (s.handleAttach a).1.talk = s.talk := by
  unfold handleAttach
  split
  · split
    · dsimp only
      split
      · rw [note_attached_talk]; rfl
      · rfl
    · rw [note_attached_talk]; rfl
    · rfl
  · rfl

@[simp] theorem onAttach_talk (s : Session) (a) : (s.onAttach a).1.talk = s.talk := by
  have h := handleAttach_talk s a
  unfold onAttach
  split
  · next s' hs => rw [hs] at h; exact h
  · next s' hs => rw [hs] at h; split <;> exact h

@[simp] theorem forget_talk (s : Session) (k h) : (s.forget k h).talk = s.talk := rfl

@[simp] theorem wakeAll_talk (s : Session) (ts m) : (s.wakeAll ts m).talk = s.talk :=
  foldl_talk (fun s t => by unfold wake; rfl) ts s

@[simp] theorem failPending_talk (s : Session) (h e) : (s.failPending h e).talk = s.talk :=
  wakeAll_talk s _ _

@[simp] theorem failLink_talk (e) (s : Session) (l) : (failLink e s l).talk = s.talk := by
  unfold failLink; split <;> simp

@[simp] theorem clearLink_talk (s : Session) (l) : (clearLink s l).talk = s.talk := by
  unfold clearLink; split <;> simp

@[simp] theorem failLinks_talk (s : Session) (e) : (s.failLinks e).talk = s.talk :=
  (foldl_talk (failLink_talk e) _ _).trans rfl

@[simp] theorem clearLinks_talk (s : Session) : s.clearLinks.talk = s.talk :=
  (foldl_talk clearLink_talk _ _).trans rfl

@[simp] theorem setError_talk (s : Session) (e) : (s.setError e).talk = s.talk := by
  unfold setError; simp; rfl

@[simp] theorem remoteEnd_talk (s : Session) (e) : (s.remoteEnd e).1.talk = s.talk := setError_talk s _

@[simp] theorem pollRecv_talk (s : Session) (r) : (s.pollRecv r).1.talk = s.talk := by
  unfold pollRecv
  dsimp only
  (repeat' split) <;> simp

@[simp] theorem getDelivery_talk (s : Session) (r) : (s.getDelivery r).1.talk = s.talk := by
  unfold getDelivery
  (repeat' split) <;> simp

@[simp] theorem finishFrame_talk (x : Session × Except PErr Action) : (finishFrame x).talk = x.1.talk := by
  obtain ⟨s, a | a⟩ := x <;> simp [finishFrame]

end Session
end Amqp.Rt
