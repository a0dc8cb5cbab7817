import Verif.Lemmas.SessionPeer
import Verif.Lemmas.SessionError
import Verif.Lemmas.SessionSent
/-!
# What only the end of a session makes

Only `Session::end` has a slot of the connection closed, posts an `End` and marks the session as ending, and no session ever
posts a frame that is not about itself or its links.
-/

namespace Amqp.Rt
open Session

/-- A slot is closed, or a frame is posted that is not about a link. -/
def Ev.ender : Ev → Bool
  | .closeSession _ => true
  | .frame (.attach _) | .frame (.detach _) | .frame (.flow _) | .frame (.transfer _) | .frame (.disposition _) => false
  | .frame _ => true
  | _ => false

def Session.enders (s : Session) : List Ev := s.log.filter Ev.ender

namespace Session

theorem enders_congr {s s' : Session} (h : s.log = s'.log) : s.enders = s'.enders := by simp [enders, h]

theorem enders_append {s s' : Session} {l : List Ev} (h : s'.log = s.log ++ l) (hl : ∀ e ∈ l, e.ender = false) :
    s'.enders = s.enders := by
  unfold enders
  have : l.filter Ev.ender = [] := List.filter_eq_nil_iff.mpr (fun e he => by simp [hl e he])
  rw [h, List.filter_append, this, List.append_nil]

theorem note_enders {s : Session} {e : Ev} (h : e.ender = false) : (s.note e).enders = s.enders :=
  enders_append (l := [e]) rfl (by simpa using h)

theorem post_enders (s : Session) {f : Frame} (h : Ev.ender (.frame f) = false) : (s.post f).enders = s.enders := note_enders h
@[simp] theorem post_attach_enders (s : Session) (a) : (s.post (.attach a)).enders = s.enders := note_enders rfl
@[simp] theorem post_detach_enders (s : Session) (a) : (s.post (.detach a)).enders = s.enders := note_enders rfl
@[simp] theorem post_flow_enders (s : Session) (a) : (s.post (.flow a)).enders = s.enders := note_enders rfl
@[simp] theorem post_transfer_enders (s : Session) (a) : (s.post (.transfer a)).enders = s.enders := note_enders rfl
@[simp] theorem post_disposition_enders (s : Session) (a) : (s.post (.disposition a)).enders = s.enders := note_enders rfl

@[simp] theorem post_echoFlow_enders (s t : Session) : (s.post t.echoFlow).enders = s.enders := note_enders rfl
@[simp] theorem modSnd_enders (s : Session) (r f) : (s.modSnd r f).enders = s.enders := rfl
@[simp] theorem modRcv_enders (s : Session) (r f) : (s.modRcv r f).enders = s.enders := rfl
@[simp] theorem modSend_enders (s : Session) (r f) : (s.modSend r f).enders = s.enders := rfl
@[simp] theorem modWait_enders (s : Session) (r f) : (s.modWait r f).enders = s.enders := rfl
@[simp] theorem newOp_enders (s : Session) : s.newOp.enders = s.enders := rfl
@[simp] theorem insertLink_enders (s : Session) (l) : (s.insertLink l).enders = s.enders := rfl
@[simp] theorem note_panic_enders (s : Session) : (s.note .panic).enders = s.enders := note_enders rfl
@[simp] theorem note_overflow_enders (s : Session) : (s.note .overflow).enders = s.enders := note_enders rfl
@[simp] theorem note_attached_enders (s : Session) (op l) : (s.note (.attached op l)).enders = s.enders := note_enders rfl
@[simp] theorem note_attachFailed_enders (s : Session) (op e) : (s.note (.attachFailed op e)).enders = s.enders := note_enders rfl
@[simp] theorem note_detached_enders (s : Session) (op e) : (s.note (.detached op e)).enders = s.enders := note_enders rfl
@[simp] theorem note_opDropped_enders (s : Session) (op) : (s.note (.opDropped op)).enders = s.enders := note_enders rfl
@[simp] theorem note_refused_enders (s : Session) (e) : (s.note (.refused e)).enders = s.enders := note_enders rfl
@[simp] theorem note_peer_enders (s : Session) (f) : (s.note (.peer f)).enders = s.enders := note_enders rfl
@[simp] theorem note_control_enders (s : Session) (f) : (s.note (.control f)).enders = s.enders := note_enders rfl
@[simp] theorem note_granted_enders (s : Session) (r n) : (s.note (.granted r n)).enders = s.enders := note_enders rfl
@[simp] theorem note_windowed_enders (s : Session) (f) : (s.note (.windowed f)).enders = s.enders := note_enders rfl

@[simp] theorem note_received_enders (s : Session) (r t) : (s.note (.received r t)).enders = s.enders := note_enders rfl
@[simp] theorem note_declined_enders (s : Session) (r t) : (s.note (.declined r t)).enders = s.enders := note_enders rfl
@[simp] theorem note_handed_enders (s : Session) (r d t) : (s.note (.handed r d t)).enders = s.enders := note_enders rfl

theorem foldl_enders {α : Type} {f : Session → α → Session} (h : ∀ s a, (f s a).enders = s.enders) (l : List α) (s : Session) :
    (l.foldl f s).enders = s.enders := by
  induction l generalizing s with
  | nil => rfl
  | cons a l ih => exact (ih _).trans (h _ _)

@[simp] theorem dropLink_enders (s : Session) (l : Link) : (s.dropLink l).enders = s.enders := by
  unfold dropLink; split <;> simp

@[simp] theorem setLink_enders (s : Session) (k : Nat) (l : Link) : (s.setLink k l).enders = s.enders := by
  unfold setLink
  split
  · rw [dropLink_enders]; rfl
  · rfl

@[simp] theorem removeLink_enders (s : Session) (k : Nat) : (s.removeLink k).enders = s.enders := by
  unfold removeLink
  split
  · rw [dropLink_enders]; rfl
  · rfl

@[simp] theorem detachSender_enders (s : Session) (id : UInt32) (c : Bool) (e : Option Error) :
    (s.detachSender id c e).enders = s.enders := by
  unfold detachSender; dsimp only; split <;> simp

@[simp] theorem closeSender_enders (s : Session) (r : Ref) (e : Option Error) : (s.closeSender r e).enders = s.enders := by
  unfold closeSender; split
  · split <;> simp
  · rfl

@[simp] theorem detachReceiver_enders (s : Session) (id : UInt32) (c : Bool) (e : Option Error) :
    (s.detachReceiver id c e).enders = s.enders := by
  unfold detachReceiver
  dsimp only
  split
  · rw [removeLink_enders, note_detached_enders, post_detach_enders]
    split <;> simp
  all_goals simp

@[simp] theorem closeReceiver_enders (s : Session) (r : Ref) (e : Option Error) : (s.closeReceiver r e).enders = s.enders := by
  unfold closeReceiver
  split
  · dsimp only
    rw [modRcv_enders]
    split <;> simp
  · rfl

@[simp] theorem drainPending_enders (s : Session) (m) : (s.drainPending m).enders = s.enders := enders_congr (by simp)
@[simp] theorem dropSent_enders (s : Session) : s.dropSent.enders = s.enders := enders_congr (by simp)
@[simp] theorem dropReceived_enders (s : Session) : s.dropReceived.enders = s.enders := enders_congr (by simp)
@[simp] theorem failDeliveries_enders (s : Session) (b h e) : (s.failDeliveries b h e).enders = s.enders := enders_congr (by simp)
@[simp] theorem sndRemoteDetached_enders (s : Session) (r e) : (s.sndRemoteDetached r e).enders = s.enders := enders_congr (by simp)
@[simp] theorem rcvRemoteDetached_enders (s : Session) (r e) : (s.rcvRemoteDetached r e).enders = s.enders := rfl
@[simp] theorem finishSend_enders (s : Session) (t r) : (s.finishSend t r).enders = s.enders := rfl
@[simp] theorem waitStart_enders (s : Session) (r) : (s.waitStart r).enders = s.enders := enders_congr (by simp)
@[simp] theorem waitResume_enders (s : Session) (r) : (s.waitResume r).enders = s.enders := enders_congr (by simp)
@[simp] theorem startDelivery_enders (s : Session) (r l id t) : (s.startDelivery r l id t).enders = s.enders :=
  enders_congr (by simp)
@[simp] theorem applyFlow_enders (s : Session) (r f) : (s.applyFlow r f).enders = s.enders :=
  enders_append (applyFlow_log s r f) (by simp [Ev.ender])
@[simp] theorem emit_enders (s : Session) (t req h tag) : (s.emit t req h tag).enders = s.enders :=
  enders_append (emit_log s t req h tag) (by
    intro e he
    rcases List.mem_cons.mp he with rfl | he
    · rfl
    · obtain ⟨ts, hts⟩ := transferFrames_transfers s.maxFrameSize h s.nextOutgoingId tag req.body req.settled req.format
      rw [hts] at he
      simp only [List.mem_map] at he
      obtain ⟨f, ⟨_, _, rfl⟩, rfl⟩ := he; rfl)
@[simp] theorem takeCredit_enders (s : Session) (t r) : (s.takeCredit t r).enders = s.enders :=
  enders_append (takeCredit_log s t r) (by simp [Ev.ender])

@[simp] theorem settle_enders (s : Session) (d st) : (s.settle d st).enders = s.enders := by
  rcases settle_log s d st with h | ⟨_, _, h⟩
  · exact enders_congr h
  · exact enders_append h (by simp [Ev.ender, dispFrame])

@[simp] theorem updateState_enders (s : Session) (d st) : (s.updateState d st).enders = s.enders := by
  rcases updateState_log s d st with h | ⟨_, _, h⟩
  · exact enders_congr h
  · exact enders_append h (by simp [Ev.ender, dispFrame])

@[simp] theorem dropDelivery_enders (s : Session) (d) : (s.dropDelivery d).enders = s.enders := by
  rcases dropDelivery_log s d with h | ⟨_, _, h⟩
  · exact enders_congr h
  · exact enders_append h (by simp [Ev.ender, dispFrame])

@[simp] theorem handleFlow_enders (s : Session) (f : Flow) (l : Option Ref) : (s.handleFlow f l).enders = s.enders := by
  have h : ∀ a : Session, a.enders = s.enders → ((if f.echo then a.post a.echoFlow else a).enders) = s.enders := by
    intro a ha; split <;> simp [ha]
  have h' : ({ s.note (.windowed f) with
    nextIncomingId := f.nextOutgoingId
    remoteOutgoingWindow := f.outgoingWindow
    remoteIncomingWindow := (f.nextIncomingId.getD 0) + f.incomingWindow - s.nextOutgoingId } : Session).enders = s.enders :=
    note_windowed_enders s f
  unfold handleFlow
  dsimp only
  split
  · rw [applyFlow_enders]; exact h _ ((drainPending_enders _ _).trans h')
  · exact h _ ((drainPending_enders _ _).trans h')

@[simp] theorem windowLoop_enders (s : Session) (t req tag) : (s.windowLoop t req tag).enders = s.enders := by
  unfold windowLoop
  split
  · dsimp only
    split
    · rfl
    · simp
  · rfl

@[simp] theorem creditLoop_enders (s : Session) (t req tag) : (s.creditLoop t req tag).enders = s.enders := by
  unfold creditLoop
  split
  · split <;> simp
  · rfl

@[simp] theorem sendStart_enders (s : Session) (req) : (s.sendStart req).enders = s.enders := by
  have go : ∀ t l, (sendStart.go req s t l).enders = s.enders := by
    intro t l
    unfold sendStart.go
    split
    · rw [creditLoop_enders]; rfl
    · dsimp only; rw [creditLoop_enders]; rfl
  unfold sendStart
  split
  · dsimp only
    split
    · rfl
    · split
      · rfl
      · split
        · split
          · rfl
          · exact go _ _
        · exact go _ _
  · rfl

@[simp] theorem sendResume_enders (s : Session) (t) : (s.sendResume t).enders = s.enders := by
  unfold sendResume
  split
  · split <;> simp
  · split <;> simp
  · rfl

@[simp] theorem attachLocalSender_enders (s : Session) (a) : (s.attachLocalSender a).enders = s.enders := by
  unfold attachLocalSender; dsimp only; rw [post_attach_enders]; rfl

@[simp] theorem attachLocalReceiver_enders (s : Session) (a) : (s.attachLocalReceiver a).enders = s.enders := by
  unfold attachLocalReceiver; dsimp only; rw [post_attach_enders]; rfl

@[simp] theorem confirmSender_enders (s : Session) (a g : Attach) (r : Ref) : (s.confirmSender a g r).enders = s.enders := by
  have hf : ∀ k, (s.registerSender a k).enders = s.enders := fun _ => rfl
  unfold confirmSender
  split
  · dsimp only
    split <;> simp [hf]
  · rfl

@[simp] theorem checkAdd_enders (s : Session) (a b : UInt32) : (s.checkAdd a b).enders = s.enders := by
  unfold checkAdd; split <;> simp

@[simp] theorem setLinkCredit_enders (s : Session) (r : Ref) (n : UInt32) : (s.setLinkCredit r n).enders = s.enders := by
  unfold setLinkCredit
  split
  · rw [rcvLinkFlow, post_flow_enders, modRcv_enders, checkAdd_enders, note_granted_enders]
  · rfl

@[simp] theorem countDelivery_enders (s : Session) (r : Ref) (l : Rcv) : (s.countDelivery r l).enders = s.enders := by
  unfold countDelivery
  rw [modRcv_enders, checkAdd_enders]

@[simp] theorem refuseSender_enders (s : Session) (a r e) : (s.refuseSender a r e).enders = s.enders := by
  unfold refuseSender; split <;> simp

@[simp] theorem confirmReceiver_enders (s : Session) (r a) : (s.confirmReceiver r a).enders = s.enders := by
  unfold confirmReceiver
  split
  · split <;> simp
  · rfl

@[simp] theorem charge_enders (s : Session) (r t) : (s.charge r t).enders = s.enders := by
  unfold charge; split <;> simp

@[simp] theorem enqueue_enders (s : Session) (a : Action) : (s.enqueue a).enders = s.enders := by
  unfold enqueue; split <;> rfl

@[simp] theorem sendCancel_enders (s : Session) (t) : (s.sendCancel t).enders = s.enders := by
  rfl

@[simp] theorem disposeOne_enders (b disp) (s : Session) (no) : (disposeOne b disp s no).enders = s.enders :=
  enders_congr (by simp)

@[simp] theorem settleDeliveries_enders (s : Session) (d) : (s.settleDeliveries d).enders = s.enders := by
  unfold settleDeliveries
  dsimp only
  split
  · exact foldl_enders (fun s a => disposeOne_enders _ _ s a) _ _
  · simp

@[simp] theorem newRemoteSender_enders (s : Session) (a) : (s.newRemoteSender a).1.enders = s.enders := rfl
@[simp] theorem newRemoteReceiver_enders (s : Session) (a) : (s.newRemoteReceiver a).1.enders = s.enders := rfl

@[simp] theorem handleAttach_enders (s : Session) (a) : (s.handleAttach a).1.enders = s.enders := by
  unfold handleAttach
  split
  · split
    · dsimp only
      split
      · rw [note_attached_enders]; rfl
      · rfl
    · rw [note_attached_enders]; rfl
    · rfl
  · rfl

@[simp] theorem onAttach_enders (s : Session) (a) : (s.onAttach a).1.enders = s.enders := by
  have h := handleAttach_enders s a
  unfold onAttach
  split
  · next s' hs => rw [hs] at h; exact h
  · next s' hs => rw [hs] at h; split <;> exact h

@[simp] theorem forget_enders (s : Session) (k h) : (s.forget k h).enders = s.enders := rfl

@[simp] theorem wakeAll_enders (s : Session) (ts m) : (s.wakeAll ts m).enders = s.enders :=
  foldl_enders (fun s t => by unfold wake; rfl) ts s

@[simp] theorem failPending_enders (s : Session) (h e) : (s.failPending h e).enders = s.enders :=
  wakeAll_enders s _ _

@[simp] theorem detachEstablishedSender_enders (s : Session) (r l f) :
    (s.detachEstablishedSender r l f).enders = s.enders := by
  unfold detachEstablishedSender
  rw [post_detach_enders, sndRemoteDetached_enders, failDeliveries_enders, failPending_enders]
  rfl

@[simp] theorem detachEstablishedReceiver_enders (s : Session) (r l f) :
    (s.detachEstablishedReceiver r l f).enders = s.enders := by
  unfold detachEstablishedReceiver
  rw [rcvRemoteDetached_enders, post_detach_enders, failDeliveries_enders]

@[simp] theorem handleDetach_enders (s : Session) (f) : (s.handleDetach f).1.enders = s.enders := by
  unfold handleDetach
  dsimp only
  split
  · rfl
  · split
    · rfl
    · rw [forget_enders]; split <;> simp
    · split
      · simp
      · rfl
    · rfl
    · rw [forget_enders]; split <;> simp
    · rfl
    · rw [forget_enders]; split <;> simp
    · split
      · simp
      · rfl
    · rw [forget_enders]; split <;> simp

@[simp] theorem failLink_enders (e) (s : Session) (l) : (failLink e s l).enders = s.enders := by
  unfold failLink; split <;> simp

@[simp] theorem clearLink_enders (s : Session) (l) : (clearLink s l).enders = s.enders := by
  unfold clearLink; split <;> simp

@[simp] theorem failLinks_enders (s : Session) (e) : (s.failLinks e).enders = s.enders :=
  (foldl_enders (failLink_enders e) _ _).trans rfl

@[simp] theorem clearLinks_enders (s : Session) : s.clearLinks.enders = s.enders :=
  (foldl_enders clearLink_enders _ _).trans rfl

@[simp] theorem setError_enders (s : Session) (e) : (s.setError e).enders = s.enders := by
  unfold setError; simp; rfl

@[simp] theorem remoteEnd_enders (s : Session) (e) : (s.remoteEnd e).1.enders = s.enders := setError_enders s _

theorem pollRecv_enders (s : Session) (r) : (s.pollRecv r).1.enders = s.enders := by
  unfold pollRecv
  split
  · rfl
  · dsimp only
    repeat' split
    all_goals simp

theorem getDelivery_enders (s : Session) (r) : (s.getDelivery r).1.enders = s.enders := by
  unfold getDelivery
  repeat' split
  all_goals simp

@[simp] theorem finishFrame_enders (x : Session × Except PErr Action) : (finishFrame x).enders = x.1.enders := by
  obtain ⟨s, a | a⟩ := x <;> simp [finishFrame]

@[simp] theorem handleTransfer_enders (s : Session) (r t) : (s.handleTransfer r t).1.enders = s.enders := by
  unfold handleTransfer
  split
  · rfl
  · split
    · simp
    · split
      · unfold continueTransfer
        dsimp only
        repeat' split
        all_goals simp
      · unfold beginTransfer
        repeat' split
        all_goals simp

theorem handleFrame_enders (s : Session) (f : Frame) : (s.handleFrame f).1.enders = s.enders := by
  unfold handleFrame
  by_cases he : s.error.isSome
  · rw [if_pos he]
  · rw [if_neg he]
    cases f
    case transfer t =>
      dsimp only
      repeat' split
      all_goals simp
    case flow fl => dsimp only; split <;> simp
    all_goals simp

theorem onComplete_enders (s : Session) (edit e) (t : Todo) : (s.onComplete edit e t).enders = s.enders := by
  unfold onComplete
  split
  · cases e
    · rfl
    · simp
  · cases e <;> simp
  · cases e <;> simp
  · cases e <;> simp
  · cases e <;> simp
  · cases e <;> simp
  · next a h1 h2 h3 h4 h5 => cases a <;> simp_all

theorem step_enders (s : Session) (st : Step) (h : st.ends = false) (h' : st ≠ .endSession) : (s.step st).enders = s.enders := by
  cases st
  case endSession => exact absurd rfl h'
  case complete i edit e =>
    show (match s.todo[i]? with
      | some t => let s := s.onComplete edit e t; { s with todo := s.todo.eraseIdx i }
      | none => s : Session).enders = _
    cases s.todo[i]? with
    | some t => exact onComplete_enders s edit e t
    | none => simp
  case peer f =>
    show (s.onPeer f).enders = _
    unfold onPeer
    cases f
    case attach a => dsimp only; split <;> simp
    case end_ e => cases h
    all_goals
      dsimp only
      rw [finishFrame_enders, handleFrame_enders _ _]
      simp
  case endConfirmed e => simp only [step]; split <;> simp
  case settle => simp only [step]; split <;> simp
  case update => simp only [step]; split <;> simp
  case dropDelivery => simp only [step]; split <;> simp
  case wait => simp only [step]; split <;> simp
  case take => exact getDelivery_enders s _
  case recv => exact pollRecv_enders s _
  all_goals simp [step]


/-! ## The mark -/

@[simp] theorem dropLink_ending' (s : Session) (l : Link) : (s.dropLink l).ending = s.ending := by
  unfold dropLink; split <;> rfl

@[simp] theorem setLink_ending' (s : Session) (k : Nat) (l : Link) : (s.setLink k l).ending = s.ending := by
  unfold setLink; split <;> simp

@[simp] theorem removeLink_ending' (s : Session) (k : Nat) : (s.removeLink k).ending = s.ending := by
  unfold removeLink; split <;> simp

@[simp] theorem detachSender_ending' (s : Session) (id c e) : (s.detachSender id c e).ending = s.ending := by
  unfold detachSender; dsimp only; split <;> simp

@[simp] theorem closeSender_ending' (s : Session) (r e) : (s.closeSender r e).ending = s.ending := by
  unfold closeSender; split
  · split <;> simp
  · rfl

@[simp] theorem detachReceiver_ending' (s : Session) (id c e) : (s.detachReceiver id c e).ending = s.ending := by
  unfold detachReceiver; dsimp only; split
  · split <;> simp
  all_goals simp

@[simp] theorem closeReceiver_ending' (s : Session) (r e) : (s.closeReceiver r e).ending = s.ending := by
  unfold closeReceiver; split
  · dsimp only; split <;> simp
  · rfl

@[simp] theorem checkAdd_ending' (s : Session) (a b) : (s.checkAdd a b).ending = s.ending := by
  unfold checkAdd; split <;> simp

@[simp] theorem rcvLinkFlow_ending' (s : Session) (a b c) : (s.rcvLinkFlow a b c).ending = s.ending := rfl

@[simp] theorem setLinkCredit_ending' (s : Session) (r n) : (s.setLinkCredit r n).ending = s.ending := by
  unfold setLinkCredit; split <;> simp

@[simp] theorem handleFlow_ending' (s : Session) (f l) : (s.handleFlow f l).ending = s.ending := by
  unfold handleFlow; dsimp only; split <;> split <;> simp

@[simp] theorem windowLoop_ending' (s : Session) (t req tag) : (s.windowLoop t req tag).ending = s.ending := by
  unfold windowLoop; split
  · dsimp only; split <;> simp
  · rfl

@[simp] theorem creditLoop_ending' (s : Session) (t req tag) : (s.creditLoop t req tag).ending = s.ending := by
  unfold creditLoop; split
  · split <;> simp
  · rfl

theorem sendStart_ending' (s : Session) (req) : (s.sendStart req).ending = s.ending := by
  unfold sendStart; split
  · dsimp only; split
    · rfl
    · split
      · rfl
      · split
        · split
          · rfl
          · unfold sendStart.go; split <;> simp
        · unfold sendStart.go; split <;> simp
  · rfl

theorem sendResume_ending' (s : Session) (t) : (s.sendResume t).ending = s.ending := by
  unfold sendResume; split
  · split <;> simp
  · split <;> simp
  · rfl

theorem onComplete_ending' (s : Session) (g e t) : (s.onComplete g e t).ending = s.ending := by
  unfold onComplete
  split
  · split <;> simp
  · split
    · simp
    · unfold confirmReceiver; split
      · split <;> simp
      · simp
  · split
    · unfold refuseSender; split <;> simp
    · unfold confirmSender registerSender; split
      · dsimp only; split <;> simp
      · rfl
  all_goals first | rfl | (split <;> simp)

@[simp] theorem countDelivery_ending' (s : Session) (r l) : (s.countDelivery r l).ending = s.ending := by
  unfold countDelivery; simp

@[simp] theorem charge_ending' (s : Session) (r t) : (s.charge r t).ending = s.ending := by
  unfold charge; split <;> simp

theorem handleTransfer_ending' (s : Session) (r t) : (s.handleTransfer r t).1.ending = s.ending := by
  unfold handleTransfer; split
  · rfl
  · split
    · simp
    · split
      · unfold continueTransfer
        split
        · simp
        · split
          · simp
          · dsimp only; split
            · simp
            · split <;> simp
      · unfold beginTransfer
        split
        · split <;> simp
        · simp

theorem handleAttach_ending' (s : Session) (a) : (s.handleAttach a).1.ending = s.ending := by
  unfold handleAttach; split
  · split
    · dsimp only; split <;> rfl
    · rfl
    · rfl
  · rfl

theorem handleDetach_ending' (s : Session) (f) : (s.handleDetach f).1.ending = s.ending := by
  unfold handleDetach detachEstablishedSender detachEstablishedReceiver failPending
  dsimp only
  generalize (match s.remoteHandles.get f.handle with
    | some idx => some idx
    | none => if s.links.contains f.handle.toNat then some f.handle.toNat else none) = idx
  (repeat' split) <;> simp [forget]

theorem settleDeliveries_ending' (s : Session) (d) : (s.settleDeliveries d).ending = s.ending := by
  unfold settleDeliveries; dsimp only; split
  · exact foldl_field Session.ending (f := disposeOne _ d) (fun _ _ => by simp) _ s
  · simp

theorem enqueue_ending' (s : Session) (a) : (s.enqueue a).ending = s.ending := by
  unfold enqueue; split <;> rfl

theorem handleFrame_ending' (s : Session) (f) : (s.handleFrame f).1.ending = s.ending := by
  unfold handleFrame; split
  · rfl
  · split
    · split <;> simp
    · exact settleDeliveries_ending' s _
    · split
      · rfl
      · split <;> first | rfl | exact handleTransfer_ending' s _ _
    · exact handleDetach_ending' s _
    · rfl

theorem finishFrame_ending' (p : Session × Except PErr Action) : (finishFrame p).ending = p.1.ending := by
  unfold finishFrame; split
  · exact enqueue_ending' _ _
  · rfl

theorem step_ending_same (s : Session) (st : Step) (h : st.ends = false) (h' : st ≠ .endSession) : (s.step st).ending = s.ending := by
  cases st <;> unfold step
  case peer f =>
    unfold onPeer
    cases f
    case attach a =>
      dsimp only
      split
      · rfl
      · unfold onAttach
        have := handleAttach_ending' (s.note (.peer (.attach a))) a
        cases hx : (s.note (.peer (.attach a))).handleAttach a with
        | mk s' b =>
        rw [hx] at this
        cases b
        · dsimp only
          split <;> (rw [enqueue_ending']; exact this)
        · dsimp only
          rw [enqueue_ending']; exact this
    case end_ e => simp [Step.ends] at h
    all_goals exact (finishFrame_ending' _).trans (handleFrame_ending' _ _)
  case endConfirmed => simp [Step.ends] at h
  case fail => simp [Step.ends] at h
  case complete i g e =>
    dsimp only
    split
    · exact onComplete_ending' s _ _ _
    · rfl
  case attachSender => rfl
  case attachReceiver => rfl
  case send => exact sendStart_ending' s _
  case resumeSend => exact sendResume_ending' s _
  case recv r =>
    dsimp only
    unfold pollRecv; (repeat' split) <;> simp
  case take r => dsimp only; unfold getDelivery; (repeat' split) <;> simp
  case endSession => exact absurd rfl h'
  all_goals dsimp only
  all_goals first | rfl | (split <;> simp; done) | simp


/-- The session has not asked to end, and has posted nothing but frames about its links. -/
def Calm (s : Session) : Prop := s.ending = false ∧ s.enders = []

theorem Calm.ev {s : Session} (h : s.Calm) {e : Ev} (he : e ∈ s.log) : e.ender = false := by
  cases hb : e.ender with
  | false => rfl
  | true =>
    have : e ∈ s.enders := List.mem_filter.2 ⟨he, hb⟩
    rw [h.2] at this
    cases this

theorem calm_new (id isL mfs ch b) : (Session.new id isL mfs ch b).Calm := ⟨rfl, rfl⟩

/-- A session stays as it was in this respect, or posts an `End`. -/
theorem step_calm {s : Session} (h : s.Calm) (st : Step) (hst : st.ends = false) :
    (s.step st).Calm ∨ ∃ e, Ev.frame (.end_ e) ∈ (s.step st).log := by
  by_cases he : st = .endSession
  · subst he
    show s.endLocal.Calm ∨ _
    by_cases h1 : s.ended = true
    · left; unfold endLocal; rw [if_pos h1]; exact h
    · right
      refine ⟨{ error := none }, ?_⟩
      show _ ∈ s.endLocal.log
      unfold endLocal
      rw [if_neg h1, if_neg (by rw [h.1]; exact Bool.false_ne_true)]
      simp [note, post]
  · exact .inl ⟨(step_ending_same s st hst he).trans h.1, (step_enders s st hst he).trans h.2⟩

end Session
end Amqp.Rt
