import Verif.Lemmas.SessionGrant
import Verif.Props.Notices
/-!
# Where flow frames are posted and where they set the window

`Ev.windowing` selects the flow frames posted and those that have set the session's window.
-/

namespace Amqp.Rt

/-- A flow frame was posted, or set the window. -/
def Ev.windowing : Ev → Bool
  | .windowed _ => true
  | .frame (.flow _) => true
  | _ => false

/-- The flow frames posted and taken into account so far. -/
def Session.windows (s : Session) : List Ev := s.log.filter Ev.windowing

namespace Session

theorem windows_congr {s s' : Session} (h : s.log = s'.log) : s.windows = s'.windows := by simp [windows, h]

theorem windows_append {s s' : Session} {l : List Ev} (h : s'.log = s.log ++ l) (hl : ∀ e ∈ l, e.windowing = false) :
    s'.windows = s.windows := by
  unfold windows
  have : l.filter Ev.windowing = [] := List.filter_eq_nil_iff.mpr (fun e he => by simp [hl e he])
  rw [h, List.filter_append, this, List.append_nil]

theorem note_windows {s : Session} {e : Ev} (h : e.windowing = false) : (s.note e).windows = s.windows :=
  windows_append (l := [e]) rfl (by simpa using h)

theorem post_windows {s : Session} {f : Frame} (h : (Ev.frame f).windowing = false) : (s.post f).windows = s.windows := note_windows h

@[simp] theorem post_attach_windows (s : Session) (a) : (s.post (.attach a)).windows = s.windows := note_windows rfl
@[simp] theorem post_detach_windows (s : Session) (a) : (s.post (.detach a)).windows = s.windows := note_windows rfl
@[simp] theorem post_end_windows (s : Session) (a) : (s.post (.end_ a)).windows = s.windows := note_windows rfl

@[simp] theorem modSnd_windows (s : Session) (r f) : (s.modSnd r f).windows = s.windows := rfl
@[simp] theorem modRcv_windows (s : Session) (r f) : (s.modRcv r f).windows = s.windows := rfl
@[simp] theorem modSend_windows (s : Session) (r f) : (s.modSend r f).windows = s.windows := rfl
@[simp] theorem modWait_windows (s : Session) (r f) : (s.modWait r f).windows = s.windows := rfl
@[simp] theorem newOp_windows (s : Session) : s.newOp.windows = s.windows := rfl
@[simp] theorem insertLink_windows (s : Session) (l) : (s.insertLink l).windows = s.windows := rfl
@[simp] theorem note_panic_windows (s : Session) : (s.note .panic).windows = s.windows := note_windows rfl
@[simp] theorem note_overflow_windows (s : Session) : (s.note .overflow).windows = s.windows := note_windows rfl
@[simp] theorem note_attached_windows (s : Session) (op l) : (s.note (.attached op l)).windows = s.windows := note_windows rfl
@[simp] theorem note_attachFailed_windows (s : Session) (op e) : (s.note (.attachFailed op e)).windows = s.windows := note_windows rfl
@[simp] theorem note_detached_windows (s : Session) (op e) : (s.note (.detached op e)).windows = s.windows := note_windows rfl
@[simp] theorem note_opDropped_windows (s : Session) (op) : (s.note (.opDropped op)).windows = s.windows := note_windows rfl
@[simp] theorem note_refused_windows (s : Session) (e) : (s.note (.refused e)).windows = s.windows := note_windows rfl
@[simp] theorem note_peer_windows (s : Session) (f) : (s.note (.peer f)).windows = s.windows := note_windows rfl
@[simp] theorem note_control_windows (s : Session) (f) : (s.note (.control f)).windows = s.windows := note_windows rfl
@[simp] theorem note_closeSession_windows (s : Session) (f) : (s.note (.closeSession f)).windows = s.windows := note_windows rfl
@[simp] theorem note_granted_windows (s : Session) (r n) : (s.note (.granted r n)).windows = s.windows := note_windows rfl

@[simp] theorem note_received_windows (s : Session) (r t) : (s.note (.received r t)).windows = s.windows := note_windows rfl
@[simp] theorem note_declined_windows (s : Session) (r t) : (s.note (.declined r t)).windows = s.windows := note_windows rfl
@[simp] theorem note_handed_windows (s : Session) (r d t) : (s.note (.handed r d t)).windows = s.windows := note_windows rfl

theorem foldl_windows {α : Type} {f : Session → α → Session} (h : ∀ s a, (f s a).windows = s.windows) (l : List α) (s : Session) :
    (l.foldl f s).windows = s.windows := by
  induction l generalizing s with
  | nil => rfl
  | cons a l ih => exact (ih _).trans (h _ _)

@[simp] theorem dropLink_windows (s : Session) (l : Link) : (s.dropLink l).windows = s.windows := by
  unfold dropLink; split <;> simp

@[simp] theorem setLink_windows (s : Session) (k : Nat) (l : Link) : (s.setLink k l).windows = s.windows := by
  unfold setLink
  split
  · rw [dropLink_windows]; rfl
  · rfl

@[simp] theorem removeLink_windows (s : Session) (k : Nat) : (s.removeLink k).windows = s.windows := by
  unfold removeLink
  split
  · rw [dropLink_windows]; rfl
  · rfl

@[simp] theorem detachSender_windows (s : Session) (id : UInt32) (c : Bool) (e : Option Error) :
    (s.detachSender id c e).windows = s.windows := by
  unfold detachSender; dsimp only; split <;> simp

@[simp] theorem closeSender_windows (s : Session) (r : Ref) (e : Option Error) : (s.closeSender r e).windows = s.windows := by
  unfold closeSender; split
  · split <;> simp
  · rfl

@[simp] theorem detachReceiver_windows (s : Session) (id : UInt32) (c : Bool) (e : Option Error) :
    (s.detachReceiver id c e).windows = s.windows := by
  unfold detachReceiver
  dsimp only
  split
  · rw [removeLink_windows, note_detached_windows, post_detach_windows]
    split <;> simp
  all_goals simp

@[simp] theorem closeReceiver_windows (s : Session) (r : Ref) (e : Option Error) : (s.closeReceiver r e).windows = s.windows := by
  unfold closeReceiver
  split
  · dsimp only
    rw [modRcv_windows]
    split <;> simp
  · rfl

@[simp] theorem drainPending_windows (s : Session) (m) : (s.drainPending m).windows = s.windows := windows_congr (by simp)
@[simp] theorem dropSent_windows (s : Session) : s.dropSent.windows = s.windows := windows_congr (by simp)
@[simp] theorem dropReceived_windows (s : Session) : s.dropReceived.windows = s.windows := windows_congr (by simp)
@[simp] theorem failDeliveries_windows (s : Session) (b h e) : (s.failDeliveries b h e).windows = s.windows := windows_congr (by simp)
@[simp] theorem sndRemoteDetached_windows (s : Session) (r e) : (s.sndRemoteDetached r e).windows = s.windows := windows_congr (by simp)
@[simp] theorem rcvRemoteDetached_windows (s : Session) (r e) : (s.rcvRemoteDetached r e).windows = s.windows := rfl
@[simp] theorem finishSend_windows (s : Session) (t r) : (s.finishSend t r).windows = s.windows := rfl
@[simp] theorem waitStart_windows (s : Session) (r) : (s.waitStart r).windows = s.windows := windows_congr (by simp)
@[simp] theorem waitResume_windows (s : Session) (r) : (s.waitResume r).windows = s.windows := windows_congr (by simp)
@[simp] theorem startDelivery_windows (s : Session) (r l id t) : (s.startDelivery r l id t).windows = s.windows :=
  windows_congr (by simp)
@[simp] theorem applyFlow_windows (s : Session) (r f) : (s.applyFlow r f).windows = s.windows := by
  simp [windows, applyFlow_log, Ev.windowing]
@[simp] theorem emit_windows (s : Session) (t req h tag) : (s.emit t req h tag).windows = s.windows :=
  windows_append (emit_log s t req h tag) (by
    intro e he
    rcases List.mem_cons.mp he with rfl | he
    · rfl
    · obtain ⟨f, hf, rfl⟩ := List.mem_map.mp he
      obtain ⟨ts, hts⟩ := transferFrames_transfers s.maxFrameSize h s.nextOutgoingId tag req.body req.settled req.format
      rw [hts] at hf
      obtain ⟨t, _, rfl⟩ := List.mem_map.mp hf; rfl)
@[simp] theorem takeCredit_windows (s : Session) (t r) : (s.takeCredit t r).windows = s.windows :=
  windows_append (takeCredit_log s t r) (by simp [Ev.windowing])

@[simp] theorem settle_windows (s : Session) (d st) : (s.settle d st).windows = s.windows := by
  rcases settle_log s d st with h | ⟨_, _, h⟩
  · exact windows_congr h
  · exact windows_append h (by simp [Ev.windowing, dispFrame])

@[simp] theorem updateState_windows (s : Session) (d st) : (s.updateState d st).windows = s.windows := by
  rcases updateState_log s d st with h | ⟨_, _, h⟩
  · exact windows_congr h
  · exact windows_append h (by simp [Ev.windowing, dispFrame])

@[simp] theorem dropDelivery_windows (s : Session) (d) : (s.dropDelivery d).windows = s.windows := by
  rcases dropDelivery_log s d with h | ⟨_, _, h⟩
  · exact windows_congr h
  · exact windows_append h (by simp [Ev.windowing, dispFrame])

theorem handleFlow_windows (s : Session) (f : Flow) (l : Option Ref) :
    ∃ es, (s.handleFlow f l).windows = s.windows ++ .windowed f :: es ∧ (f.echo = false → es = []) ∧ (∀ g, .windowed g ∉ es) := by
  have h' : ({ s.note (.windowed f) with
    nextIncomingId := f.nextOutgoingId
    remoteOutgoingWindow := f.outgoingWindow
    remoteIncomingWindow := (f.nextIncomingId.getD 0) + f.incomingWindow - s.nextOutgoingId } : Session).windows =
      s.windows ++ [.windowed f] := by simp [windows, note, Ev.windowing]
  have h₂ : ∀ a : Session, a.windows = s.windows ++ [.windowed f] → ∃ es,
      (if f.echo then a.post a.echoFlow else a).windows = s.windows ++ .windowed f :: es ∧ (f.echo = false → es = []) ∧ (∀ g, .windowed g ∉ es) := by
    intro a ha
    split
    · next he =>
      refine ⟨[.frame a.echoFlow], ?_, (fun h => by rw [h] at he; cases he), by simp⟩
      show (a.log ++ [_]).filter _ = _
      rw [List.filter_append, show a.log.filter Ev.windowing = a.windows from rfl, ha]
      simp [Ev.windowing, echoFlow]
    · exact ⟨[], by simpa using ha, fun _ => rfl, by simp⟩
  obtain ⟨es, h₃, h₄⟩ := h₂ _ ((drainPending_windows _ (.ok ())).trans h')
  refine ⟨es, ?_, h₄⟩
  unfold handleFlow
  dsimp only
  cases l with
  | some r => rw [applyFlow_windows]; exact h₃
  | none => exact h₃

@[simp] theorem windowLoop_windows (s : Session) (t req tag) : (s.windowLoop t req tag).windows = s.windows := by
  unfold windowLoop
  split
  · dsimp only
    split
    · rfl
    · simp
  · rfl

@[simp] theorem creditLoop_windows (s : Session) (t req tag) : (s.creditLoop t req tag).windows = s.windows := by
  unfold creditLoop
  split
  · split <;> simp
  · rfl

@[simp] theorem sendStart_windows (s : Session) (req) : (s.sendStart req).windows = s.windows := by
  have go : ∀ t l, (sendStart.go req s t l).windows = s.windows := by
    intro t l
    unfold sendStart.go
    split
    · rw [creditLoop_windows]; rfl
    · dsimp only; rw [creditLoop_windows]; rfl
  unfold sendStart
  split
  · dsimp only
    split
    · rfl
    · split
      · rfl
      · split
        · split
          · rfl
          · exact go _ _
        · exact go _ _
  · rfl

@[simp] theorem sendResume_windows (s : Session) (t) : (s.sendResume t).windows = s.windows := by
  unfold sendResume
  split
  · split <;> simp
  · split <;> simp
  · rfl

@[simp] theorem attachLocalSender_windows (s : Session) (a) : (s.attachLocalSender a).windows = s.windows := by
  unfold attachLocalSender; dsimp only; rw [post_attach_windows]; rfl

@[simp] theorem attachLocalReceiver_windows (s : Session) (a) : (s.attachLocalReceiver a).windows = s.windows := by
  unfold attachLocalReceiver; dsimp only; rw [post_attach_windows]; rfl

@[simp] theorem confirmSender_windows (s : Session) (a g : Attach) (r : Ref) : (s.confirmSender a g r).windows = s.windows := by
  have hf : ∀ k, (s.registerSender a k).windows = s.windows := fun _ => rfl
  unfold confirmSender
  split
  · dsimp only
    split <;> simp [hf]
  · rfl

@[simp] theorem checkAdd_windows (s : Session) (a b : UInt32) : (s.checkAdd a b).windows = s.windows := by
  unfold checkAdd; split <;> simp

theorem setLinkCredit_windows (s : Session) (r : Ref) (n : UInt32) : (s.setLinkCredit r n).windows = s.windows ∨
    ∃ f : Flow, (s.setLinkCredit r n).windows = s.windows ++ [.frame (.flow f)] ∧ f.nextIncomingId.isSome := by
  unfold setLinkCredit
  split
  · next l hl =>
    right
    generalize hs : (((s.note (.granted r n)).checkAdd l.credit n).modRcv r fun l => { l with credit := l.credit + n }) = s'
    have h₁ : s'.windows = s.windows := by rw [← hs, modRcv_windows, checkAdd_windows, note_granted_windows]
    rw [rcvLinkFlow]
    refine ⟨{ nextIncomingId := some s'.nextIncomingId, incomingWindow := 0xffffffff,
                    nextOutgoingId := s'.nextOutgoingId, outgoingWindow := s'.remoteIncomingWindow, handle := some l.handle,
                    deliveryCount := some l.deliveryCount, linkCredit := some n, available := none, drain := false,
                    echo := false, properties := none }, ?_, rfl⟩
    show (s'.log ++ _).filter _ = _
    rw [List.filter_append, show s'.log.filter Ev.windowing = s'.windows from rfl, h₁]
    simp [Ev.windowing]
  · exact .inl rfl

@[simp] theorem countDelivery_windows (s : Session) (r : Ref) (l : Rcv) : (s.countDelivery r l).windows = s.windows := by
  unfold countDelivery
  rw [modRcv_windows, checkAdd_windows]

@[simp] theorem refuseSender_windows (s : Session) (a r e) : (s.refuseSender a r e).windows = s.windows := by
  unfold refuseSender; split <;> simp

@[simp] theorem confirmReceiver_windows (s : Session) (r a) : (s.confirmReceiver r a).windows = s.windows := by
  unfold confirmReceiver
  split
  · split <;> simp
  · rfl

@[simp] theorem charge_windows (s : Session) (r t) : (s.charge r t).windows = s.windows := by
  unfold charge; split <;> simp

@[simp] theorem enqueue_windows (s : Session) (a : Action) : (s.enqueue a).windows = s.windows := by
  unfold enqueue; split <;> rfl

@[simp] theorem sendCancel_windows (s : Session) (t) : (s.sendCancel t).windows = s.windows := by
  unfold sendCancel; first | rfl | (split <;> first | rfl | simp)

@[simp] theorem disposeOne_windows (b disp) (s : Session) (no) : (disposeOne b disp s no).windows = s.windows :=
  windows_congr (by simp)

@[simp] theorem settleDeliveries_windows (s : Session) (d) : (s.settleDeliveries d).windows = s.windows := by
  unfold settleDeliveries
  dsimp only
  split
  · exact foldl_windows (fun s a => disposeOne_windows _ _ s a) _ _
  · simp

@[simp] theorem newRemoteSender_windows (s : Session) (a) : (s.newRemoteSender a).1.windows = s.windows := rfl
@[simp] theorem newRemoteReceiver_windows (s : Session) (a) : (s.newRemoteReceiver a).1.windows = s.windows := rfl

@[simp] theorem handleAttach_windows (s : Session) (a) : (s.handleAttach a).1.windows = s.windows := by
  unfold handleAttach
  split
  · split
    · dsimp only
      split
      · rw [note_attached_windows]; rfl
      · rfl
    · rw [note_attached_windows]; rfl
    · rfl
  · rfl

@[simp] theorem onAttach_windows (s : Session) (a) : (s.onAttach a).1.windows = s.windows := by
  have h := handleAttach_windows s a
  unfold onAttach
  split
  · next s' hs => rw [hs] at h; exact h
  · next s' hs => rw [hs] at h; split <;> exact h

@[simp] theorem forget_windows (s : Session) (k h) : (s.forget k h).windows = s.windows := rfl

@[simp] theorem wakeAll_windows (s : Session) (ts m) : (s.wakeAll ts m).windows = s.windows :=
  foldl_windows (fun s t => by unfold wake; rfl) ts s

@[simp] theorem failPending_windows (s : Session) (h e) : (s.failPending h e).windows = s.windows :=
  wakeAll_windows s _ _

@[simp] theorem detachEstablishedSender_windows (s : Session) (r l f) :
    (s.detachEstablishedSender r l f).windows = s.windows := by
  unfold detachEstablishedSender
  rw [post_detach_windows, sndRemoteDetached_windows, failDeliveries_windows, failPending_windows]
  rfl

@[simp] theorem detachEstablishedReceiver_windows (s : Session) (r l f) :
    (s.detachEstablishedReceiver r l f).windows = s.windows := by
  unfold detachEstablishedReceiver
  rw [rcvRemoteDetached_windows, post_detach_windows, failDeliveries_windows]

@[simp] theorem handleDetach_windows (s : Session) (f) : (s.handleDetach f).1.windows = s.windows := by
  unfold handleDetach
  dsimp only
  split
  · rfl
  · split
    · rfl
    · rw [forget_windows]; split <;> simp
    · split
      · simp
      · rfl
    · rfl
    · rw [forget_windows]; split <;> simp
    · rfl
    · rw [forget_windows]; split <;> simp
    · split
      · simp
      · rfl
    · rw [forget_windows]; split <;> simp

@[simp] theorem failLink_windows (e) (s : Session) (l) : (failLink e s l).windows = s.windows := by
  unfold failLink; split <;> simp

@[simp] theorem clearLink_windows (s : Session) (l) : (clearLink s l).windows = s.windows := by
  unfold clearLink; split <;> simp

@[simp] theorem failLinks_windows (s : Session) (e) : (s.failLinks e).windows = s.windows :=
  (foldl_windows (failLink_windows e) _ _).trans rfl

@[simp] theorem clearLinks_windows (s : Session) : s.clearLinks.windows = s.windows :=
  (foldl_windows clearLink_windows _ _).trans rfl

@[simp] theorem setError_windows (s : Session) (e) : (s.setError e).windows = s.windows := by
  unfold setError; simp; rfl

@[simp] theorem remoteEnd_windows (s : Session) (e) : (s.remoteEnd e).1.windows = s.windows := setError_windows s _

@[simp] theorem endLocal_windows (s : Session) : s.endLocal.windows = s.windows := by
  unfold endLocal
  split
  · rfl
  · split
    · rfl
    · rw [note_control_windows]
      exact (post_end_windows _ _).trans (note_closeSession_windows _ _)


theorem pollRecv_windows (s : Session) (r) : (s.pollRecv r).1.windows = s.windows := by
  unfold pollRecv
  split
  · rfl
  · dsimp only
    repeat' split
    all_goals simp

theorem getDelivery_windows (s : Session) (r) : (s.getDelivery r).1.windows = s.windows := by
  unfold getDelivery
  repeat' split
  all_goals simp

@[simp] theorem finishFrame_windows (x : Session × Except PErr Action) : (finishFrame x).windows = x.1.windows := by
  obtain ⟨s, a | a⟩ := x <;> simp [finishFrame]

@[simp] theorem handleTransfer_windows (s : Session) (r t) : (s.handleTransfer r t).1.windows = s.windows := by
  unfold handleTransfer
  split
  · rfl
  · split
    · simp
    · split
      · unfold continueTransfer
        dsimp only
        repeat' split
        all_goals simp
      · unfold beginTransfer
        repeat' split
        all_goals simp

theorem handleFrame_windows (s : Session) (f : Frame) : (s.handleFrame f).1.windows = s.windows ∨
    ∃ g es, f = .flow g ∧ (s.handleFrame f).1.windows = s.windows ++ .windowed g :: es ∧ (g.echo = false → es = []) ∧ (∀ g, .windowed g ∉ es) := by
  unfold handleFrame
  by_cases he : s.error.isSome
  · rw [if_pos he]; exact .inl rfl
  · rw [if_neg he]
    cases f
    case transfer t =>
      left
      dsimp only
      repeat' split
      all_goals simp
    case flow fl =>
      dsimp only
      split
      · exact .inl rfl
      · right
        obtain ⟨es, h₁, h₂⟩ := handleFlow_windows s fl none
        exact ⟨fl, es, rfl, h₁, h₂⟩
    all_goals left; simp

/-- What a step adds: nothing; a flow frame with a next-incoming-id; or a flow frame that has arrived sets the window, and is
answered if it asks for it. -/
theorem step_windows (s : Session) (st : Step) : (s.step st).windows = s.windows ∨
    (∃ f : Flow, (s.step st).windows = s.windows ++ [.frame (.flow f)] ∧ f.nextIncomingId.isSome) ∨
    ∃ f es, (s.step st).windows = s.windows ++ .windowed f :: es ∧ (f.echo = false → es = []) ∧ (∀ g, .windowed g ∉ es) ∧
      (st = .peer (.flow f) ∨ ∃ r, .ctl (.flow r f) ∈ s.todo) := by
  cases st
  case grant r n =>
    rcases setLinkCredit_windows s r n with h | h
    · exact .inl h
    · exact .inr (.inl h)
  case complete i edit e =>
    have hstep : ∀ t, s.todo[i]? = some t → (s.step (.complete i edit e)).windows = (s.onComplete edit e t).windows := by
      intro t ht
      show (match s.todo[i]? with
        | some t => let s := s.onComplete edit e t; { s with todo := s.todo.eraseIdx i }
        | none => s : Session).windows = _
      rw [ht]; rfl
    cases ht : s.todo[i]? with
    | none =>
      left
      show (match s.todo[i]? with
        | some t => let s := s.onComplete edit e t; { s with todo := s.todo.eraseIdx i }
        | none => s : Session).windows = _
      rw [ht]
    | some t =>
      rw [hstep t ht]
      unfold onComplete
      split
      · left; cases e
        · rfl
        · simp
      · next r response =>
        cases e with
        | some e => left; simp
        | none =>
          dsimp only
          rcases setLinkCredit_windows (s.confirmReceiver r response) r 50 with h | ⟨f, h, hs⟩
          · exact .inl (by rw [h]; simp)
          · exact .inr (.inl ⟨f, by rw [h]; simp, hs⟩)
      · left; cases e <;> simp
      · next r f =>
        cases e with
        | some e => left; simp
        | none =>
          obtain ⟨es, h₁, h₂⟩ := handleFlow_windows s f (some r)
          exact .inr (.inr ⟨f, es, h₁, h₂.1, h₂.2, .inr ⟨r, List.mem_of_getElem? ht⟩⟩)
      · left; cases e <;> simp
      · left; cases e <;> simp
      · next a h1 h2 h3 h4 h5 => left; cases a <;> simp_all
  case peer f =>
    show (s.onPeer f).windows = _ ∨ (∃ g : Flow, (s.onPeer f).windows = _ ∧ _) ∨ ∃ g es, (s.onPeer f).windows = _ ∧ _
    unfold onPeer
    cases f
    case attach a => left; dsimp only; split <;> simp
    case end_ e => left; dsimp only; split <;> simp
    case flow g =>
      dsimp only
      rw [finishFrame_windows]
      rcases handleFrame_windows (s.note (.peer (.flow g))) (.flow g) with h | ⟨g', es, hg, h, h'⟩
      · left; rw [h]; simp
      · cases hg
        exact .inr (.inr ⟨g, es, by rw [h]; simp, h'.1, h'.2, .inl rfl⟩)
    all_goals
      left
      dsimp only
      rw [finishFrame_windows]
      rcases handleFrame_windows _ _ with h | ⟨g', es, hg, h, h'⟩
      · rw [h]; simp
      · cases hg
  case endConfirmed e => left; simp only [step]; split <;> simp
  case settle => left; simp only [step]; split <;> simp
  case update => left; simp only [step]; split <;> simp
  case dropDelivery => left; simp only [step]; split <;> simp
  case wait => left; simp only [step]; split <;> simp
  case take => left; exact getDelivery_windows s _
  case recv => left; exact pollRecv_windows s _
  all_goals left; simp [step]

end Session
end Amqp.Rt
