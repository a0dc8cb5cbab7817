import Verif.Lemmas.SessionArrive
/-!
# The frames of the peer
-/

namespace Amqp.Rt

/-- A frame came from the peer. -/
def Ev.fromPeer : Ev → Bool
  | .peer _ => true
  | _ => false

/-- The frames of the peer so far. -/
def Session.peers (s : Session) : List Ev := s.log.filter Ev.fromPeer

namespace Session

theorem peers_congr {s s' : Session} (h : s.log = s'.log) : s.peers = s'.peers := by simp [peers, h]

theorem peers_append {s s' : Session} {l : List Ev} (h : s'.log = s.log ++ l) (hl : ∀ e ∈ l, e.fromPeer = false) :
    s'.peers = s.peers := by
  unfold peers
  have : l.filter Ev.fromPeer = [] := List.filter_eq_nil_iff.mpr (fun e he => by simp [hl e he])
  rw [h, List.filter_append, this, List.append_nil]

theorem note_peers {s : Session} {e : Ev} (h : e.fromPeer = false) : (s.note e).peers = s.peers :=
  peers_append (l := [e]) rfl (by simpa using h)

@[simp] theorem post_peers (s : Session) (f : Frame) : (s.post f).peers = s.peers := note_peers rfl

@[simp] theorem modSnd_peers (s : Session) (r f) : (s.modSnd r f).peers = s.peers := rfl
@[simp] theorem modRcv_peers (s : Session) (r f) : (s.modRcv r f).peers = s.peers := rfl
@[simp] theorem modSend_peers (s : Session) (r f) : (s.modSend r f).peers = s.peers := rfl
@[simp] theorem modWait_peers (s : Session) (r f) : (s.modWait r f).peers = s.peers := rfl
@[simp] theorem newOp_peers (s : Session) : s.newOp.peers = s.peers := rfl
@[simp] theorem insertLink_peers (s : Session) (l) : (s.insertLink l).peers = s.peers := rfl
@[simp] theorem note_panic_peers (s : Session) : (s.note .panic).peers = s.peers := note_peers rfl
@[simp] theorem note_overflow_peers (s : Session) : (s.note .overflow).peers = s.peers := note_peers rfl
@[simp] theorem note_attached_peers (s : Session) (op l) : (s.note (.attached op l)).peers = s.peers := note_peers rfl
@[simp] theorem note_attachFailed_peers (s : Session) (op e) : (s.note (.attachFailed op e)).peers = s.peers := note_peers rfl
@[simp] theorem note_detached_peers (s : Session) (op e) : (s.note (.detached op e)).peers = s.peers := note_peers rfl
@[simp] theorem note_opDropped_peers (s : Session) (op) : (s.note (.opDropped op)).peers = s.peers := note_peers rfl
@[simp] theorem note_refused_peers (s : Session) (e) : (s.note (.refused e)).peers = s.peers := note_peers rfl
@[simp] theorem note_peer_peers (s : Session) (f) : (s.note (.peer f)).peers = s.peers ++ [.peer f] := by
  simp [peers, Ev.fromPeer]
@[simp] theorem note_control_peers (s : Session) (f) : (s.note (.control f)).peers = s.peers := note_peers rfl
@[simp] theorem note_closeSession_peers (s : Session) (f) : (s.note (.closeSession f)).peers = s.peers := note_peers rfl
@[simp] theorem note_granted_peers (s : Session) (r n) : (s.note (.granted r n)).peers = s.peers := note_peers rfl
@[simp] theorem note_windowed_peers (s : Session) (f) : (s.note (.windowed f)).peers = s.peers := note_peers rfl

@[simp] theorem note_received_peers (s : Session) (r t) : (s.note (.received r t)).peers = s.peers := note_peers rfl
@[simp] theorem note_declined_peers (s : Session) (r t) : (s.note (.declined r t)).peers = s.peers := note_peers rfl
@[simp] theorem note_handed_peers (s : Session) (r d t) : (s.note (.handed r d t)).peers = s.peers := note_peers rfl

theorem foldl_peers {α : Type} {f : Session → α → Session} (h : ∀ s a, (f s a).peers = s.peers) (l : List α) (s : Session) :
    (l.foldl f s).peers = s.peers := by
  induction l generalizing s with
  | nil => rfl
  | cons a l ih => exact (ih _).trans (h _ _)

@[simp] theorem dropLink_peers (s : Session) (l : Link) : (s.dropLink l).peers = s.peers := by
  unfold dropLink; split <;> simp

@[simp] theorem setLink_peers (s : Session) (k : Nat) (l : Link) : (s.setLink k l).peers = s.peers := by
  unfold setLink
  split
  · rw [dropLink_peers]; rfl
  · rfl

@[simp] theorem removeLink_peers (s : Session) (k : Nat) : (s.removeLink k).peers = s.peers := by
  unfold removeLink
  split
  · rw [dropLink_peers]; rfl
  · rfl

@[simp] theorem detachSender_peers (s : Session) (id : UInt32) (c : Bool) (e : Option Error) :
    (s.detachSender id c e).peers = s.peers := by
  unfold detachSender; dsimp only; split <;> simp

@[simp] theorem closeSender_peers (s : Session) (r : Ref) (e : Option Error) : (s.closeSender r e).peers = s.peers := by
  unfold closeSender; split
  · split <;> simp
  · rfl

@[simp] theorem detachReceiver_peers (s : Session) (id : UInt32) (c : Bool) (e : Option Error) :
    (s.detachReceiver id c e).peers = s.peers := by
  unfold detachReceiver
  dsimp only
  split
  · rw [removeLink_peers, note_detached_peers, post_peers]
    split <;> simp
  all_goals simp

@[simp] theorem closeReceiver_peers (s : Session) (r : Ref) (e : Option Error) : (s.closeReceiver r e).peers = s.peers := by
  unfold closeReceiver
  split
  · dsimp only
    rw [modRcv_peers]
    split <;> simp
  · rfl

@[simp] theorem drainPending_peers (s : Session) (m) : (s.drainPending m).peers = s.peers := peers_congr (by simp)
@[simp] theorem dropSent_peers (s : Session) : s.dropSent.peers = s.peers := peers_congr (by simp)
@[simp] theorem dropReceived_peers (s : Session) : s.dropReceived.peers = s.peers := peers_congr (by simp)
@[simp] theorem failDeliveries_peers (s : Session) (b h e) : (s.failDeliveries b h e).peers = s.peers := peers_congr (by simp)
@[simp] theorem sndRemoteDetached_peers (s : Session) (r e) : (s.sndRemoteDetached r e).peers = s.peers := peers_congr (by simp)
@[simp] theorem rcvRemoteDetached_peers (s : Session) (r e) : (s.rcvRemoteDetached r e).peers = s.peers := rfl
@[simp] theorem finishSend_peers (s : Session) (t r) : (s.finishSend t r).peers = s.peers := rfl
@[simp] theorem waitStart_peers (s : Session) (r) : (s.waitStart r).peers = s.peers := peers_congr (by simp)
@[simp] theorem waitResume_peers (s : Session) (r) : (s.waitResume r).peers = s.peers := peers_congr (by simp)
@[simp] theorem startDelivery_peers (s : Session) (r l id t) : (s.startDelivery r l id t).peers = s.peers :=
  peers_congr (by simp)
@[simp] theorem applyFlow_peers (s : Session) (r f) : (s.applyFlow r f).peers = s.peers :=
  peers_append (applyFlow_log s r f) (by simp [Ev.fromPeer])
@[simp] theorem emit_peers (s : Session) (t req h tag) : (s.emit t req h tag).peers = s.peers :=
  peers_append (emit_log s t req h tag) (by
    intro e he
    rcases List.mem_cons.mp he with rfl | he
    · rfl
    · obtain ⟨f, _, rfl⟩ := List.mem_map.mp he; rfl)
@[simp] theorem takeCredit_peers (s : Session) (t r) : (s.takeCredit t r).peers = s.peers :=
  peers_append (takeCredit_log s t r) (by simp [Ev.fromPeer])

@[simp] theorem settle_peers (s : Session) (d st) : (s.settle d st).peers = s.peers := by
  rcases settle_log s d st with h | ⟨_, _, h⟩
  · exact peers_congr h
  · exact peers_append h (by simp [Ev.fromPeer])

@[simp] theorem updateState_peers (s : Session) (d st) : (s.updateState d st).peers = s.peers := by
  rcases updateState_log s d st with h | ⟨_, _, h⟩
  · exact peers_congr h
  · exact peers_append h (by simp [Ev.fromPeer])

@[simp] theorem dropDelivery_peers (s : Session) (d) : (s.dropDelivery d).peers = s.peers := by
  rcases dropDelivery_log s d with h | ⟨_, _, h⟩
  · exact peers_congr h
  · exact peers_append h (by simp [Ev.fromPeer])

@[simp] theorem handleFlow_peers (s : Session) (f : Flow) (l : Option Ref) : (s.handleFlow f l).peers = s.peers := by
  have h : ∀ a : Session, a.peers = s.peers → ((if f.echo then a.post a.echoFlow else a).peers) = s.peers := by
    intro a ha; split <;> simp [ha]
  have h' : ({ s.note (.windowed f) with
    nextIncomingId := f.nextOutgoingId
    remoteOutgoingWindow := f.outgoingWindow
    remoteIncomingWindow := (f.nextIncomingId.getD 0) + f.incomingWindow - s.nextOutgoingId } : Session).peers = s.peers :=
    note_windowed_peers s f
  unfold handleFlow
  dsimp only
  split
  · rw [applyFlow_peers]; exact h _ ((drainPending_peers _ _).trans h')
  · exact h _ ((drainPending_peers _ _).trans h')

@[simp] theorem windowLoop_peers (s : Session) (t req tag) : (s.windowLoop t req tag).peers = s.peers := by
  unfold windowLoop
  split
  · dsimp only
    split
    · rfl
    · simp
  · rfl

@[simp] theorem creditLoop_peers (s : Session) (t req tag) : (s.creditLoop t req tag).peers = s.peers := by
  unfold creditLoop
  split
  · split <;> simp
  · rfl

@[simp] theorem sendStart_peers (s : Session) (req) : (s.sendStart req).peers = s.peers := by
  have go : ∀ t l, (sendStart.go req s t l).peers = s.peers := by
    intro t l
    unfold sendStart.go
    split
    · rw [creditLoop_peers]; rfl
    · dsimp only; rw [creditLoop_peers]; rfl
  unfold sendStart
  split
  · dsimp only
    split
    · rfl
    · split
      · rfl
      · split
        · split
          · rfl
          · exact go _ _
        · exact go _ _
  · rfl

@[simp] theorem sendResume_peers (s : Session) (t) : (s.sendResume t).peers = s.peers := by
  unfold sendResume
  split
  · split <;> simp
  · split <;> simp
  · rfl

@[simp] theorem attachLocalSender_peers (s : Session) (a) : (s.attachLocalSender a).peers = s.peers := by
  unfold attachLocalSender; dsimp only; rw [post_peers]; rfl

@[simp] theorem attachLocalReceiver_peers (s : Session) (a) : (s.attachLocalReceiver a).peers = s.peers := by
  unfold attachLocalReceiver; dsimp only; rw [post_peers]; rfl

@[simp] theorem confirmSender_peers (s : Session) (a g : Attach) (r : Ref) : (s.confirmSender a g r).peers = s.peers := by
  have hf : ∀ k, (s.registerSender a k).peers = s.peers := fun _ => rfl
  unfold confirmSender
  split
  · dsimp only
    split <;> simp [hf]
  · rfl

@[simp] theorem checkAdd_peers (s : Session) (a b : UInt32) : (s.checkAdd a b).peers = s.peers := by
  unfold checkAdd; split <;> simp

@[simp] theorem setLinkCredit_peers (s : Session) (r : Ref) (n : UInt32) : (s.setLinkCredit r n).peers = s.peers := by
  unfold setLinkCredit
  split
  · rw [rcvLinkFlow, post_peers, modRcv_peers, checkAdd_peers, note_granted_peers]
  · rfl

@[simp] theorem countDelivery_peers (s : Session) (r : Ref) (l : Rcv) : (s.countDelivery r l).peers = s.peers := by
  unfold countDelivery
  rw [modRcv_peers, checkAdd_peers]

@[simp] theorem refuseSender_peers (s : Session) (a r e) : (s.refuseSender a r e).peers = s.peers := by
  unfold refuseSender; split <;> simp

@[simp] theorem confirmReceiver_peers (s : Session) (r a) : (s.confirmReceiver r a).peers = s.peers := by
  unfold confirmReceiver
  split
  · split <;> simp
  · rfl

@[simp] theorem charge_peers (s : Session) (r t) : (s.charge r t).peers = s.peers := by
  unfold charge; split <;> simp

@[simp] theorem enqueue_peers (s : Session) (a : Action) : (s.enqueue a).peers = s.peers := by
  unfold enqueue; split <;> rfl

@[simp] theorem sendCancel_peers (s : Session) (t) : (s.sendCancel t).peers = s.peers := by
  unfold sendCancel; first | rfl | (split <;> first | rfl | simp)

@[simp] theorem disposeOne_peers (b disp) (s : Session) (no) : (disposeOne b disp s no).peers = s.peers :=
  peers_congr (by simp)

@[simp] theorem settleDeliveries_peers (s : Session) (d) : (s.settleDeliveries d).peers = s.peers := by
  unfold settleDeliveries
  dsimp only
  split
  · exact foldl_peers (fun s a => disposeOne_peers _ _ s a) _ _
  · simp

@[simp] theorem newRemoteSender_peers (s : Session) (a) : (s.newRemoteSender a).1.peers = s.peers := rfl
@[simp] theorem newRemoteReceiver_peers (s : Session) (a) : (s.newRemoteReceiver a).1.peers = s.peers := rfl

@[simp] theorem handleAttach_peers (s : Session) (a) : (s.handleAttach a).1.peers = s.peers := by
  unfold handleAttach
  split
  · split
    · dsimp only
      split
      · rw [note_attached_peers]; rfl
      · rfl
    · rw [note_attached_peers]; rfl
    · rfl
  · rfl

@[simp] theorem onAttach_peers (s : Session) (a) : (s.onAttach a).1.peers = s.peers := by
  have h := handleAttach_peers s a
  unfold onAttach
  split
  · next s' hs => rw [hs] at h; exact h
  · next s' hs => rw [hs] at h; split <;> exact h

@[simp] theorem forget_peers (s : Session) (k h) : (s.forget k h).peers = s.peers := rfl

@[simp] theorem wakeAll_peers (s : Session) (ts m) : (s.wakeAll ts m).peers = s.peers :=
  foldl_peers (fun s t => by unfold wake; rfl) ts s

@[simp] theorem failPending_peers (s : Session) (h e) : (s.failPending h e).peers = s.peers :=
  wakeAll_peers s _ _

@[simp] theorem detachEstablishedSender_peers (s : Session) (r l f) :
    (s.detachEstablishedSender r l f).peers = s.peers := by
  unfold detachEstablishedSender
  rw [post_peers, sndRemoteDetached_peers, failDeliveries_peers, failPending_peers]
  rfl

@[simp] theorem detachEstablishedReceiver_peers (s : Session) (r l f) :
    (s.detachEstablishedReceiver r l f).peers = s.peers := by
  unfold detachEstablishedReceiver
  rw [rcvRemoteDetached_peers, post_peers, failDeliveries_peers]

@[simp] theorem handleDetach_peers (s : Session) (f) : (s.handleDetach f).1.peers = s.peers := by
  unfold handleDetach
  dsimp only
  split
  · rfl
  · split
    · rfl
    · rw [forget_peers]; split <;> simp
    · split
      · simp
      · rfl
    · rfl
    · rw [forget_peers]; split <;> simp
    · rfl
    · rw [forget_peers]; split <;> simp
    · split
      · simp
      · rfl
    · rw [forget_peers]; split <;> simp

@[simp] theorem failLink_peers (e) (s : Session) (l) : (failLink e s l).peers = s.peers := by
  unfold failLink; split <;> simp

@[simp] theorem clearLink_peers (s : Session) (l) : (clearLink s l).peers = s.peers := by
  unfold clearLink; split <;> simp

@[simp] theorem failLinks_peers (s : Session) (e) : (s.failLinks e).peers = s.peers :=
  (foldl_peers (failLink_peers e) _ _).trans rfl

@[simp] theorem clearLinks_peers (s : Session) : s.clearLinks.peers = s.peers :=
  (foldl_peers clearLink_peers _ _).trans rfl

@[simp] theorem setError_peers (s : Session) (e) : (s.setError e).peers = s.peers := by
  unfold setError; simp; rfl

@[simp] theorem remoteEnd_peers (s : Session) (e) : (s.remoteEnd e).1.peers = s.peers := setError_peers s _

@[simp] theorem endLocal_peers (s : Session) : s.endLocal.peers = s.peers := by
  unfold endLocal
  split
  · rfl
  · split
    · rfl
    · rw [note_control_peers]
      exact (post_peers _ _).trans (note_closeSession_peers _ _)

theorem pollRecv_peers (s : Session) (r) : (s.pollRecv r).1.peers = s.peers := by
  unfold pollRecv
  split
  · rfl
  · dsimp only
    repeat' split
    all_goals simp

theorem getDelivery_peers (s : Session) (r) : (s.getDelivery r).1.peers = s.peers := by
  unfold getDelivery
  repeat' split
  all_goals simp

@[simp] theorem finishFrame_peers (x : Session × Except PErr Action) : (finishFrame x).peers = x.1.peers := by
  obtain ⟨s, a | a⟩ := x <;> simp [finishFrame]

@[simp] theorem handleTransfer_peers (s : Session) (r t) : (s.handleTransfer r t).1.peers = s.peers := by
  unfold handleTransfer
  split
  · rfl
  · split
    · simp
    · split
      · unfold continueTransfer
        dsimp only
        repeat' split
        all_goals simp
      · unfold beginTransfer
        repeat' split
        all_goals simp

theorem handleFrame_peers (s : Session) (f : Frame) : (s.handleFrame f).1.peers = s.peers := by
  unfold handleFrame
  by_cases he : s.error.isSome
  · rw [if_pos he]
  · rw [if_neg he]
    cases f
    case transfer t =>
      dsimp only
      repeat' split
      all_goals simp
    case flow fl => dsimp only; split <;> simp
    all_goals simp

theorem onComplete_peers (s : Session) (edit e) (t : Todo) : (s.onComplete edit e t).peers = s.peers := by
  unfold onComplete
  split
  · cases e
    · rfl
    · simp
  · cases e <;> simp
  · cases e <;> simp
  · cases e <;> simp
  · cases e <;> simp
  · cases e <;> simp
  · next a h1 h2 h3 h4 h5 => cases a <;> simp_all

/-- A frame of the peer is noted, and no other step notes one. -/
theorem step_peers (s : Session) (st : Step) : (s.step st).peers = s.peers ++ (match st with
    | .peer f => [.peer f]
    | _ => []) := by
  cases st
  case complete i edit e =>
    rw [List.append_nil]
    show (match s.todo[i]? with
      | some t => let s := s.onComplete edit e t; { s with todo := s.todo.eraseIdx i }
      | none => s : Session).peers = _
    cases s.todo[i]? with
    | some t => exact onComplete_peers s edit e t
    | none => simp
  case peer f =>
    show (s.onPeer f).peers = _
    unfold onPeer
    cases f
    case attach a => dsimp only; split <;> simp
    case end_ e => dsimp only; split <;> simp
    all_goals
      dsimp only
      rw [finishFrame_peers, handleFrame_peers _ _]
      simp
  case endConfirmed e => simp only [step]; split <;> simp
  case settle => simp only [step]; split <;> simp
  case update => simp only [step]; split <;> simp
  case dropDelivery => simp only [step]; split <;> simp
  case wait => simp only [step]; split <;> simp
  case take => rw [List.append_nil]; exact getDelivery_peers s _
  case recv => rw [List.append_nil]; exact pollRecv_peers s _
  all_goals simp [step]

end Session
end Amqp.Rt
