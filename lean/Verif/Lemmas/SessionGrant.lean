import Verif.Lemmas.SessionArrive
import Verif.Lemmas.SessionSent
import Verif.Lemmas.SessionFault
/-!
# Where credit is granted and where grants take effect

`Ev.granting` selects the events about the credit of links: credit was granted on a receiver link, a flow frame about a
link was posted, a flow frame was applied to a sender link.  Only two kinds of steps add such events: granting, and the
end of a call to a service.
-/

namespace Amqp.Rt

/-- Credit was granted, announced or taken over. -/
def Ev.granting : Ev → Bool
  | .applied .. | .granted .. => true
  | .frame (.flow f) => f.handle.isSome
  | _ => false

/-- The events about credit so far. -/
def Session.grants (s : Session) : List Ev := s.log.filter Ev.granting

namespace Session

theorem grants_congr {s s' : Session} (h : s.log = s'.log) : s.grants = s'.grants := by simp [grants, h]

theorem grants_append {s s' : Session} {l : List Ev} (h : s'.log = s.log ++ l) (hl : ∀ e ∈ l, e.granting = false) :
    s'.grants = s.grants := by
  unfold grants
  have : l.filter Ev.granting = [] := List.filter_eq_nil_iff.mpr (fun e he => by simp [hl e he])
  rw [h, List.filter_append, this, List.append_nil]

theorem note_grants {s : Session} {e : Ev} (h : e.granting = false) : (s.note e).grants = s.grants :=
  grants_append (l := [e]) rfl (by simpa using h)

theorem post_grants {s : Session} {f : Frame} (h : (Ev.frame f).granting = false) : (s.post f).grants = s.grants := note_grants h

@[simp] theorem post_attach_grants (s : Session) (a) : (s.post (.attach a)).grants = s.grants := note_grants rfl
@[simp] theorem post_detach_grants (s : Session) (a) : (s.post (.detach a)).grants = s.grants := note_grants rfl
@[simp] theorem post_end_grants (s : Session) (a) : (s.post (.end_ a)).grants = s.grants := note_grants rfl
@[simp] theorem post_echo_grants (s a : Session) : (s.post a.echoFlow).grants = s.grants := note_grants rfl

@[simp] theorem modSnd_grants (s : Session) (r f) : (s.modSnd r f).grants = s.grants := rfl
@[simp] theorem modRcv_grants (s : Session) (r f) : (s.modRcv r f).grants = s.grants := rfl
@[simp] theorem modSend_grants (s : Session) (r f) : (s.modSend r f).grants = s.grants := rfl
@[simp] theorem modWait_grants (s : Session) (r f) : (s.modWait r f).grants = s.grants := rfl
@[simp] theorem newOp_grants (s : Session) : s.newOp.grants = s.grants := rfl
@[simp] theorem insertLink_grants (s : Session) (l) : (s.insertLink l).grants = s.grants := rfl
@[simp] theorem note_panic_grants (s : Session) : (s.note .panic).grants = s.grants := note_grants rfl
@[simp] theorem note_overflow_grants (s : Session) : (s.note .overflow).grants = s.grants := note_grants rfl
@[simp] theorem note_attached_grants (s : Session) (op l) : (s.note (.attached op l)).grants = s.grants := note_grants rfl
@[simp] theorem note_attachFailed_grants (s : Session) (op e) : (s.note (.attachFailed op e)).grants = s.grants := note_grants rfl
@[simp] theorem note_detached_grants (s : Session) (op e) : (s.note (.detached op e)).grants = s.grants := note_grants rfl
@[simp] theorem note_opDropped_grants (s : Session) (op) : (s.note (.opDropped op)).grants = s.grants := note_grants rfl
@[simp] theorem note_refused_grants (s : Session) (e) : (s.note (.refused e)).grants = s.grants := note_grants rfl
@[simp] theorem note_peer_grants (s : Session) (f) : (s.note (.peer f)).grants = s.grants := note_grants rfl
@[simp] theorem note_control_grants (s : Session) (f) : (s.note (.control f)).grants = s.grants := note_grants rfl
@[simp] theorem note_closeSession_grants (s : Session) (f) : (s.note (.closeSession f)).grants = s.grants := note_grants rfl
@[simp] theorem note_windowed_grants (s : Session) (f) : (s.note (.windowed f)).grants = s.grants := note_grants rfl

@[simp] theorem note_received_grants (s : Session) (r t) : (s.note (.received r t)).grants = s.grants := note_grants rfl
@[simp] theorem note_declined_grants (s : Session) (r t) : (s.note (.declined r t)).grants = s.grants := note_grants rfl
@[simp] theorem note_handed_grants (s : Session) (r d t) : (s.note (.handed r d t)).grants = s.grants := note_grants rfl

theorem foldl_grants {α : Type} {f : Session → α → Session} (h : ∀ s a, (f s a).grants = s.grants) (l : List α) (s : Session) :
    (l.foldl f s).grants = s.grants := by
  induction l generalizing s with
  | nil => rfl
  | cons a l ih => exact (ih _).trans (h _ _)

@[simp] theorem dropLink_grants (s : Session) (l : Link) : (s.dropLink l).grants = s.grants := by
  unfold dropLink; split <;> simp

@[simp] theorem setLink_grants (s : Session) (k : Nat) (l : Link) : (s.setLink k l).grants = s.grants := by
  unfold setLink
  split
  · rw [dropLink_grants]; rfl
  · rfl

@[simp] theorem removeLink_grants (s : Session) (k : Nat) : (s.removeLink k).grants = s.grants := by
  unfold removeLink
  split
  · rw [dropLink_grants]; rfl
  · rfl

@[simp] theorem detachSender_grants (s : Session) (id : UInt32) (c : Bool) (e : Option Error) :
    (s.detachSender id c e).grants = s.grants := by
  unfold detachSender; dsimp only; split <;> simp

@[simp] theorem closeSender_grants (s : Session) (r : Ref) (e : Option Error) : (s.closeSender r e).grants = s.grants := by
  unfold closeSender; split
  · split <;> simp
  · rfl

@[simp] theorem detachReceiver_grants (s : Session) (id : UInt32) (c : Bool) (e : Option Error) :
    (s.detachReceiver id c e).grants = s.grants := by
  unfold detachReceiver
  dsimp only
  split
  · rw [removeLink_grants, note_detached_grants, post_detach_grants]
    split <;> simp
  all_goals simp

@[simp] theorem closeReceiver_grants (s : Session) (r : Ref) (e : Option Error) : (s.closeReceiver r e).grants = s.grants := by
  unfold closeReceiver
  split
  · dsimp only
    rw [modRcv_grants]
    split <;> simp
  · rfl

@[simp] theorem drainPending_grants (s : Session) (m) : (s.drainPending m).grants = s.grants := grants_congr (by simp)
@[simp] theorem dropSent_grants (s : Session) : s.dropSent.grants = s.grants := grants_congr (by simp)
@[simp] theorem dropReceived_grants (s : Session) : s.dropReceived.grants = s.grants := grants_congr (by simp)
@[simp] theorem failDeliveries_grants (s : Session) (b h e) : (s.failDeliveries b h e).grants = s.grants := grants_congr (by simp)
@[simp] theorem sndRemoteDetached_grants (s : Session) (r e) : (s.sndRemoteDetached r e).grants = s.grants := grants_congr (by simp)
@[simp] theorem rcvRemoteDetached_grants (s : Session) (r e) : (s.rcvRemoteDetached r e).grants = s.grants := rfl
@[simp] theorem finishSend_grants (s : Session) (t r) : (s.finishSend t r).grants = s.grants := rfl
@[simp] theorem waitStart_grants (s : Session) (r) : (s.waitStart r).grants = s.grants := grants_congr (by simp)
@[simp] theorem waitResume_grants (s : Session) (r) : (s.waitResume r).grants = s.grants := grants_congr (by simp)
@[simp] theorem startDelivery_grants (s : Session) (r l id t) : (s.startDelivery r l id t).grants = s.grants :=
  grants_congr (by simp)
theorem applyFlow_grants (s : Session) (r f) : (s.applyFlow r f).grants = s.grants ++ [.applied r f] := by
  simp [grants, applyFlow_log, Ev.granting]
@[simp] theorem emit_grants (s : Session) (t req h tag) : (s.emit t req h tag).grants = s.grants :=
  grants_append (emit_log s t req h tag) (by
    intro e he
    rcases List.mem_cons.mp he with rfl | he
    · rfl
    · obtain ⟨f, hf, rfl⟩ := List.mem_map.mp he
      obtain ⟨ts, hts⟩ := transferFrames_transfers s.maxFrameSize h s.nextOutgoingId tag req.body req.settled req.format
      rw [hts] at hf
      obtain ⟨t, _, rfl⟩ := List.mem_map.mp hf; rfl)
@[simp] theorem takeCredit_grants (s : Session) (t r) : (s.takeCredit t r).grants = s.grants :=
  grants_append (takeCredit_log s t r) (by simp [Ev.granting])

@[simp] theorem settle_grants (s : Session) (d st) : (s.settle d st).grants = s.grants := by
  rcases settle_log s d st with h | ⟨_, _, h⟩
  · exact grants_congr h
  · exact grants_append h (by simp [Ev.granting, dispFrame])

@[simp] theorem updateState_grants (s : Session) (d st) : (s.updateState d st).grants = s.grants := by
  rcases updateState_log s d st with h | ⟨_, _, h⟩
  · exact grants_congr h
  · exact grants_append h (by simp [Ev.granting, dispFrame])

@[simp] theorem dropDelivery_grants (s : Session) (d) : (s.dropDelivery d).grants = s.grants := by
  rcases dropDelivery_log s d with h | ⟨_, _, h⟩
  · exact grants_congr h
  · exact grants_append h (by simp [Ev.granting, dispFrame])

theorem handleFlow_grants (s : Session) (f : Flow) (l : Option Ref) :
    (s.handleFlow f l).grants = s.grants ++ (l.map fun r => Ev.applied r f).toList := by
  have h : ∀ a : Session, a.grants = s.grants → ((if f.echo then a.post a.echoFlow else a).grants) = s.grants := by
    intro a ha; split <;> simp [ha]
  have h' : ({ s.note (.windowed f) with
    nextIncomingId := f.nextOutgoingId
    remoteOutgoingWindow := f.outgoingWindow
    remoteIncomingWindow := (f.nextIncomingId.getD 0) + f.incomingWindow - s.nextOutgoingId } : Session).grants = s.grants :=
    note_windowed_grants s f
  unfold handleFlow
  dsimp only
  cases l with
  | some r => rw [applyFlow_grants]; exact congrArg (· ++ [Ev.applied r f]) (h _ ((drainPending_grants _ _).trans h'))
  | none => simp only [Option.map_none, Option.toList_none, List.append_nil]; exact h _ ((drainPending_grants _ _).trans h')

@[simp] theorem windowLoop_grants (s : Session) (t req tag) : (s.windowLoop t req tag).grants = s.grants := by
  unfold windowLoop
  split
  · dsimp only
    split
    · rfl
    · simp
  · rfl

@[simp] theorem creditLoop_grants (s : Session) (t req tag) : (s.creditLoop t req tag).grants = s.grants := by
  unfold creditLoop
  split
  · split <;> simp
  · rfl

@[simp] theorem sendStart_grants (s : Session) (req) : (s.sendStart req).grants = s.grants := by
  have go : ∀ t l, (sendStart.go req s t l).grants = s.grants := by
    intro t l
    unfold sendStart.go
    split
    · rw [creditLoop_grants]; rfl
    · dsimp only; rw [creditLoop_grants]; rfl
  unfold sendStart
  split
  · dsimp only
    split
    · rfl
    · split
      · rfl
      · split
        · split
          · rfl
          · exact go _ _
        · exact go _ _
  · rfl

@[simp] theorem sendResume_grants (s : Session) (t) : (s.sendResume t).grants = s.grants := by
  unfold sendResume
  split
  · split <;> simp
  · split <;> simp
  · rfl

@[simp] theorem attachLocalSender_grants (s : Session) (a) : (s.attachLocalSender a).grants = s.grants := by
  unfold attachLocalSender; dsimp only; rw [post_attach_grants]; rfl

@[simp] theorem attachLocalReceiver_grants (s : Session) (a) : (s.attachLocalReceiver a).grants = s.grants := by
  unfold attachLocalReceiver; dsimp only; rw [post_attach_grants]; rfl

@[simp] theorem confirmSender_grants (s : Session) (a g : Attach) (r : Ref) : (s.confirmSender a g r).grants = s.grants := by
  have hf : ∀ k, (s.registerSender a k).grants = s.grants := fun _ => rfl
  unfold confirmSender
  split
  · dsimp only
    split <;> simp [hf]
  · rfl

@[simp] theorem checkAdd_grants (s : Session) (a b : UInt32) : (s.checkAdd a b).grants = s.grants := by
  unfold checkAdd; split <;> simp

theorem setLinkCredit_grants {s : Session} {r : Ref} {l : Rcv} (hl : s.rcv? r = some l) (n : UInt32) :
    ∃ f, (s.setLinkCredit r n).grants = s.grants ++ [.granted r n, .frame (.flow f)] ∧ f.handle = some l.handle ∧
      f.deliveryCount = some l.deliveryCount ∧ f.linkCredit = some n := by
  unfold setLinkCredit
  rw [hl]
  dsimp only
  generalize hs : (((s.note (.granted r n)).checkAdd l.credit n).modRcv r fun l => { l with credit := l.credit + n }) = s'
  have h₁ : s'.grants = s.grants ++ [.granted r n] := by
    rw [← hs, modRcv_grants, checkAdd_grants]
    simp [grants, Ev.granting]
  rw [rcvLinkFlow]
  refine ⟨{ nextIncomingId := some s'.nextIncomingId, incomingWindow := 0xffffffff,
                  nextOutgoingId := s'.nextOutgoingId, outgoingWindow := s'.remoteIncomingWindow, handle := some l.handle,
                  deliveryCount := some l.deliveryCount, linkCredit := some n, available := none, drain := false,
                  echo := false, properties := none }, ?_, rfl, rfl, rfl⟩
  show (s'.log ++ _).filter _ = _
  rw [List.filter_append, show s'.log.filter Ev.granting = s'.grants from rfl, h₁]
  simp [Ev.granting]

theorem setLinkCredit_none {s : Session} {r : Ref} (hl : s.rcv? r = none) (n : UInt32) : s.setLinkCredit r n = s := by
  unfold setLinkCredit; rw [hl]

@[simp] theorem countDelivery_grants (s : Session) (r : Ref) (l : Rcv) : (s.countDelivery r l).grants = s.grants := by
  unfold countDelivery
  rw [modRcv_grants, checkAdd_grants]

@[simp] theorem refuseSender_grants (s : Session) (a r e) : (s.refuseSender a r e).grants = s.grants := by
  unfold refuseSender; split <;> simp

@[simp] theorem confirmReceiver_grants (s : Session) (r a) : (s.confirmReceiver r a).grants = s.grants := by
  unfold confirmReceiver
  split
  · split <;> simp
  · rfl

@[simp] theorem charge_grants (s : Session) (r t) : (s.charge r t).grants = s.grants := by
  unfold charge; split <;> simp

@[simp] theorem enqueue_grants (s : Session) (a : Action) : (s.enqueue a).grants = s.grants := by
  unfold enqueue; split <;> rfl

@[simp] theorem sendCancel_grants (s : Session) (t) : (s.sendCancel t).grants = s.grants := by
  unfold sendCancel; first | rfl | (split <;> first | rfl | simp)

@[simp] theorem disposeOne_grants (b disp) (s : Session) (no) : (disposeOne b disp s no).grants = s.grants :=
  grants_congr (by simp)

@[simp] theorem settleDeliveries_grants (s : Session) (d) : (s.settleDeliveries d).grants = s.grants := by
  unfold settleDeliveries
  dsimp only
  split
  · exact foldl_grants (fun s a => disposeOne_grants _ _ s a) _ _
  · simp

@[simp] theorem newRemoteSender_grants (s : Session) (a) : (s.newRemoteSender a).1.grants = s.grants := rfl
@[simp] theorem newRemoteReceiver_grants (s : Session) (a) : (s.newRemoteReceiver a).1.grants = s.grants := rfl

@[simp] theorem handleAttach_grants (s : Session) (a) : (s.handleAttach a).1.grants = s.grants := by
  unfold handleAttach
  split
  · split
    · dsimp only
      split
      · rw [note_attached_grants]; rfl
      · rfl
    · rw [note_attached_grants]; rfl
    · rfl
  · rfl

@[simp] theorem onAttach_grants (s : Session) (a) : (s.onAttach a).1.grants = s.grants := by
  have h := handleAttach_grants s a
  unfold onAttach
  split
  · next s' hs => rw [hs] at h; exact h
  · next s' hs => rw [hs] at h; split <;> exact h

@[simp] theorem forget_grants (s : Session) (k h) : (s.forget k h).grants = s.grants := rfl

@[simp] theorem wakeAll_grants (s : Session) (ts m) : (s.wakeAll ts m).grants = s.grants :=
  foldl_grants (fun s t => by unfold wake; rfl) ts s

@[simp] theorem failPending_grants (s : Session) (h e) : (s.failPending h e).grants = s.grants :=
  wakeAll_grants s _ _

@[simp] theorem detachEstablishedSender_grants (s : Session) (r l f) :
    (s.detachEstablishedSender r l f).grants = s.grants := by
  unfold detachEstablishedSender
  rw [post_detach_grants, sndRemoteDetached_grants, failDeliveries_grants, failPending_grants]
  rfl

@[simp] theorem detachEstablishedReceiver_grants (s : Session) (r l f) :
    (s.detachEstablishedReceiver r l f).grants = s.grants := by
  unfold detachEstablishedReceiver
  rw [rcvRemoteDetached_grants, post_detach_grants, failDeliveries_grants]

@[simp] theorem handleDetach_grants (s : Session) (f) : (s.handleDetach f).1.grants = s.grants := by
  unfold handleDetach
  dsimp only
  split
  · rfl
  · split
    · rfl
    · rw [forget_grants]; split <;> simp
    · split
      · simp
      · rfl
    · rfl
    · rw [forget_grants]; split <;> simp
    · rfl
    · rw [forget_grants]; split <;> simp
    · split
      · simp
      · rfl
    · rw [forget_grants]; split <;> simp

@[simp] theorem failLink_grants (e) (s : Session) (l) : (failLink e s l).grants = s.grants := by
  unfold failLink; split <;> simp

@[simp] theorem clearLink_grants (s : Session) (l) : (clearLink s l).grants = s.grants := by
  unfold clearLink; split <;> simp

@[simp] theorem failLinks_grants (s : Session) (e) : (s.failLinks e).grants = s.grants :=
  (foldl_grants (failLink_grants e) _ _).trans rfl

@[simp] theorem clearLinks_grants (s : Session) : s.clearLinks.grants = s.grants :=
  (foldl_grants clearLink_grants _ _).trans rfl

@[simp] theorem setError_grants (s : Session) (e) : (s.setError e).grants = s.grants := by
  unfold setError; simp; rfl

@[simp] theorem remoteEnd_grants (s : Session) (e) : (s.remoteEnd e).1.grants = s.grants := setError_grants s _

@[simp] theorem endLocal_grants (s : Session) : s.endLocal.grants = s.grants := by
  unfold endLocal
  split
  · rfl
  · split
    · rfl
    · rw [note_control_grants]
      exact (post_end_grants _ _).trans (note_closeSession_grants _ _)


theorem pollRecv_grants (s : Session) (r) : (s.pollRecv r).1.grants = s.grants := by
  unfold pollRecv
  split
  · rfl
  · dsimp only
    repeat' split
    all_goals simp

theorem getDelivery_grants (s : Session) (r) : (s.getDelivery r).1.grants = s.grants := by
  unfold getDelivery
  repeat' split
  all_goals simp

@[simp] theorem finishFrame_grants (x : Session × Except PErr Action) : (finishFrame x).grants = x.1.grants := by
  obtain ⟨s, a | a⟩ := x <;> simp [finishFrame]

@[simp] theorem handleTransfer_grants (s : Session) (r t) : (s.handleTransfer r t).1.grants = s.grants := by
  unfold handleTransfer
  split
  · rfl
  · split
    · simp
    · split
      · unfold continueTransfer
        dsimp only
        repeat' split
        all_goals simp
      · unfold beginTransfer
        repeat' split
        all_goals simp

theorem handleFrame_grants (s : Session) (f : Frame) : (s.handleFrame f).1.grants = s.grants := by
  unfold handleFrame
  by_cases he : s.error.isSome
  · rw [if_pos he]
  · rw [if_neg he]
    cases f
    case transfer t =>
      dsimp only
      repeat' split
      all_goals simp
    case flow fl => dsimp only; split <;> simp [handleFlow_grants]
    all_goals simp

/-- The steps that are about credit. -/
def _root_.Amqp.Rt.Step.grants : Step → Bool
  | .grant .. | .complete .. => true
  | _ => false

/-- Other steps add no events about credit. -/
theorem step_grants (s : Session) {st : Step} (h : st.grants = false) : (s.step st).grants = s.grants := by
  cases st
  case grant => cases h
  case complete => cases h
  case peer f =>
    show (s.onPeer f).grants = _
    unfold onPeer
    cases f
    case attach a => dsimp only; split <;> simp
    case end_ e => dsimp only; split <;> simp
    all_goals
      dsimp only
      rw [finishFrame_grants, handleFrame_grants _ _]
      simp
  case endConfirmed e => simp only [step]; split <;> simp
  case settle => simp only [step]; split <;> simp
  case update => simp only [step]; split <;> simp
  case dropDelivery => simp only [step]; split <;> simp
  case wait => simp only [step]; split <;> simp
  case take => exact getDelivery_grants s _
  case recv => exact pollRecv_grants s _
  all_goals simp [step]

/-- Granting adds the grant and the flow frame that announces it. -/
theorem grant_grants (s : Session) (r : Ref) (n : UInt32) : (s.step (.grant r n)).grants = s.grants ∨
    ∃ l f, s.rcv? r = some l ∧ (s.step (.grant r n)).grants = s.grants ++ [.granted r n, .frame (.flow f)] ∧
      f.handle = some l.handle ∧ f.deliveryCount = some l.deliveryCount ∧ f.linkCredit = some n := by
  show (s.setLinkCredit r n).grants = _ ∨ ∃ l f, _ ∧ (s.setLinkCredit r n).grants = _ ∧ _
  cases hl : s.rcv? r with
  | none => left; rw [setLinkCredit_none hl]
  | some l =>
    obtain ⟨f, h⟩ := setLinkCredit_grants hl n
    exact .inr ⟨l, f, rfl, h⟩

/-- The end of a call adds what it stands for: a flow frame is applied, a new link is granted 50. -/
theorem complete_grants (s : Session) (i : Nat) (edit : Attach → Attach) (e : Option Error) :
    (s.step (.complete i edit e)).grants = s.grants ∨
    (∃ r f, s.todo[i]? = some (.ctl (.flow r f)) ∧ e = none ∧
      (s.step (.complete i edit e)).grants = s.grants ++ [.applied r f]) ∨
    ∃ r l f, s.rcv? r = some l ∧
      (s.step (.complete i edit e)).grants = s.grants ++ [.granted r 50, .frame (.flow f)] ∧
      f.handle = some l.handle ∧ f.deliveryCount = some l.deliveryCount ∧ f.linkCredit = some 50 := by
  have hstep : ∀ t, s.todo[i]? = some t → (s.step (.complete i edit e)).grants = (s.onComplete edit e t).grants := by
    intro t ht
    show (match s.todo[i]? with
      | some t => let s := s.onComplete edit e t; { s with todo := s.todo.eraseIdx i }
      | none => s : Session).grants = _
    rw [ht]; rfl
  cases ht : s.todo[i]? with
  | none =>
    left
    show (match s.todo[i]? with
      | some t => let s := s.onComplete edit e t; { s with todo := s.todo.eraseIdx i }
      | none => s : Session).grants = _
    rw [ht]
  | some t =>
    rw [hstep t ht]
    unfold onComplete
    split
    · left; cases e
      · rfl
      · simp
    · next r response =>
      cases e with
      | some e => left; simp
      | none =>
        dsimp only
        cases hl : s.rcv? r with
        | none =>
          left
          have : s.confirmReceiver r response = s := by unfold confirmReceiver; rw [hl]
          rw [this, setLinkCredit_none hl]
        | some l =>
          right; right
          have hl' : ∃ l', (s.confirmReceiver r response).rcv? r = some l' ∧ l'.handle = l.handle ∧
              l'.deliveryCount = l.deliveryCount := by
            refine ⟨l, ?_, rfl, rfl⟩
            rw [rcv?, confirmReceiver_rcvs]; exact hl
          obtain ⟨l', h₁, h₂, h₃⟩ := hl'
          obtain ⟨f, h₄, h₅⟩ := setLinkCredit_grants h₁ 50
          rw [confirmReceiver_grants, h₂, h₃] at *
          exact ⟨r, l, f, hl, h₄, h₅⟩
    · left; cases e <;> simp
    · next r f =>
      cases e with
      | some e => left; simp
      | none => right; left; exact ⟨r, f, rfl, rfl, by rw [handleFlow_grants]; rfl⟩
    · left; cases e <;> simp
    · left; cases e <;> simp
    · next a h1 h2 h3 h4 h5 => left; cases a <;> simp_all

end Session
end Amqp.Rt
