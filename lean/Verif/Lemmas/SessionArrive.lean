import Verif.Lemmas.SessionTake
import Verif.Lemmas.SessionFault
/-!
# Where messages come in and go out

`Ev.arrival` selects the events about messages of receiver links: a frame was taken in or refused, a message was handed out.
Only two steps of the session add such events: taking a message, and a transfer frame of the peer.
-/

namespace Amqp.Rt

/-- A frame was taken in or refused, or a message was handed out. -/
def Ev.arrival : Ev → Bool
  | .received .. | .declined .. | .handed .. => true
  | _ => false

/-- The arrivals so far. -/
def Session.arrivals (s : Session) : List Ev := s.log.filter Ev.arrival

namespace Session

theorem arrivals_congr {s s' : Session} (h : s.log = s'.log) : s.arrivals = s'.arrivals := by simp [arrivals, h]

theorem arrivals_append {s s' : Session} {l : List Ev} (h : s'.log = s.log ++ l) (hl : ∀ e ∈ l, e.arrival = false) :
    s'.arrivals = s.arrivals := by
  unfold arrivals
  have : l.filter Ev.arrival = [] := List.filter_eq_nil_iff.mpr (fun e he => by simp [hl e he])
  rw [h, List.filter_append, this, List.append_nil]

theorem note_arrivals {s : Session} {e : Ev} (h : e.arrival = false) : (s.note e).arrivals = s.arrivals :=
  arrivals_append (l := [e]) rfl (by simpa using h)

@[simp] theorem post_arrivals (s : Session) (f : Frame) : (s.post f).arrivals = s.arrivals := note_arrivals rfl

@[simp] theorem modSnd_arrivals (s : Session) (r f) : (s.modSnd r f).arrivals = s.arrivals := rfl
@[simp] theorem modRcv_arrivals (s : Session) (r f) : (s.modRcv r f).arrivals = s.arrivals := rfl
@[simp] theorem modSend_arrivals (s : Session) (r f) : (s.modSend r f).arrivals = s.arrivals := rfl
@[simp] theorem modWait_arrivals (s : Session) (r f) : (s.modWait r f).arrivals = s.arrivals := rfl
@[simp] theorem newOp_arrivals (s : Session) : s.newOp.arrivals = s.arrivals := rfl
@[simp] theorem insertLink_arrivals (s : Session) (l) : (s.insertLink l).arrivals = s.arrivals := rfl
@[simp] theorem note_panic_arrivals (s : Session) : (s.note .panic).arrivals = s.arrivals := note_arrivals rfl
@[simp] theorem note_overflow_arrivals (s : Session) : (s.note .overflow).arrivals = s.arrivals := note_arrivals rfl
@[simp] theorem note_attached_arrivals (s : Session) (op l) : (s.note (.attached op l)).arrivals = s.arrivals := note_arrivals rfl
@[simp] theorem note_attachFailed_arrivals (s : Session) (op e) : (s.note (.attachFailed op e)).arrivals = s.arrivals := note_arrivals rfl
@[simp] theorem note_detached_arrivals (s : Session) (op e) : (s.note (.detached op e)).arrivals = s.arrivals := note_arrivals rfl
@[simp] theorem note_opDropped_arrivals (s : Session) (op) : (s.note (.opDropped op)).arrivals = s.arrivals := note_arrivals rfl
@[simp] theorem note_refused_arrivals (s : Session) (e) : (s.note (.refused e)).arrivals = s.arrivals := note_arrivals rfl
@[simp] theorem note_peer_arrivals (s : Session) (f) : (s.note (.peer f)).arrivals = s.arrivals := note_arrivals rfl
@[simp] theorem note_control_arrivals (s : Session) (f) : (s.note (.control f)).arrivals = s.arrivals := note_arrivals rfl
@[simp] theorem note_closeSession_arrivals (s : Session) (f) : (s.note (.closeSession f)).arrivals = s.arrivals := note_arrivals rfl
@[simp] theorem note_granted_arrivals (s : Session) (r n) : (s.note (.granted r n)).arrivals = s.arrivals := note_arrivals rfl
@[simp] theorem note_windowed_arrivals (s : Session) (f) : (s.note (.windowed f)).arrivals = s.arrivals := note_arrivals rfl

@[simp] theorem note_received_arrivals (s : Session) (r t) : (s.note (.received r t)).arrivals = s.arrivals ++ [.received r t] := by
  simp [arrivals, Ev.arrival]
@[simp] theorem note_declined_arrivals (s : Session) (r t) : (s.note (.declined r t)).arrivals = s.arrivals ++ [.declined r t] := by
  simp [arrivals, Ev.arrival]
@[simp] theorem note_handed_arrivals (s : Session) (r d t) : (s.note (.handed r d t)).arrivals = s.arrivals ++ [.handed r d t] := by
  simp [arrivals, Ev.arrival]

theorem foldl_arrivals {α : Type} {f : Session → α → Session} (h : ∀ s a, (f s a).arrivals = s.arrivals) (l : List α) (s : Session) :
    (l.foldl f s).arrivals = s.arrivals := by
  induction l generalizing s with
  | nil => rfl
  | cons a l ih => exact (ih _).trans (h _ _)

@[simp] theorem dropLink_arrivals (s : Session) (l : Link) : (s.dropLink l).arrivals = s.arrivals := by
  unfold dropLink; split <;> simp

@[simp] theorem setLink_arrivals (s : Session) (k : Nat) (l : Link) : (s.setLink k l).arrivals = s.arrivals := by
  unfold setLink
  split
  · rw [dropLink_arrivals]; rfl
  · rfl

@[simp] theorem removeLink_arrivals (s : Session) (k : Nat) : (s.removeLink k).arrivals = s.arrivals := by
  unfold removeLink
  split
  · rw [dropLink_arrivals]; rfl
  · rfl

@[simp] theorem detachSender_arrivals (s : Session) (id : UInt32) (c : Bool) (e : Option Error) :
    (s.detachSender id c e).arrivals = s.arrivals := by
  unfold detachSender; dsimp only; split <;> simp

@[simp] theorem closeSender_arrivals (s : Session) (r : Ref) (e : Option Error) : (s.closeSender r e).arrivals = s.arrivals := by
  unfold closeSender; split
  · split <;> simp
  · rfl

@[simp] theorem detachReceiver_arrivals (s : Session) (id : UInt32) (c : Bool) (e : Option Error) :
    (s.detachReceiver id c e).arrivals = s.arrivals := by
  unfold detachReceiver
  dsimp only
  split
  · rw [removeLink_arrivals, note_detached_arrivals, post_arrivals]
    split <;> simp
  all_goals simp

@[simp] theorem closeReceiver_arrivals (s : Session) (r : Ref) (e : Option Error) : (s.closeReceiver r e).arrivals = s.arrivals := by
  unfold closeReceiver
  split
  · dsimp only
    rw [modRcv_arrivals]
    split <;> simp
  · rfl

@[simp] theorem drainPending_arrivals (s : Session) (m) : (s.drainPending m).arrivals = s.arrivals := arrivals_congr (by simp)
@[simp] theorem dropSent_arrivals (s : Session) : s.dropSent.arrivals = s.arrivals := arrivals_congr (by simp)
@[simp] theorem dropReceived_arrivals (s : Session) : s.dropReceived.arrivals = s.arrivals := arrivals_congr (by simp)
@[simp] theorem failDeliveries_arrivals (s : Session) (b h e) : (s.failDeliveries b h e).arrivals = s.arrivals := arrivals_congr (by simp)
@[simp] theorem sndRemoteDetached_arrivals (s : Session) (r e) : (s.sndRemoteDetached r e).arrivals = s.arrivals := arrivals_congr (by simp)
@[simp] theorem rcvRemoteDetached_arrivals (s : Session) (r e) : (s.rcvRemoteDetached r e).arrivals = s.arrivals := rfl
@[simp] theorem finishSend_arrivals (s : Session) (t r) : (s.finishSend t r).arrivals = s.arrivals := rfl
@[simp] theorem waitStart_arrivals (s : Session) (r) : (s.waitStart r).arrivals = s.arrivals := arrivals_congr (by simp)
@[simp] theorem waitResume_arrivals (s : Session) (r) : (s.waitResume r).arrivals = s.arrivals := arrivals_congr (by simp)
@[simp] theorem startDelivery_arrivals (s : Session) (r l id t) : (s.startDelivery r l id t).arrivals = s.arrivals :=
  arrivals_congr (by simp)
@[simp] theorem applyFlow_arrivals (s : Session) (r f) : (s.applyFlow r f).arrivals = s.arrivals :=
  arrivals_append (applyFlow_log s r f) (by simp [Ev.arrival])
@[simp] theorem emit_arrivals (s : Session) (t req h tag) : (s.emit t req h tag).arrivals = s.arrivals :=
  arrivals_append (emit_log s t req h tag) (by
    intro e he
    rcases List.mem_cons.mp he with rfl | he
    · rfl
    · obtain ⟨f, _, rfl⟩ := List.mem_map.mp he; rfl)
@[simp] theorem takeCredit_arrivals (s : Session) (t r) : (s.takeCredit t r).arrivals = s.arrivals :=
  arrivals_append (takeCredit_log s t r) (by simp [Ev.arrival])

@[simp] theorem settle_arrivals (s : Session) (d st) : (s.settle d st).arrivals = s.arrivals := by
  rcases settle_log s d st with h | ⟨_, _, h⟩
  · exact arrivals_congr h
  · exact arrivals_append h (by simp [Ev.arrival])

@[simp] theorem updateState_arrivals (s : Session) (d st) : (s.updateState d st).arrivals = s.arrivals := by
  rcases updateState_log s d st with h | ⟨_, _, h⟩
  · exact arrivals_congr h
  · exact arrivals_append h (by simp [Ev.arrival])

@[simp] theorem dropDelivery_arrivals (s : Session) (d) : (s.dropDelivery d).arrivals = s.arrivals := by
  rcases dropDelivery_log s d with h | ⟨_, _, h⟩
  · exact arrivals_congr h
  · exact arrivals_append h (by simp [Ev.arrival])

@[simp] theorem handleFlow_arrivals (s : Session) (f : Flow) (l : Option Ref) : (s.handleFlow f l).arrivals = s.arrivals := by
  have h : ∀ a : Session, a.arrivals = s.arrivals → ((if f.echo then a.post a.echoFlow else a).arrivals) = s.arrivals := by
    intro a ha; split <;> simp [ha]
  have h' : ({ s.note (.windowed f) with
    nextIncomingId := f.nextOutgoingId
    remoteOutgoingWindow := f.outgoingWindow
    remoteIncomingWindow := (f.nextIncomingId.getD 0) + f.incomingWindow - s.nextOutgoingId } : Session).arrivals = s.arrivals :=
    note_windowed_arrivals s f
  unfold handleFlow
  dsimp only
  split
  · rw [applyFlow_arrivals]; exact h _ ((drainPending_arrivals _ _).trans h')
  · exact h _ ((drainPending_arrivals _ _).trans h')

@[simp] theorem windowLoop_arrivals (s : Session) (t req tag) : (s.windowLoop t req tag).arrivals = s.arrivals := by
  unfold windowLoop
  split
  · dsimp only
    split
    · rfl
    · simp
  · rfl

@[simp] theorem creditLoop_arrivals (s : Session) (t req tag) : (s.creditLoop t req tag).arrivals = s.arrivals := by
  unfold creditLoop
  split
  · split <;> simp
  · rfl

@[simp] theorem sendStart_arrivals (s : Session) (req) : (s.sendStart req).arrivals = s.arrivals := by
  have go : ∀ t l, (sendStart.go req s t l).arrivals = s.arrivals := by
    intro t l
    unfold sendStart.go
    split
    · rw [creditLoop_arrivals]; rfl
    · dsimp only; rw [creditLoop_arrivals]; rfl
  unfold sendStart
  split
  · dsimp only
    split
    · rfl
    · split
      · rfl
      · split
        · split
          · rfl
          · exact go _ _
        · exact go _ _
  · rfl

@[simp] theorem sendResume_arrivals (s : Session) (t) : (s.sendResume t).arrivals = s.arrivals := by
  unfold sendResume
  split
  · split <;> simp
  · split <;> simp
  · rfl

@[simp] theorem attachLocalSender_arrivals (s : Session) (a) : (s.attachLocalSender a).arrivals = s.arrivals := by
  unfold attachLocalSender; dsimp only; rw [post_arrivals]; rfl

@[simp] theorem attachLocalReceiver_arrivals (s : Session) (a) : (s.attachLocalReceiver a).arrivals = s.arrivals := by
  unfold attachLocalReceiver; dsimp only; rw [post_arrivals]; rfl

@[simp] theorem confirmSender_arrivals (s : Session) (a g : Attach) (r : Ref) : (s.confirmSender a g r).arrivals = s.arrivals := by
  have hf : ∀ k, (s.registerSender a k).arrivals = s.arrivals := fun _ => rfl
  unfold confirmSender
  split
  · dsimp only
    split <;> simp [hf]
  · rfl

@[simp] theorem checkAdd_arrivals (s : Session) (a b : UInt32) : (s.checkAdd a b).arrivals = s.arrivals := by
  unfold checkAdd; split <;> simp

@[simp] theorem setLinkCredit_arrivals (s : Session) (r : Ref) (n : UInt32) : (s.setLinkCredit r n).arrivals = s.arrivals := by
  unfold setLinkCredit
  split
  · rw [rcvLinkFlow, post_arrivals, modRcv_arrivals, checkAdd_arrivals, note_granted_arrivals]
  · rfl

@[simp] theorem countDelivery_arrivals (s : Session) (r : Ref) (l : Rcv) : (s.countDelivery r l).arrivals = s.arrivals := by
  unfold countDelivery
  rw [modRcv_arrivals, checkAdd_arrivals]

@[simp] theorem refuseSender_arrivals (s : Session) (a r e) : (s.refuseSender a r e).arrivals = s.arrivals := by
  unfold refuseSender; split <;> simp

@[simp] theorem confirmReceiver_arrivals (s : Session) (r a) : (s.confirmReceiver r a).arrivals = s.arrivals := by
  unfold confirmReceiver
  split
  · split <;> simp
  · rfl

@[simp] theorem charge_arrivals (s : Session) (r t) : (s.charge r t).arrivals = s.arrivals := by
  unfold charge; split <;> simp

@[simp] theorem enqueue_arrivals (s : Session) (a : Action) : (s.enqueue a).arrivals = s.arrivals := by
  unfold enqueue; split <;> rfl

@[simp] theorem sendCancel_arrivals (s : Session) (t) : (s.sendCancel t).arrivals = s.arrivals := by
  unfold sendCancel; first | rfl | (split <;> first | rfl | simp)

@[simp] theorem disposeOne_arrivals (b disp) (s : Session) (no) : (disposeOne b disp s no).arrivals = s.arrivals :=
  arrivals_congr (by simp)

@[simp] theorem settleDeliveries_arrivals (s : Session) (d) : (s.settleDeliveries d).arrivals = s.arrivals := by
  unfold settleDeliveries
  dsimp only
  split
  · exact foldl_arrivals (fun s a => disposeOne_arrivals _ _ s a) _ _
  · simp

@[simp] theorem newRemoteSender_arrivals (s : Session) (a) : (s.newRemoteSender a).1.arrivals = s.arrivals := rfl
@[simp] theorem newRemoteReceiver_arrivals (s : Session) (a) : (s.newRemoteReceiver a).1.arrivals = s.arrivals := rfl

@[simp] theorem handleAttach_arrivals (s : Session) (a) : (s.handleAttach a).1.arrivals = s.arrivals := by
  unfold handleAttach
  split
  · split
    · dsimp only
      split
      · rw [note_attached_arrivals]; rfl
      · rfl
    · rw [note_attached_arrivals]; rfl
    · rfl
  · rfl

@[simp] theorem onAttach_arrivals (s : Session) (a) : (s.onAttach a).1.arrivals = s.arrivals := by
  have h := handleAttach_arrivals s a
  unfold onAttach
  split
  · next s' hs => rw [hs] at h; exact h
  · next s' hs => rw [hs] at h; split <;> exact h

@[simp] theorem forget_arrivals (s : Session) (k h) : (s.forget k h).arrivals = s.arrivals := rfl

@[simp] theorem wakeAll_arrivals (s : Session) (ts m) : (s.wakeAll ts m).arrivals = s.arrivals :=
  foldl_arrivals (fun s t => by unfold wake; rfl) ts s

@[simp] theorem failPending_arrivals (s : Session) (h e) : (s.failPending h e).arrivals = s.arrivals :=
  wakeAll_arrivals s _ _

@[simp] theorem detachEstablishedSender_arrivals (s : Session) (r l f) :
    (s.detachEstablishedSender r l f).arrivals = s.arrivals := by
  unfold detachEstablishedSender
  rw [post_arrivals, sndRemoteDetached_arrivals, failDeliveries_arrivals, failPending_arrivals]
  rfl

@[simp] theorem detachEstablishedReceiver_arrivals (s : Session) (r l f) :
    (s.detachEstablishedReceiver r l f).arrivals = s.arrivals := by
  unfold detachEstablishedReceiver
  rw [rcvRemoteDetached_arrivals, post_arrivals, failDeliveries_arrivals]

@[simp] theorem handleDetach_arrivals (s : Session) (f) : (s.handleDetach f).1.arrivals = s.arrivals := by
  unfold handleDetach
  dsimp only
  split
  · rfl
  · split
    · rfl
    · rw [forget_arrivals]; split <;> simp
    · split
      · simp
      · rfl
    · rfl
    · rw [forget_arrivals]; split <;> simp
    · rfl
    · rw [forget_arrivals]; split <;> simp
    · split
      · simp
      · rfl
    · rw [forget_arrivals]; split <;> simp

@[simp] theorem failLink_arrivals (e) (s : Session) (l) : (failLink e s l).arrivals = s.arrivals := by
  unfold failLink; split <;> simp

@[simp] theorem clearLink_arrivals (s : Session) (l) : (clearLink s l).arrivals = s.arrivals := by
  unfold clearLink; split <;> simp

@[simp] theorem failLinks_arrivals (s : Session) (e) : (s.failLinks e).arrivals = s.arrivals :=
  (foldl_arrivals (failLink_arrivals e) _ _).trans rfl

@[simp] theorem clearLinks_arrivals (s : Session) : s.clearLinks.arrivals = s.arrivals :=
  (foldl_arrivals clearLink_arrivals _ _).trans rfl

@[simp] theorem setError_arrivals (s : Session) (e) : (s.setError e).arrivals = s.arrivals := by
  unfold setError; simp; rfl

@[simp] theorem remoteEnd_arrivals (s : Session) (e) : (s.remoteEnd e).1.arrivals = s.arrivals := setError_arrivals s _

@[simp] theorem endLocal_arrivals (s : Session) : s.endLocal.arrivals = s.arrivals := by
  unfold endLocal
  split
  · rfl
  · split
    · rfl
    · rw [note_control_arrivals]
      exact (post_arrivals _ _).trans (note_closeSession_arrivals _ _)

theorem pollRecv_arrivals (s : Session) (r) : (s.pollRecv r).1.arrivals = s.arrivals ∨
    ∃ d t, (s.pollRecv r).1.arrivals = s.arrivals ++ [.handed r d t] := by
  unfold pollRecv
  split
  · exact .inl rfl
  · next l hl =>
    have hstop : (if l.closed then
        match l.error with
        | some e => (s.modRcv r fun l => { l with error := none }, Recv.error (.linkDetached (some e)))
        | none => (s, .ended)
      else (s, .pending)).1.arrivals = s.arrivals := by
      split
      · split <;> rfl
      · rfl
    dsimp only
    split
    · exact .inl hstop
    · split
      · exact .inr ⟨_, _, by rw [modRcv_arrivals, note_handed_arrivals]⟩
      · exact .inl hstop

theorem getDelivery_arrivals (s : Session) (r) : (s.getDelivery r).1.arrivals = s.arrivals ++
    match (s.getDelivery r).2 with
    | some (d, t) => [.handed r d t]
    | none => [] := by
  unfold getDelivery
  split
  · simp
  · split
    · split <;> simp
    · simp

/-! ## Transfers -/

@[simp] theorem finishFrame_arrivals' (x : Session × Except PErr Action) : (finishFrame x).arrivals = x.1.arrivals := by
  obtain ⟨s, a | a⟩ := x <;> simp [finishFrame]

theorem detachReceiver_kept {s : Session} {r : Ref} {l : Rcv} (id c e) (hl : s.rcv? r = some l) :
    ∃ l', (s.detachReceiver id c e).rcv? r = some l' :=
  (detachReceiver_micros (A := fun _ => True) s id c e).invariant (P := fun s' => ∃ l', s'.rcv? r = some l')
    (fun _ _ h ⟨_, h'⟩ => by obtain ⟨l'', h'', _⟩ := Micro.rcv_kept h h'; exact ⟨l'', h''⟩) ⟨l, hl⟩

theorem closeReceiver_closed {s : Session} {r : Ref} {l : Rcv} (e : Option Error) (hl : s.rcv? r = some l) :
    ∃ l', (s.closeReceiver r e).rcv? r = some l' ∧ l'.closed = true := by
  obtain ⟨l', hl'⟩ : ∃ l', (if l.closed then s.newOp.note (.detached s.ops (.ok ())) else s.detachReceiver l.handle true e).rcv? r
      = some l' := by
    split
    · exact ⟨l, hl⟩
    · exact detachReceiver_kept _ _ _ hl
  refine ⟨{ l' with closed := true }, ?_, rfl⟩
  unfold closeReceiver
  rw [hl]
  dsimp only
  rw [rcv?_modRcv, if_pos rfl, hl']
  rfl

/-- What became of a transfer on an established link. -/
theorem handleTransfer_arrivals {s : Session} {r : Ref} {l : Rcv} (t : Transfer) (hl : s.rcv? r = some l)
    (hq : l.partialBody.isSome → l.queue ≠ []) :
    ((s.handleTransfer r t).1.arrivals = s.arrivals ++ [.received r t] ∧
      (s.handleTransfer r t).2 = if t.head.more then .none else .transfer r) ∨
    ((s.handleTransfer r t).1.arrivals = s.arrivals ++ [.declined r t] ∧
      (∃ l', (s.handleTransfer r t).1.rcv? r = some l' ∧ l'.closed = true) ∧ (s.handleTransfer r t).2 = .none) := by
  have hc : ∃ l', (s.charge r t).rcv? r = some l' := by
    unfold charge
    split
    · exact ⟨l, hl⟩
    · rw [rcv?_modRcv, if_pos rfl, hl]; exact ⟨_, rfl⟩
  obtain ⟨lc, hc⟩ := hc
  have no : ∀ e, ((((s.charge r t).note (.declined r t)).closeReceiver r e).arrivals = s.arrivals ++ [.declined r t] ∧
      ∃ l', ((((s.charge r t).note (.declined r t)).closeReceiver r e)).rcv? r = some l' ∧ l'.closed = true) :=
    fun e => ⟨by simp, closeReceiver_closed e (s := (s.charge r t).note (.declined r t)) hc⟩
  unfold handleTransfer
  rw [hl]
  dsimp only
  by_cases hcr : l.credit = 0
  · rw [if_pos hcr]
    exact .inr ⟨by simp, closeReceiver_closed _ (s := s.note (.declined r t)) hl, rfl⟩
  · rw [if_neg hcr]
    cases hb : l.partialBody with
    | some body =>
      dsimp only
      unfold continueTransfer
      split
      · exact .inr ⟨(no _).1, (no _).2, rfl⟩
      · split
        · exact .inr ⟨(no _).1, (no _).2, rfl⟩
        · left
          dsimp only
          rw [if_pos (hq (by rw [hb]; rfl))]
          cases hm : t.head.more <;> simp
    | none =>
      dsimp only
      unfold beginTransfer
      cases hid : t.head.deliveryId with
      | some id =>
        left
        dsimp only
        cases hm : t.head.more <;> simp
      | none => exact .inr ⟨(no _).1, (no _).2, rfl⟩

theorem handleFrame_arrivals (s : Session) (f : Frame) (h : ∀ t, f ≠ .transfer t) :
    (s.handleFrame f).1.arrivals = s.arrivals := by
  unfold handleFrame
  by_cases he : s.error.isSome
  · rw [if_pos he]
  · rw [if_neg he]
    cases f
    case transfer t => exact absurd rfl (h t)
    case flow fl => dsimp only; split <;> simp
    all_goals simp

theorem onComplete_arrivals (s : Session) (edit e) (t : Todo) : (s.onComplete edit e t).arrivals = s.arrivals := by
  unfold onComplete
  split
  · cases e
    · rfl
    · simp
  · cases e <;> simp
  · cases e <;> simp
  · cases e <;> simp
  · cases e <;> simp
  · cases e <;> simp
  · next a h1 h2 h3 h4 h5 => cases a <;> simp_all

/-- The steps that are about messages. -/
def _root_.Amqp.Rt.Step.moves : Step → Bool
  | .take _ | .recv _ | .peer (.transfer _) => true
  | _ => false

/-- Other steps add no arrivals. -/
theorem step_arrivals (s : Session) {st : Step} (h : st.moves = false) : (s.step st).arrivals = s.arrivals := by
  cases st
  case take => cases h
  case recv => cases h
  case peer f =>
    have hf : ∀ t, f ≠ .transfer t := by rintro t rfl; cases h
    show (s.onPeer f).arrivals = _
    unfold onPeer
    cases f
    case transfer t => exact absurd rfl (hf t)
    case attach a => dsimp only; split <;> simp
    case end_ e => dsimp only; split <;> simp
    all_goals
      dsimp only
      rw [finishFrame_arrivals', handleFrame_arrivals _ _ (by simp)]
      simp
  case complete i edit e =>
    show (match s.todo[i]? with
      | some t => let s := s.onComplete edit e t; { s with todo := s.todo.eraseIdx i }
      | none => s : Session).arrivals = _
    cases s.todo[i]? with
    | some t => exact onComplete_arrivals s edit e t
    | none => simp
  case endConfirmed e => simp only [step]; split <;> simp
  case settle => simp only [step]; split <;> simp
  case update => simp only [step]; split <;> simp
  case dropDelivery => simp only [step]; split <;> simp
  case wait => simp only [step]; split <;> simp
  all_goals simp [step]

theorem handleFrame_transfer {s : Session} (hs : RcvSlots s)
    (hq : ∀ r l, s.rcv? r = some l → l.partialBody.isSome → l.queue ≠ []) (t : Transfer) :
    ((s.handleFrame (.transfer t)).1.arrivals = s.arrivals ∧ ∀ r, (s.handleFrame (.transfer t)).2 ≠ .ok (.transfer r)) ∨
    (∃ r, s.Receives r ∧ (s.handleFrame (.transfer t)).1.arrivals = s.arrivals ++ [.received r t] ∧
      (s.handleFrame (.transfer t)).2 = .ok (if t.head.more then .none else .transfer r)) ∨
    (∃ r, (s.handleFrame (.transfer t)).1.arrivals = s.arrivals ++ [.declined r t] ∧
      ∃ l, (s.handleFrame (.transfer t)).1.rcv? r = some l ∧ l.closed = true) := by
  unfold handleFrame
  split
  · exact .inl ⟨rfl, by simp⟩
  · dsimp only
    split
    · exact .inl ⟨rfl, by simp⟩
    · split
      case h_5 r hk =>
        right
        obtain ⟨l, hl, _⟩ := hs.handle _ _ r hk rfl
        dsimp only
        rcases handleTransfer_arrivals t hl (hq r l hl) with ⟨h1, h2⟩ | ⟨h1, h2, h3⟩
        · exact .inl ⟨r, ⟨_, hk⟩, h1, by rw [h2]⟩
        · exact .inr ⟨r, h1, h2⟩
      all_goals exact .inl ⟨rfl, by simp⟩

/-- A transfer of the peer is ignored, taken in by an established link, or refused by one, which closes it. -/
theorem transfer_arrivals {s : Session} (hs : s.Reachable) (t : Transfer) :
    ((s.step (.peer (.transfer t))).arrivals = s.arrivals ∧
      ∀ r, ((s.note (.peer (.transfer t))).handleFrame (.transfer t)).2 ≠ .ok (.transfer r)) ∨
    (∃ r, s.Receives r ∧ (s.step (.peer (.transfer t))).arrivals = s.arrivals ++ [.received r t] ∧
      ((s.note (.peer (.transfer t))).handleFrame (.transfer t)).2 = .ok (if t.head.more then .none else .transfer r)) ∨
    (∃ r, (s.step (.peer (.transfer t))).arrivals = s.arrivals ++ [.declined r t] ∧
      ∃ l, (s.step (.peer (.transfer t))).rcv? r = some l ∧ l.closed = true) := by
  have hstep : s.step (.peer (.transfer t)) = finishFrame ((s.note (.peer (.transfer t))).handleFrame (.transfer t)) := rfl
  have hn : ∀ x : Session × Except PErr Action, ∀ r, (finishFrame x).rcv? r = x.1.rcv? r := by
    rintro ⟨a, b | b⟩ r
    · rfl
    · show (a.enqueue b).rcv? r = _
      unfold enqueue
      split <;> rfl
  rw [hstep, finishFrame_arrivals']
  simp only [hn]
  have h := handleFrame_transfer (s := s.note (.peer (.transfer t))) ⟨hs.rcvSlots.handle, hs.rcvSlots.unique⟩
    (fun r l hl => queue_of_opened hs hl) t
  rw [note_peer_arrivals] at h
  exact h

end Session

/-! ## Closed links stay closed -/

theorem Micro.rcv_closed {s s' : Session} (h : Micro s s') {r : Ref} {l : Rcv} (hl : s.rcv? r = some l)
    (hc : l.closed = true) : ∃ l', s'.rcv? r = some l' ∧ l'.closed = true := by
  have same : s'.rcvs = s.rcvs → ∃ l', s'.rcv? r = some l' ∧ l'.closed = true := fun h => ⟨l, by rw [rcv?_congr h, hl], hc⟩
  have mod : ∀ (a : Session) (r' : Ref) (f : Rcv → Rcv), a.rcvs = s.rcvs → (∀ x, x.closed = true → (f x).closed = true) →
      ∃ l', (a.modRcv r' f).rcv? r = some l' ∧ l'.closed = true := by
    intro a r' f ha hf
    rw [rcv?_modRcv, rcv?_congr ha, hl]
    split
    · exact ⟨f l, rfl, hf l hc⟩
    · exact ⟨l, rfl, hc⟩
  have start : ∀ (a : Session) (r' : Ref) (f : Rcv → Rcv) l₀ id t, a.rcvs = s.rcvs → (∀ x, x.closed = true → (f x).closed = true) →
      ∃ l', ((a.modRcv r' f).startDelivery r' l₀ id t).rcv? r = some l' ∧ l'.closed = true := by
    intro a r' f l₀ id t ha hf
    obtain ⟨l', h1, h2⟩ := mod a r' f ha hf
    unfold Session.startDelivery
    dsimp only
    rw [rcv?_modRcv, rcv?_congr (s := a.modRcv r' f) (newRcv_same _ _ _ _ _).2.1, h1]
    split
    · exact ⟨_, rfl, h2⟩
    · exact ⟨l', rfl, h2⟩
  have grown : ∀ x, s'.rcvs = s.rcvs ++ [x] → ∃ l', s'.rcv? r = some l' ∧ l'.closed = true := fun x hx =>
    ⟨l, by rw [rcv?_grown hx, if_neg (Nat.ne_of_lt (rcv?_lt hl)), hl], hc⟩
  cases h
  case newRcvRemote => exact grown _ rfl
  case newRcvLocal => exact grown _ rfl
  case rcvClosed => exact mod _ _ _ rfl fun _ _ => rfl
  case rcvDetached => exact mod _ _ _ rfl fun _ _ => rfl
  case rcvReset => exact mod _ _ _ rfl fun _ _ => rfl
  case rcvLimit => exact mod _ _ _ rfl fun _ h => h
  case rcvErrTaken => exact mod _ _ _ rfl fun _ h => h
  case grant => exact mod _ _ _ rfl fun _ h => h
  case recvRefused => exact mod _ _ _ rfl fun _ h => h
  case recvMerge => exact mod _ _ _ rfl fun _ h => h
  case recvLast => exact mod _ _ _ rfl fun _ h => h
  case recvLost => exact mod _ _ _ rfl fun _ h => h
  case recvFirst => exact start _ _ _ _ _ _ rfl fun _ h => h
  case recvSingle => exact start _ _ _ _ _ _ rfl fun _ h => h
  case handed => exact mod _ _ _ rfl fun _ h => h
  all_goals exact same (by first | rfl | (simp; done))

theorem step_rcv_closed {s : Session} {r : Ref} {l : Rcv} (hl : s.rcv? r = some l) (hc : l.closed = true) (a : Step) :
    ∃ l', (s.step a).rcv? r = some l' ∧ l'.closed = true :=
  (Session.step_micros s a).invariant (P := fun s' => ∃ l', s'.rcv? r = some l' ∧ l'.closed = true)
    (fun _ _ h ⟨_, h1, h2⟩ => h.rcv_closed h1 h2) ⟨l, hl, hc⟩

end Amqp.Rt
