import Verif.Lemmas.SessionAccept
import Verif.Lemmas.SessionSent
/-!
# Which steps put transfer frames on the wire
-/

namespace Amqp.Rt

/-- The transfer frames posted so far. -/
def Session.shipped (s : Session) : List Transfer := sentTransfers s.log

namespace Session

theorem shipped_congr {s s' : Session} (h : s.log = s'.log) : s.shipped = s'.shipped := by simp [shipped, h]

theorem shipped_append {s s' : Session} {l : List Ev} (h : s'.log = s.log ++ l) (hl : ∀ e ∈ l, e.transfer? = none) :
    s'.shipped = s.shipped := by
  unfold shipped sentTransfers
  have : l.filterMap Ev.transfer? = [] := List.filterMap_eq_nil_iff.mpr hl
  rw [h, List.filterMap_append, this, List.append_nil]

theorem note_shipped {s : Session} {e : Ev} (h : e.transfer? = none) : (s.note e).shipped = s.shipped :=
  shipped_append (l := [e]) rfl (by simpa using h)

@[simp] theorem post_attach_shipped (s : Session) (a : Attach) : (s.post (.attach a)).shipped = s.shipped := note_shipped rfl
@[simp] theorem post_detach_shipped (s : Session) (a : Detach) : (s.post (.detach a)).shipped = s.shipped := note_shipped rfl
@[simp] theorem post_flow_shipped (s : Session) (a) : (s.post (.flow a)).shipped = s.shipped := note_shipped rfl
@[simp] theorem post_end_shipped (s : Session) (a) : (s.post (.end_ a)).shipped = s.shipped := note_shipped rfl

@[simp] theorem modSnd_shipped (s : Session) (r f) : (s.modSnd r f).shipped = s.shipped := rfl
@[simp] theorem modRcv_shipped (s : Session) (r f) : (s.modRcv r f).shipped = s.shipped := rfl
@[simp] theorem modSend_shipped (s : Session) (r f) : (s.modSend r f).shipped = s.shipped := rfl
@[simp] theorem modWait_shipped (s : Session) (r f) : (s.modWait r f).shipped = s.shipped := rfl
@[simp] theorem newOp_shipped (s : Session) : s.newOp.shipped = s.shipped := rfl
@[simp] theorem insertLink_shipped (s : Session) (l) : (s.insertLink l).shipped = s.shipped := rfl
@[simp] theorem note_panic_shipped (s : Session) : (s.note .panic).shipped = s.shipped := note_shipped rfl
@[simp] theorem note_overflow_shipped (s : Session) : (s.note .overflow).shipped = s.shipped := note_shipped rfl
@[simp] theorem note_attached_shipped (s : Session) (op l) : (s.note (.attached op l)).shipped = s.shipped := note_shipped rfl
@[simp] theorem note_attachFailed_shipped (s : Session) (op e) : (s.note (.attachFailed op e)).shipped = s.shipped := note_shipped rfl
@[simp] theorem note_detached_shipped (s : Session) (op e) : (s.note (.detached op e)).shipped = s.shipped := note_shipped rfl
@[simp] theorem note_opDropped_shipped (s : Session) (op) : (s.note (.opDropped op)).shipped = s.shipped := note_shipped rfl
@[simp] theorem note_refused_shipped (s : Session) (e) : (s.note (.refused e)).shipped = s.shipped := note_shipped rfl
@[simp] theorem note_peer_shipped (s : Session) (f) : (s.note (.peer f)).shipped = s.shipped := note_shipped rfl
@[simp] theorem note_control_shipped (s : Session) (f) : (s.note (.control f)).shipped = s.shipped := note_shipped rfl
@[simp] theorem note_closeSession_shipped (s : Session) (f) : (s.note (.closeSession f)).shipped = s.shipped := note_shipped rfl
@[simp] theorem note_granted_shipped (s : Session) (r n) : (s.note (.granted r n)).shipped = s.shipped := note_shipped rfl
@[simp] theorem note_windowed_shipped (s : Session) (f) : (s.note (.windowed f)).shipped = s.shipped := note_shipped rfl

@[simp] theorem note_received_shipped (s : Session) (r t) : (s.note (.received r t)).shipped = s.shipped := note_shipped rfl
@[simp] theorem note_declined_shipped (s : Session) (r t) : (s.note (.declined r t)).shipped = s.shipped := note_shipped rfl
@[simp] theorem note_handed_shipped (s : Session) (r d t) : (s.note (.handed r d t)).shipped = s.shipped := note_shipped rfl

theorem foldl_shipped {α : Type} {f : Session → α → Session} (h : ∀ s a, (f s a).shipped = s.shipped) (l : List α) (s : Session) :
    (l.foldl f s).shipped = s.shipped := by
  induction l generalizing s with
  | nil => rfl
  | cons a l ih => exact (ih _).trans (h _ _)

@[simp] theorem dropLink_shipped (s : Session) (l : Link) : (s.dropLink l).shipped = s.shipped := by
  unfold dropLink; split <;> simp

@[simp] theorem setLink_shipped (s : Session) (k : Nat) (l : Link) : (s.setLink k l).shipped = s.shipped := by
  unfold setLink
  split
  · rw [dropLink_shipped]; rfl
  · rfl

@[simp] theorem removeLink_shipped (s : Session) (k : Nat) : (s.removeLink k).shipped = s.shipped := by
  unfold removeLink
  split
  · rw [dropLink_shipped]; rfl
  · rfl

@[simp] theorem detachSender_shipped (s : Session) (id : UInt32) (c : Bool) (e : Option Error) :
    (s.detachSender id c e).shipped = s.shipped := by
  unfold detachSender; dsimp only; split <;> simp

@[simp] theorem closeSender_shipped (s : Session) (r : Ref) (e : Option Error) : (s.closeSender r e).shipped = s.shipped := by
  unfold closeSender; split
  · split <;> simp
  · rfl

@[simp] theorem detachReceiver_shipped (s : Session) (id : UInt32) (c : Bool) (e : Option Error) :
    (s.detachReceiver id c e).shipped = s.shipped := by
  unfold detachReceiver
  dsimp only
  split
  · rw [removeLink_shipped, note_detached_shipped, post_detach_shipped]
    split <;> simp
  all_goals simp

@[simp] theorem closeReceiver_shipped (s : Session) (r : Ref) (e : Option Error) : (s.closeReceiver r e).shipped = s.shipped := by
  unfold closeReceiver
  split
  · dsimp only
    rw [modRcv_shipped]
    split <;> simp
  · rfl

@[simp] theorem drainPending_shipped (s : Session) (m) : (s.drainPending m).shipped = s.shipped := shipped_congr (by simp)
@[simp] theorem dropSent_shipped (s : Session) : s.dropSent.shipped = s.shipped := shipped_congr (by simp)
@[simp] theorem dropReceived_shipped (s : Session) : s.dropReceived.shipped = s.shipped := shipped_congr (by simp)
@[simp] theorem failDeliveries_shipped (s : Session) (b h e) : (s.failDeliveries b h e).shipped = s.shipped := shipped_congr (by simp)
@[simp] theorem sndRemoteDetached_shipped (s : Session) (r e) : (s.sndRemoteDetached r e).shipped = s.shipped := shipped_congr (by simp)
@[simp] theorem rcvRemoteDetached_shipped (s : Session) (r e) : (s.rcvRemoteDetached r e).shipped = s.shipped := rfl
@[simp] theorem finishSend_shipped (s : Session) (t r) : (s.finishSend t r).shipped = s.shipped := rfl
@[simp] theorem waitStart_shipped (s : Session) (r) : (s.waitStart r).shipped = s.shipped := shipped_congr (by simp)
@[simp] theorem waitResume_shipped (s : Session) (r) : (s.waitResume r).shipped = s.shipped := shipped_congr (by simp)
@[simp] theorem startDelivery_shipped (s : Session) (r l id t) : (s.startDelivery r l id t).shipped = s.shipped :=
  shipped_congr (by simp)
@[simp] theorem applyFlow_shipped (s : Session) (r f) : (s.applyFlow r f).shipped = s.shipped :=
  shipped_append (applyFlow_log s r f) (by simp [Ev.transfer?, dispFrame])
@[simp] theorem takeCredit_shipped (s : Session) (t r) : (s.takeCredit t r).shipped = s.shipped :=
  shipped_append (takeCredit_log s t r) (by simp [Ev.transfer?, dispFrame])

@[simp] theorem settle_shipped (s : Session) (d st) : (s.settle d st).shipped = s.shipped := by
  rcases settle_log s d st with h | ⟨_, _, h⟩
  · exact shipped_congr h
  · exact shipped_append h (by simp [Ev.transfer?, dispFrame])

@[simp] theorem updateState_shipped (s : Session) (d st) : (s.updateState d st).shipped = s.shipped := by
  rcases updateState_log s d st with h | ⟨_, _, h⟩
  · exact shipped_congr h
  · exact shipped_append h (by simp [Ev.transfer?, dispFrame])

@[simp] theorem dropDelivery_shipped (s : Session) (d) : (s.dropDelivery d).shipped = s.shipped := by
  rcases dropDelivery_log s d with h | ⟨_, _, h⟩
  · exact shipped_congr h
  · exact shipped_append h (by simp [Ev.transfer?, dispFrame])

@[simp] theorem handleFlow_shipped (s : Session) (f : Flow) (l : Option Ref) : (s.handleFlow f l).shipped = s.shipped := by
  have h : ∀ a : Session, a.shipped = s.shipped → ((if f.echo then a.post a.echoFlow else a).shipped) = s.shipped := by
    intro a ha; split <;> simp [ha, echoFlow]
  have h' : ({ s.note (.windowed f) with
    nextIncomingId := f.nextOutgoingId
    remoteOutgoingWindow := f.outgoingWindow
    remoteIncomingWindow := (f.nextIncomingId.getD 0) + f.incomingWindow - s.nextOutgoingId } : Session).shipped = s.shipped :=
    note_windowed_shipped s f
  unfold handleFlow
  dsimp only
  split
  · rw [applyFlow_shipped]; exact h _ ((drainPending_shipped _ _).trans h')
  · exact h _ ((drainPending_shipped _ _).trans h')

@[simp] theorem attachLocalSender_shipped (s : Session) (a) : (s.attachLocalSender a).shipped = s.shipped := by
  unfold attachLocalSender; dsimp only; rw [post_attach_shipped]; rfl

@[simp] theorem attachLocalReceiver_shipped (s : Session) (a) : (s.attachLocalReceiver a).shipped = s.shipped := by
  unfold attachLocalReceiver; dsimp only; rw [post_attach_shipped]; rfl

@[simp] theorem confirmSender_shipped (s : Session) (a g : Attach) (r : Ref) : (s.confirmSender a g r).shipped = s.shipped := by
  have hf : ∀ k, (s.registerSender a k).shipped = s.shipped := fun _ => rfl
  unfold confirmSender
  split
  · dsimp only
    split <;> simp [hf]
  · rfl

@[simp] theorem checkAdd_shipped (s : Session) (a b : UInt32) : (s.checkAdd a b).shipped = s.shipped := by
  unfold checkAdd; split <;> simp

@[simp] theorem setLinkCredit_shipped (s : Session) (r : Ref) (n : UInt32) : (s.setLinkCredit r n).shipped = s.shipped := by
  unfold setLinkCredit
  split
  · rw [rcvLinkFlow, post_flow_shipped, modRcv_shipped, checkAdd_shipped, note_granted_shipped]
  · rfl

@[simp] theorem countDelivery_shipped (s : Session) (r : Ref) (l : Rcv) : (s.countDelivery r l).shipped = s.shipped := by
  unfold countDelivery
  rw [modRcv_shipped, checkAdd_shipped]

@[simp] theorem refuseSender_shipped (s : Session) (a r e) : (s.refuseSender a r e).shipped = s.shipped := by
  unfold refuseSender; split <;> simp

@[simp] theorem confirmReceiver_shipped (s : Session) (r a) : (s.confirmReceiver r a).shipped = s.shipped := by
  unfold confirmReceiver
  split
  · split <;> simp
  · rfl

@[simp] theorem charge_shipped (s : Session) (r t) : (s.charge r t).shipped = s.shipped := by
  unfold charge; split <;> simp

@[simp] theorem enqueue_shipped (s : Session) (a : Action) : (s.enqueue a).shipped = s.shipped := by
  unfold enqueue; split <;> rfl

@[simp] theorem sendCancel_shipped (s : Session) (t) : (s.sendCancel t).shipped = s.shipped := by
  unfold sendCancel; first | rfl | (split <;> first | rfl | simp)

@[simp] theorem disposeOne_shipped (b disp) (s : Session) (no) : (disposeOne b disp s no).shipped = s.shipped :=
  shipped_congr (by simp)

@[simp] theorem settleDeliveries_shipped (s : Session) (d) : (s.settleDeliveries d).shipped = s.shipped := by
  unfold settleDeliveries
  dsimp only
  split
  · exact foldl_shipped (fun s a => disposeOne_shipped _ _ s a) _ _
  · simp

@[simp] theorem newRemoteSender_shipped (s : Session) (a) : (s.newRemoteSender a).1.shipped = s.shipped := rfl
@[simp] theorem newRemoteReceiver_shipped (s : Session) (a) : (s.newRemoteReceiver a).1.shipped = s.shipped := rfl

@[simp] theorem handleAttach_shipped (s : Session) (a) : (s.handleAttach a).1.shipped = s.shipped := by
  unfold handleAttach
  split
  · split
    · dsimp only
      split
      · rw [note_attached_shipped]; rfl
      · rfl
    · rw [note_attached_shipped]; rfl
    · rfl
  · rfl

@[simp] theorem onAttach_shipped (s : Session) (a) : (s.onAttach a).1.shipped = s.shipped := by
  have h := handleAttach_shipped s a
  unfold onAttach
  split
  · next s' hs => rw [hs] at h; exact h
  · next s' hs => rw [hs] at h; split <;> exact h

@[simp] theorem forget_shipped (s : Session) (k h) : (s.forget k h).shipped = s.shipped := rfl

@[simp] theorem wakeAll_shipped (s : Session) (ts m) : (s.wakeAll ts m).shipped = s.shipped :=
  foldl_shipped (fun s t => by unfold wake; rfl) ts s

@[simp] theorem failPending_shipped (s : Session) (h e) : (s.failPending h e).shipped = s.shipped :=
  wakeAll_shipped s _ _

@[simp] theorem detachEstablishedSender_shipped (s : Session) (r l f) :
    (s.detachEstablishedSender r l f).shipped = s.shipped := by
  unfold detachEstablishedSender
  rw [post_detach_shipped, sndRemoteDetached_shipped, failDeliveries_shipped, failPending_shipped]
  rfl

@[simp] theorem detachEstablishedReceiver_shipped (s : Session) (r l f) :
    (s.detachEstablishedReceiver r l f).shipped = s.shipped := by
  unfold detachEstablishedReceiver
  rw [rcvRemoteDetached_shipped, post_detach_shipped, failDeliveries_shipped]

@[simp] theorem handleDetach_shipped (s : Session) (f) : (s.handleDetach f).1.shipped = s.shipped := by
  unfold handleDetach
  dsimp only
  split
  · rfl
  · split
    · rfl
    · rw [forget_shipped]; split <;> simp
    · split
      · simp
      · rfl
    · rfl
    · rw [forget_shipped]; split <;> simp
    · rfl
    · rw [forget_shipped]; split <;> simp
    · split
      · simp
      · rfl
    · rw [forget_shipped]; split <;> simp

@[simp] theorem failLink_shipped (e) (s : Session) (l) : (failLink e s l).shipped = s.shipped := by
  unfold failLink; split <;> simp

@[simp] theorem clearLink_shipped (s : Session) (l) : (clearLink s l).shipped = s.shipped := by
  unfold clearLink; split <;> simp

@[simp] theorem failLinks_shipped (s : Session) (e) : (s.failLinks e).shipped = s.shipped :=
  (foldl_shipped (failLink_shipped e) _ _).trans rfl

@[simp] theorem clearLinks_shipped (s : Session) : s.clearLinks.shipped = s.shipped :=
  (foldl_shipped clearLink_shipped _ _).trans rfl

@[simp] theorem setError_shipped (s : Session) (e) : (s.setError e).shipped = s.shipped := by
  unfold setError; simp; rfl

@[simp] theorem remoteEnd_shipped (s : Session) (e) : (s.remoteEnd e).1.shipped = s.shipped := setError_shipped s _

@[simp] theorem endLocal_shipped (s : Session) : s.endLocal.shipped = s.shipped := by
  unfold endLocal
  split
  · rfl
  · split
    · rfl
    · rw [note_control_shipped]
      exact (post_end_shipped _ _).trans (note_closeSession_shipped _ _)


@[simp] theorem pollRecv_shipped (s : Session) (r) : (s.pollRecv r).1.shipped = s.shipped := by
  unfold pollRecv
  dsimp only
  (repeat' split) <;> simp

@[simp] theorem getDelivery_shipped (s : Session) (r) : (s.getDelivery r).1.shipped = s.shipped := by
  unfold getDelivery
  (repeat' split) <;> simp

@[simp] theorem finishFrame_shipped (x : Session × Except PErr Action) : (finishFrame x).shipped = x.1.shipped := by
  obtain ⟨s, a | a⟩ := x <;> simp [finishFrame]

@[simp] theorem handleTransfer_shipped (s : Session) (r t) : (s.handleTransfer r t).1.shipped = s.shipped := by
  unfold handleTransfer continueTransfer beginTransfer
  dsimp only
  (repeat' split) <;> simp

@[simp] theorem handleFrame_shipped (s : Session) (f) : (s.handleFrame f).1.shipped = s.shipped := by
  have h₁ := fun r t => handleTransfer_shipped s r t
  have h₂ := fun d => handleDetach_shipped s d
  unfold handleFrame
  (repeat' split) <;> first
    | (simp; done)
    | (next he => exact (congrArg (fun p => p.1.shipped) he).symm.trans (h₁ _ _))
    | (next he => exact (congrArg (fun p => p.1.shipped) he).symm.trans (h₂ _))

@[simp] theorem onPeer_shipped (s : Session) (f) : (s.onPeer f).shipped = s.shipped := by
  unfold onPeer
  dsimp only
  (repeat' split) <;> simp

@[simp] theorem onComplete_shipped (s : Session) (edit e t) : (s.onComplete edit e t).shipped = s.shipped := by
  unfold onComplete
  (repeat' split) <;> first | rfl | simp

/-- Only starting and resuming a send put transfer frames on the wire. -/
theorem step_shipped (s : Session) (st : Step) (h₁ : ∀ req, st ≠ .send req) (h₂ : ∀ t, st ≠ .resumeSend t) :
    (s.step st).shipped = s.shipped := by
  cases st
  case send req => exact absurd rfl (h₁ req)
  case resumeSend t => exact absurd rfl (h₂ t)
  case complete i edit e =>
    show (match s.todo[i]? with
      | some t => let s := s.onComplete edit e t; { s with todo := s.todo.eraseIdx i }
      | none => s : Session).shipped = _
    split
    · exact onComplete_shipped _ _ _ _
    · rfl
  all_goals
    simp only [step]
    try ((repeat' split) <;> simp)

/-! ## The frames of a send -/

theorem transferFrames_handle {mfs h id tag body settled format} {x : Transfer}
    (hx : .transfer x ∈ transferFrames mfs h id tag body settled format) : x.head.handle = h := by
  have chunk : ∀ (f : Option UInt32) (max n : Nat) (b : Bytes), .transfer x ∈ chunkFrames h f max n b → x.head.handle = h := by
    intro f max n
    induction n with
    | zero => intro b hb; simp [chunkFrames] at hb
    | succ n ih =>
      intro b hb
      unfold chunkFrames at hb
      split at hb
      · simp at hb
      · rcases List.mem_cons.mp hb with hb | hb
        · cases hb; rfl
        · exact ih _ hb
  unfold transferFrames at hx
  dsimp only at hx
  split at hx
  · rcases List.mem_cons.mp hx with hx | hx
    · cases hx; rfl
    · exact chunk _ _ _ _ hx
  · rcases List.mem_cons.mp hx with hx | hx
    · cases hx; rfl
    · cases hx

theorem emit_shipped (s : Session) (t req h tag) :
    ∃ ts, (s.emit t req h tag).shipped = s.shipped ++ ts ∧ ∀ x ∈ ts, x.head.handle = h := by
  unfold shipped
  rw [emit_log, sentTransfers_append]
  refine ⟨_, rfl, fun x hx => ?_⟩
  obtain ⟨e, he, hex⟩ := List.mem_filterMap.mp hx
  rcases List.mem_cons.mp he with rfl | he
  · cases hex
  · obtain ⟨f, hf, rfl⟩ := List.mem_map.mp he
    cases f <;> simp only [Ev.transfer?] at hex <;> try (cases hex; done)
    cases hex
    exact transferFrames_handle hf

/-- Only transfers for this link went out. -/
def ShipsFor (l : Snd) (s s' : Session) : Prop :=
  ∃ ts, s'.shipped = s.shipped ++ ts ∧ ∀ x ∈ ts, x.head.handle = UInt32.ofNat l.id

theorem windowLoop_shipped (s : Session) (t req tag) : (s.windowLoop t req tag).shipped = s.shipped ∨
    ∃ l, s.snd? req.link = some l ∧ ShipsFor l s (s.windowLoop t req tag) := by
  unfold windowLoop
  split
  · next l hl =>
    dsimp only
    split
    · exact .inl rfl
    · exact .inr ⟨l, hl, emit_shipped _ _ _ _ _⟩
  · exact .inl rfl

theorem creditLoop_shipped (s : Session) (t req tag) : (s.creditLoop t req tag).shipped = s.shipped ∨
    ∃ l, s.snd? req.link = some l ∧ l.linkCredit ≠ 0 ∧ ShipsFor l s (s.creditLoop t req tag) := by
  unfold creditLoop
  split
  · next l hl =>
    split
    · exact .inl rfl
    · next hc =>
      rcases windowLoop_shipped (s.takeCredit t req.link) t req tag with hx | ⟨l', hl', ts, h, hh⟩
      · exact .inl (by simpa using hx)
      · rw [takeCredit_snd?, if_pos rfl, hl] at hl'
        cases hl'
        exact .inr ⟨l, hl, fun h => hc (.inl h), ts, by simpa using h, hh⟩
  · exact .inl rfl

theorem sendStart_shipped (s : Session) (req) : (s.sendStart req).shipped = s.shipped ∨
    ∃ l, s.snd? req.link = some l ∧ l.linkCredit ≠ 0 ∧ l.closed = false ∧ ShipsFor l s (s.sendStart req) := by
  have go : ∀ t l, s.snd? req.link = some l → l.closed = false → (sendStart.go req s t l).shipped = s.shipped ∨
      ∃ l', s.snd? req.link = some l' ∧ l'.linkCredit ≠ 0 ∧ l'.closed = false ∧ ShipsFor l' s (sendStart.go req s t l) := by
    intro t l hl hc
    unfold sendStart.go
    split
    · rcases creditLoop_shipped _ _ _ _ with hx | ⟨l', hl', h⟩
      · exact .inl hx
      · obtain rfl : l = l' := Option.some.inj (hl.symm.trans hl')
        exact .inr ⟨l, hl, h.1, hc, h.2⟩
    · rcases creditLoop_shipped _ _ _ _ with hx | ⟨l', hl', h⟩
      · exact .inl hx
      · rw [modSnd_snd?, if_pos rfl] at hl'
        have hl' := (congrArg _ hl.symm).trans hl'
        cases hl'
        exact .inr ⟨l, hl, h.1, hc, h.2⟩
  unfold sendStart
  split
  · next l hl =>
    dsimp only
    split
    · exact .inl rfl
    · split
      · exact .inl rfl
      · next hc =>
        split
        · split
          · exact .inl rfl
          · exact go _ l hl (by simpa using hc)
        · exact go _ l hl (by simpa using hc)
  · exact .inl rfl

theorem sendResume_shipped (s : Session) (t) : (s.sendResume t).shipped = s.shipped ∨
    ∃ y l, s.sends[t]? = some y ∧ s.snd? y.req.link = some l ∧ (l.linkCredit ≠ 0 ∨ ∃ tag m, y.st = .window tag m) ∧
      ShipsFor l s (s.sendResume t) := by
  unfold sendResume
  split
  · next req tag mail ht =>
    split
    · exact .inl rfl
    · rcases creditLoop_shipped s t req tag with hx | ⟨l, hl, h₁, h₂⟩
      · exact .inl hx
      · exact .inr ⟨_, l, ht, hl, .inl h₁, h₂⟩
  · next req tag mail ht =>
    split
    · exact .inl rfl
    · rcases windowLoop_shipped s t req tag with hx | ⟨l, hl, h₁⟩
      · exact .inl hx
      · exact .inr ⟨_, l, ht, hl, .inr ⟨_, _, rfl⟩, h₁⟩
  · exact .inl rfl

end Session
end Amqp.Rt
