import Verif.Lemmas.SessionTalk
import Verif.Lemmas.Posted
/-!
# What the frames of a session contain
-/

namespace Amqp

namespace Rt

theorem senderResponse_fit {a : Attach} (h : a.Fit) (k : Nat) : (Session.senderResponse k a).Fit :=
  ⟨h.name, h.source, h.target, fit_none, fit_none, fit_none, fit_none⟩

theorem receiverResponse_fit {a : Attach} (h : a.Fit) (k : Nat) : (Session.receiverResponse k a).Fit :=
  ⟨h.name, h.source, h.target, fit_none, fit_none, fit_none, fit_none⟩

namespace Session

/-- The frames added, other than transfers, are `Fit`. -/
def Said (s s' : Session) : Prop := ∃ fs, s'.talk = s.talk ++ fs ∧ ∀ f ∈ fs, f.Fit

theorem Said.silent {s s' : Session} (h : s'.talk = s.talk) : Said s s' := ⟨[], by simp [h], by simp⟩

theorem Said.one {s s' : Session} {f : Frame} (h : s'.talk = s.talk ++ [f]) (hf : f.Fit) : Said s s' :=
  ⟨[f], h, by simpa using hf⟩

theorem Said.two {s s' : Session} {f g : Frame} (h : s'.talk = s.talk ++ [f] ++ [g]) (hf : f.Fit) (hg : g.Fit) : Said s s' :=
  ⟨[f, g], by simp [h], by simp [hf, hg]⟩

theorem Said.trans {s s' s'' : Session} (h : Said s s') (h' : Said s' s'') : Said s s'' := by
  obtain ⟨fs, h₁, h₂⟩ := h
  obtain ⟨gs, h₃, h₄⟩ := h'
  refine ⟨fs ++ gs, by rw [h₃, h₁, List.append_assoc], fun f hf => ?_⟩
  rcases List.mem_append.mp hf with hf | hf
  · exact h₂ f hf
  · exact h₄ f hf

theorem Said.of {s s₁ s' : Session} (h : Said s₁ s') (hl : s₁.talk = s.talk) : Said s s' := (Said.silent hl).trans h
theorem Said.to {s s₁ s' : Session} (h : Said s s₁) (hl : s'.talk = s₁.talk) : Said s s' := h.trans (Said.silent hl)

theorem talk_disposed {s s' : Session} {r : Ref} {b : Bool} {st : DeliveryState} {d : Dlv}
    (h : s'.log = s.log ++ [.disposed r b st, .frame (dispFrame d b st)]) (hst : Amqp.Fit st) : Said s s' := by
  refine Said.one (f := dispFrame d b st) ?_ (fit_some hst)
  unfold talk
  rw [h, List.filterMap_append]
  rfl

theorem settle_said (s : Session) (d st) (h : Amqp.Fit st) : Said s (s.settle d st) := by
  rcases settle_log s d st with hl | ⟨_, _, hl⟩
  · exact .silent (talk_congr hl)
  · exact talk_disposed hl h

theorem updateState_said (s : Session) (d st) (h : Amqp.Fit st) : Said s (s.updateState d st) := by
  rcases updateState_log s d st with hl | ⟨_, _, hl⟩
  · exact .silent (talk_congr hl)
  · exact talk_disposed hl h

theorem dropDelivery_said (s : Session) (d) : Said s (s.dropDelivery d) := by
  rcases dropDelivery_log s d with hl | ⟨_, _, hl⟩
  · exact .silent (talk_congr hl)
  · exact talk_disposed hl dropRejection_fit

theorem handleFlow_said (s : Session) (f : Flow) (l : Option Ref) : Said s (s.handleFlow f l) := by
  have h : ∀ a : Session, a.talk = s.talk → Said s (if f.echo then a.post a.echoFlow else a) := by
    intro a ha
    split
    · exact (Said.one (f := a.echoFlow) (post_flow_talk a _) fit_none).of ha
    · exact .silent ha
  have h' : ({ s.note (.windowed f) with
    nextIncomingId := f.nextOutgoingId
    remoteOutgoingWindow := f.outgoingWindow
    remoteIncomingWindow := (f.nextIncomingId.getD 0) + f.incomingWindow - s.nextOutgoingId } : Session).talk = s.talk :=
    note_windowed_talk s f
  unfold handleFlow
  dsimp only
  split
  · exact (h _ ((drainPending_talk _ _).trans h')).to (applyFlow_talk _ _ _)
  · exact h _ ((drainPending_talk _ _).trans h')

theorem setLinkCredit_said (s : Session) (r : Ref) (n : UInt32) : Said s (s.setLinkCredit r n) := by
  unfold setLinkCredit
  split
  · have hp : ∀ f : Flow, f.properties = none → (Frame.flow f).Fit := fun f h => by show Amqp.Fit f.properties; rw [h]; exact fit_none
    exact Said.one (by rw [rcvLinkFlow, post_flow_talk, modRcv_talk, checkAdd_talk, note_granted_talk]) (hp _ rfl)
  · exact .silent rfl

theorem endLocal_said (s : Session) : Said s s.endLocal := by
  unfold endLocal
  split
  · exact .silent rfl
  · split
    · exact .silent rfl
    · refine Said.one (f := .end_ { error := none }) ?_ fit_none
      rw [note_control_talk]
      exact (post_end_talk _ _).trans (by rw [note_closeSession_talk])

theorem detachSender_said (s : Session) (h c e) (he : Amqp.Fit e) : Said s (s.detachSender h c e) := by
  unfold detachSender
  dsimp only
  split
  · exact .one (f := .detach { handle := h, closed := c, error := e }) (by simp) he
  · exact .one (f := .detach { handle := h, closed := c, error := e }) (by simp) he
  · exact .silent (by simp)

theorem closeSender_said (s : Session) (r e) (he : Amqp.Fit e) : Said s (s.closeSender r e) := by
  unfold closeSender
  split
  · split
    · exact .silent (by simp)
    · exact (detachSender_said _ _ _ _ he).of rfl
  · exact .silent rfl

/-- The names of the receiver links. -/
def names (s : Session) : List Str := s.rcvs.map Rcv.name

theorem modRcv_names (s : Session) (r : Ref) (f : Rcv → Rcv) (hf : ∀ l, (f l).name = l.name) : (s.modRcv r f).names = s.names := by
  show (s.rcvs.modify r f).map Rcv.name = s.rcvs.map Rcv.name
  apply List.ext_getElem?
  intro i
  simp only [List.getElem?_map, List.getElem?_modify]
  split
  · cases s.rcvs[i]? with
    | none => rfl
    | some l => exact congrArg some (hf l)
  · simp

/-- What an attach that refuses a receiver link would contain. -/
def Opened (s : Session) : Prop := ∀ k r src, s.links.get k = some (.rcv (.opening (some (r, src)))) →
  Amqp.Fit src ∧ Amqp.Fit (s.names[r]?.getD ⟨[]⟩)

theorem Opened.congr {s s' : Session} (h : Opened s) (hk : s'.links = s.links) (hn : s'.names = s.names) : Opened s' := by
  unfold Opened at *
  rw [hk, hn]
  exact h

theorem rcv_name (s : Session) (r : Ref) : (s.rcv? r).map Rcv.name = s.names[r]? := by simp [rcv?, names]

theorem detachReceiver_said (s : Session) (h c e) (hw : Opened s) (he : Amqp.Fit e) : Said s (s.detachReceiver h c e) := by
  unfold detachReceiver
  dsimp only
  have hn : s.newOp.links = s.links := rfl
  rw [hn]
  split
  · next inner hk =>
    rcases inner with _ | ⟨r, src⟩
    · exact .one (f := .detach { handle := h, closed := c, error := e }) (by simp) he
    · obtain ⟨h₁, h₂⟩ := hw _ _ _ hk
      refine .two (g := .detach { handle := h, closed := c, error := e }) (by simp; rfl) ?_ he
      refine ⟨?_, h₁, fit_none, fit_none, fit_none, fit_none, fit_none⟩
      show Amqp.Fit (((s.rcv? r).map Rcv.name).getD ⟨[]⟩)
      rw [rcv_name]
      exact h₂
  · exact .one (f := .detach { handle := h, closed := c, error := e }) (by simp) he
  · exact .silent (by simp)
  · exact .silent (by simp)
  · exact .silent (by simp)

theorem closeReceiver_said (s : Session) (r e) (hw : Opened s) (he : Amqp.Fit e) : Said s (s.closeReceiver r e) := by
  unfold closeReceiver
  split
  · next l hl =>
    split
    · exact .silent (by simp)
    · exact (detachReceiver_said s l.handle true e hw he).to rfl
  · exact .silent rfl

@[simp] theorem charge_names (s : Session) (r t) : (s.charge r t).names = s.names := by
  unfold charge
  split
  · rfl
  · exact modRcv_names _ _ _ fun _ => rfl

@[simp] theorem note_names (s : Session) (e) : (s.note e).names = s.names := rfl

@[simp] theorem countDelivery_names (s : Session) (r l) : (s.countDelivery r l).names = s.names := by
  unfold countDelivery
  rw [modRcv_names]
  · unfold checkAdd; split <;> rfl
  · exact fun _ => rfl

theorem handleTransfer_said (s : Session) (r : Ref) (t : Transfer) (hw : Opened s) : Said s (s.handleTransfer r t).1 := by
  have close : ∀ (s' : Session) (e : Option Error), s'.links = s.links → s'.names = s.names → s'.talk = s.talk →
      Amqp.Fit e → Said s (s'.closeReceiver r e) :=
    fun s' e hk hn hl he => (closeReceiver_said s' r e (hw.congr hk hn) he).of hl
  unfold handleTransfer
  split
  · exact .silent rfl
  · next l hl =>
    split
    · exact close _ _ rfl rfl (by simp) (linkError_fit _ (by simp))
    · split
      · next body hb =>
        unfold continueTransfer
        split
        · exact close _ _ (by simp [charge_links]) (by simp) (by simp) (linkError_fit _ (by simp))
        · split
          · exact close _ _ (by simp [charge_links]) (by simp) (by simp) (linkError_fit _ (by simp))
          · dsimp only
            split
            · exact .silent (by simp)
            · split
              · exact .silent (by simp)
              · refine close _ _ (by simp [charge_links]) ?_ (by simp) (linkError_fit _ (by simp))
                exact (modRcv_names _ _ _ (by intro _; rfl)).trans ((countDelivery_names _ _ _).trans
                  ((modRcv_names _ _ _ (by intro _; rfl)).trans (by simp)))
      · unfold beginTransfer
        split
        · split
          · exact .silent (by simp)
          · exact .silent (by simp)
        · exact close _ _ (by simp [charge_links]) (by simp) (by simp) (linkError_fit _ (by simp))

theorem handleDetach_said (s : Session) (f : Detach) (hf : Amqp.Fit f.error) : Said s (s.handleDetach f).1 := by
  unfold handleDetach
  dsimp only
  split
  · exact .silent rfl
  · next idx _ =>
    split
    · exact .silent rfl
    · exact .silent (by rw [forget_talk]; split <;> simp)
    · split
      · next r _ l hl =>
        refine Said.one (f := .detach { handle := UInt32.ofNat l.id, closed := true, error := f.error }) ?_ hf
        simp only [modSnd_talk, forget_talk, detachEstablishedSender, post_detach_talk, sndRemoteDetached_talk,
          failDeliveries_talk, failPending_talk]
        rfl
      · exact .silent rfl
    · exact .silent (by simp)
    · exact .silent (by rw [forget_talk]; split <;> simp)
    · exact .silent rfl
    · exact .silent (by rw [forget_talk]; split <;> simp)
    · split
      · next r _ l hl =>
        refine Said.one (f := .detach { handle := l.handle, closed := true, error := none }) ?_ fit_none
        simp only [modRcv_talk, forget_talk, detachEstablishedReceiver, rcvRemoteDetached_talk, post_detach_talk,
          failDeliveries_talk]
      · exact .silent rfl
    · exact .silent (by rw [forget_talk]; split <;> simp)

theorem handleFrame_said (s : Session) (hw : Opened s) (f : Frame) (hf : ∀ d, f = .detach d → Amqp.Fit d.error) :
    Said s (s.handleFrame f).1 := by
  unfold handleFrame
  split
  · exact .silent rfl
  · split
    · split
      · exact .silent rfl
      · exact handleFlow_said _ _ _
    · exact .silent (by simp)
    · next t =>
      split
      · exact .silent rfl
      · split
        · exact .silent rfl
        · exact .silent rfl
        · exact .silent rfl
        · exact .silent rfl
        · exact handleTransfer_said _ _ _ hw
        · exact .silent rfl
    · next d => exact handleDetach_said _ _ (hf d rfl)
    · exact .silent rfl

/-- What a call in flight holds of attaches is `Fit`. -/
def _root_.Amqp.Rt.Todo.Fit : Todo → Prop
  | .ctl (.attachSender _ a g) => a.Fit ∧ g.Fit
  | .ctl (.attachReceiver _ _ g) => g.Fit
  | .attached _ g => g.Fit
  | _ => True

theorem onComplete_said (s : Session) (hw : Opened s) (edit e) (t : Todo) (ht : t.Fit)
    (hed : ∀ a : Attach, a.Fit → (edit a).Fit) (he : Amqp.Fit e) : Said s (s.onComplete edit e t) := by
  unfold onComplete
  split
  · split
    · exact closeReceiver_said _ _ _ hw he
    · exact .silent rfl
  · next r g =>
    split
    · exact closeReceiver_said _ _ _ hw he
    · refine Said.trans (s' := s.confirmReceiver r g) ?_ (setLinkCredit_said _ _ _)
      unfold confirmReceiver
      split
      · next l hl =>
        split
        · have hg : g.Fit := ht
          refine .one (post_attach_talk _ _ |>.trans (by rw [setLink_talk])) ?_
          exact Attach.Fit.same hg rfl rfl rfl rfl rfl rfl rfl
        · exact .silent rfl
      · exact .silent rfl
  · next r a g =>
    split
    · next e =>
      unfold refuseSender
      split
      · next l hl =>
        have ha : a.Fit := ht.1
        refine .two (g := .detach { handle := UInt32.ofNat l.id, closed := true, error := some e }) (by simp; rfl) ?_ he
        exact ⟨ha.name, fit_none, fit_none, fit_none, fit_none, fit_none, fit_none⟩
      · exact .silent rfl
    · unfold confirmSender
      split
      · next l hl =>
        dsimp only
        split
        · refine .one (f := .attach { edit g with
            handle := UInt32.ofNat l.id, maxMessageSize := l.maxMessageSize.map UInt32.toUInt64 }) ?_ ?_
          · rw [post_attach_talk, setLink_talk]; rfl
          · exact Attach.Fit.same (hed g ht.2) rfl rfl rfl rfl rfl rfl rfl
        · exact .silent (by rw [note_panic_talk]; rfl)
      · exact .silent rfl
  · split
    · exact closeSender_said _ _ _ he
    · exact handleFlow_said _ _ _
  · split
    · exact closeSender_said _ _ _ he
    · exact .silent rfl
  · split
    · exact closeReceiver_said _ _ _ hw he
    · exact .silent rfl
  · exact .silent rfl

theorem step_said {s : Session} (hw : Opened s) (ht : ∀ t ∈ s.todo, t.Fit) (st : Step) (h : st.Fit) : Said s (s.step st) := by
  cases st
  case peer f =>
    show Said s (s.onPeer f)
    have rest : ∀ f, (∀ d, f = .detach d → Amqp.Fit d.error) → Said s (finishFrame ((s.note (.peer f)).handleFrame f)) :=
      fun f hf => ((handleFrame_said (s.note (.peer f)) (hw.congr rfl rfl) f hf).of (s := s) (note_peer_talk s _)).to (by simp)
    unfold onPeer
    cases f
    case attach a =>
      dsimp only
      split
      · exact .silent (by simp)
      · exact .silent (by simp)
    case end_ e =>
      dsimp only
      split
      · exact .silent (by simp)
      · exact .one (f := .end_ { error := none }) (by rw [post_end_talk, enqueue_talk, remoteEnd_talk, note_peer_talk]) fit_none
    case detach d => exact rest _ (fun d' hd => by cases hd; exact h)
    all_goals exact rest _ (by intro d hd; cases hd)
  case endConfirmed e =>
    show Said s (if s.error.isSome then s else (s.remoteEnd e.error).1 : Session)
    split
    · exact .silent rfl
    · exact .silent (by simp)
  case complete i edit e =>
    show Said s (match s.todo[i]? with
      | some t => let s := s.onComplete edit e t; { s with todo := s.todo.eraseIdx i }
      | none => s : Session)
    cases hi : s.todo[i]? with
    | some t => exact (onComplete_said s hw edit e t (ht t (List.mem_of_getElem? hi)) h.1 h.2).to rfl
    | none => exact .silent rfl
  case attachSender a =>
    refine .one (f := .attach { a with handle := UInt32.ofNat s.links.vacantKey }) ?_
      (Attach.Fit.same (a := a) h rfl rfl rfl rfl rfl rfl rfl)
    show (s.attachLocalSender a).talk = _
    unfold attachLocalSender; dsimp only; rw [post_attach_talk]; rfl
  case attachReceiver a =>
    refine .one (f := .attach { a with handle := UInt32.ofNat s.links.vacantKey }) ?_
      (Attach.Fit.same (a := a) h rfl rfl rfl rfl rfl rfl rfl)
    show (s.attachLocalReceiver a).talk = _
    unfold attachLocalReceiver; dsimp only; rw [post_attach_talk]; rfl
  case closeSender r e => exact closeSender_said _ _ _ h
  case detachSender k e => exact detachSender_said _ _ _ _ h
  case closeReceiver r e => exact closeReceiver_said _ _ _ hw h
  case detachReceiver k e => exact detachReceiver_said _ _ _ _ hw h
  case grant r n => exact setLinkCredit_said _ _ _
  case settle d st =>
    show Said s (if s.free d then s.settle d st else s)
    split
    · exact settle_said _ _ _ h
    · exact .silent rfl
  case update d st =>
    show Said s (if s.free d then s.updateState d st else s)
    split
    · exact updateState_said _ _ _ h
    · exact .silent rfl
  case dropDelivery d =>
    show Said s (if s.free d then s.dropDelivery d else s)
    split
    · exact dropDelivery_said _ _
    · exact .silent rfl
  case endSession => exact endLocal_said _
  case fail e => exact .silent (setError_talk s e)
  all_goals
    refine .silent ?_
    · simp [step]
      try ((repeat' split) <;> simp)

end Session
end Rt
end Amqp
