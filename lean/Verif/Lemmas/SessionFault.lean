import Verif.Lemmas.SessionRoute
/-!
# Where panics and overflows come from

`Ev.fault` selects the events that mark a panic or an overflow.  Every function of the session is followed as to which of
them it adds to the log.
-/

namespace Amqp.Rt

/-- A Rust panic, or an overflow that makes a debug build panic. -/
def Ev.fault : Ev → Bool
  | .panic | .overflow => true
  | _ => false

/-- The faults so far. -/
def Session.faults (s : Session) : List Ev := s.log.filter Ev.fault

namespace Session

theorem faults_congr {s s' : Session} (h : s.log = s'.log) : s.faults = s'.faults := by simp [faults, h]

theorem faults_append {s s' : Session} {l : List Ev} (h : s'.log = s.log ++ l) (hl : ∀ e ∈ l, e.fault = false) :
    s'.faults = s.faults := by
  unfold faults
  have : l.filter Ev.fault = [] := List.filter_eq_nil_iff.mpr (fun e he => by simp [hl e he])
  rw [h, List.filter_append, this, List.append_nil]

theorem note_faults {s : Session} {e : Ev} (h : e.fault = false) : (s.note e).faults = s.faults :=
  faults_append (l := [e]) rfl (by simpa using h)

@[simp] theorem post_faults (s : Session) (f : Frame) : (s.post f).faults = s.faults := note_faults rfl

@[simp] theorem modSnd_faults (s : Session) (r f) : (s.modSnd r f).faults = s.faults := rfl
@[simp] theorem modRcv_faults (s : Session) (r f) : (s.modRcv r f).faults = s.faults := rfl
@[simp] theorem modSend_faults (s : Session) (r f) : (s.modSend r f).faults = s.faults := rfl
@[simp] theorem modWait_faults (s : Session) (r f) : (s.modWait r f).faults = s.faults := rfl
@[simp] theorem newOp_faults (s : Session) : s.newOp.faults = s.faults := rfl
@[simp] theorem insertLink_faults (s : Session) (l) : (s.insertLink l).faults = s.faults := rfl
@[simp] theorem note_panic_faults (s : Session) : (s.note .panic).faults = s.faults ++ [.panic] := by
  simp [faults, Ev.fault]
@[simp] theorem note_overflow_faults (s : Session) : (s.note .overflow).faults = s.faults ++ [.overflow] := by
  simp [faults, Ev.fault]

@[simp] theorem note_attached_faults (s : Session) (op l) : (s.note (.attached op l)).faults = s.faults := note_faults rfl
@[simp] theorem note_attachFailed_faults (s : Session) (op e) : (s.note (.attachFailed op e)).faults = s.faults := note_faults rfl
@[simp] theorem note_detached_faults (s : Session) (op e) : (s.note (.detached op e)).faults = s.faults := note_faults rfl
@[simp] theorem note_opDropped_faults (s : Session) (op) : (s.note (.opDropped op)).faults = s.faults := note_faults rfl
@[simp] theorem note_refused_faults (s : Session) (e) : (s.note (.refused e)).faults = s.faults := note_faults rfl
@[simp] theorem note_peer_faults (s : Session) (f) : (s.note (.peer f)).faults = s.faults := note_faults rfl
@[simp] theorem note_control_faults (s : Session) (f) : (s.note (.control f)).faults = s.faults := note_faults rfl
@[simp] theorem note_closeSession_faults (s : Session) (f) : (s.note (.closeSession f)).faults = s.faults := note_faults rfl
@[simp] theorem note_received_faults (s : Session) (r t) : (s.note (.received r t)).faults = s.faults := note_faults rfl
@[simp] theorem note_declined_faults (s : Session) (r t) : (s.note (.declined r t)).faults = s.faults := note_faults rfl
@[simp] theorem note_granted_faults (s : Session) (r n) : (s.note (.granted r n)).faults = s.faults := note_faults rfl
@[simp] theorem note_handed_faults (s : Session) (r d t) : (s.note (.handed r d t)).faults = s.faults := note_faults rfl
@[simp] theorem note_windowed_faults (s : Session) (f) : (s.note (.windowed f)).faults = s.faults := note_faults rfl

theorem foldl_faults {α : Type} {f : Session → α → Session} (h : ∀ s a, (f s a).faults = s.faults) (l : List α) (s : Session) :
    (l.foldl f s).faults = s.faults := by
  induction l generalizing s with
  | nil => rfl
  | cons a l ih => exact (ih _).trans (h _ _)

@[simp] theorem dropLink_faults (s : Session) (l : Link) : (s.dropLink l).faults = s.faults := by
  unfold dropLink; split <;> simp

@[simp] theorem setLink_faults (s : Session) (k : Nat) (l : Link) : (s.setLink k l).faults = s.faults := by
  unfold setLink
  split
  · rw [dropLink_faults]; rfl
  · rfl

@[simp] theorem removeLink_faults (s : Session) (k : Nat) : (s.removeLink k).faults = s.faults := by
  unfold removeLink
  split
  · rw [dropLink_faults]; rfl
  · rfl

@[simp] theorem detachSender_faults (s : Session) (id : UInt32) (c : Bool) (e : Option Error) :
    (s.detachSender id c e).faults = s.faults := by
  unfold detachSender; dsimp only; split <;> simp

@[simp] theorem closeSender_faults (s : Session) (r : Ref) (e : Option Error) : (s.closeSender r e).faults = s.faults := by
  unfold closeSender; split
  · split <;> simp
  · rfl

/-- Detaching a receiver link that is still being opened by this side. -/
def opensHere (s : Session) (k : Nat) : Bool :=
  match s.links.get k with
  | some (.rcv (.openingLocal _)) => true
  | _ => false

theorem opensHere_iff (s : Session) (k : Nat) :
    s.opensHere k = true ↔ ∃ x, s.links.get k = some (.rcv (.openingLocal x)) := by
  unfold opensHere
  split
  · next x h => simp [h]
  · next h =>
    constructor
    · intro h; cases h
    · rintro ⟨x, hx⟩; exact absurd hx (h x)

theorem detachReceiver_faults (s : Session) (id : UInt32) (c : Bool) (e : Option Error) :
    (s.detachReceiver id c e).faults = s.faults ++ if s.opensHere id.toNat then [.panic] else [] := by
  have hn : s.newOp.links = s.links := rfl
  unfold detachReceiver opensHere
  dsimp only
  rw [hn]
  split
  · next inner h =>
    rw [removeLink_faults, note_detached_faults, post_faults]
    split <;> simp [h]
  · next r h => simp [h]
  · next h => simp [h]
  · next h => simp [h]
  · next h₁ h₂ h₃ h₄ =>
    split
    · next x h => exact absurd h (h₄ x)
    · simp

/-- A `close` that ends up at a slot where another link is being opened. -/
def closePanics (s : Session) (r : Ref) : Bool :=
  match s.rcv? r with
  | some l => !l.closed && s.opensHere l.handle.toNat
  | none => false

theorem closeReceiver_faults (s : Session) (r : Ref) (e : Option Error) :
    (s.closeReceiver r e).faults = s.faults ++ if s.closePanics r then [.panic] else [] := by
  unfold closeReceiver closePanics
  split
  · next l hl =>
    dsimp only
    rw [modRcv_faults]
    cases hc : l.closed
    · simp [detachReceiver_faults, hl, hc]
    · simp [hl, hc]
  · next hl => simp [hl]

@[simp] theorem drainPending_faults (s : Session) (m) : (s.drainPending m).faults = s.faults := faults_congr (by simp)
@[simp] theorem dropSent_faults (s : Session) : s.dropSent.faults = s.faults := faults_congr (by simp)
@[simp] theorem dropReceived_faults (s : Session) : s.dropReceived.faults = s.faults := faults_congr (by simp)
@[simp] theorem failDeliveries_faults (s : Session) (b h e) : (s.failDeliveries b h e).faults = s.faults := faults_congr (by simp)
@[simp] theorem sndRemoteDetached_faults (s : Session) (r e) : (s.sndRemoteDetached r e).faults = s.faults := faults_congr (by simp)
@[simp] theorem rcvRemoteDetached_faults (s : Session) (r e) : (s.rcvRemoteDetached r e).faults = s.faults := rfl
@[simp] theorem finishSend_faults (s : Session) (t r) : (s.finishSend t r).faults = s.faults := rfl
@[simp] theorem waitStart_faults (s : Session) (r) : (s.waitStart r).faults = s.faults := faults_congr (by simp)
@[simp] theorem waitResume_faults (s : Session) (r) : (s.waitResume r).faults = s.faults := faults_congr (by simp)
@[simp] theorem startDelivery_faults (s : Session) (r l id t) : (s.startDelivery r l id t).faults = s.faults :=
  faults_congr (by simp)
@[simp] theorem applyFlow_faults (s : Session) (r f) : (s.applyFlow r f).faults = s.faults :=
  faults_append (applyFlow_log s r f) (by simp [Ev.fault])
@[simp] theorem emit_faults (s : Session) (t req h tag) : (s.emit t req h tag).faults = s.faults :=
  faults_append (emit_log s t req h tag) (by
    intro e he
    rcases List.mem_cons.mp he with rfl | he
    · rfl
    · obtain ⟨f, _, rfl⟩ := List.mem_map.mp he; rfl)
@[simp] theorem takeCredit_faults (s : Session) (t r) : (s.takeCredit t r).faults = s.faults :=
  faults_append (takeCredit_log s t r) (by simp [Ev.fault])

@[simp] theorem settle_faults (s : Session) (d st) : (s.settle d st).faults = s.faults := by
  rcases settle_log s d st with h | ⟨_, _, h⟩
  · exact faults_congr h
  · exact faults_append h (by simp [Ev.fault])

@[simp] theorem updateState_faults (s : Session) (d st) : (s.updateState d st).faults = s.faults := by
  rcases updateState_log s d st with h | ⟨_, _, h⟩
  · exact faults_congr h
  · exact faults_append h (by simp [Ev.fault])

@[simp] theorem dropDelivery_faults (s : Session) (d) : (s.dropDelivery d).faults = s.faults := by
  rcases dropDelivery_log s d with h | ⟨_, _, h⟩
  · exact faults_congr h
  · exact faults_append h (by simp [Ev.fault])

@[simp] theorem handleFlow_faults (s : Session) (f : Flow) (l : Option Ref) : (s.handleFlow f l).faults = s.faults := by
  have h : ∀ a : Session, a.faults = s.faults → ((if f.echo then a.post a.echoFlow else a).faults) = s.faults := by
    intro a ha; split <;> simp [ha]
  have h' : ({ s.note (.windowed f) with
    nextIncomingId := f.nextOutgoingId
    remoteOutgoingWindow := f.outgoingWindow
    remoteIncomingWindow := (f.nextIncomingId.getD 0) + f.incomingWindow - s.nextOutgoingId } : Session).faults = s.faults :=
    note_windowed_faults s f
  unfold handleFlow
  dsimp only
  split
  · rw [applyFlow_faults]; exact h _ ((drainPending_faults _ _).trans h')
  · exact h _ ((drainPending_faults _ _).trans h')

@[simp] theorem windowLoop_faults (s : Session) (t req tag) : (s.windowLoop t req tag).faults = s.faults := by
  unfold windowLoop
  split
  · dsimp only
    split
    · rfl
    · simp
  · rfl

@[simp] theorem creditLoop_faults (s : Session) (t req tag) : (s.creditLoop t req tag).faults = s.faults := by
  unfold creditLoop
  split
  · split <;> simp
  · rfl

@[simp] theorem sendStart_faults (s : Session) (req) : (s.sendStart req).faults = s.faults := by
  have go : ∀ t l, (sendStart.go req s t l).faults = s.faults := by
    intro t l
    unfold sendStart.go
    split
    · rw [creditLoop_faults]; rfl
    · dsimp only; rw [creditLoop_faults]; rfl
  unfold sendStart
  split
  · dsimp only
    split
    · rfl
    · split
      · rfl
      · split
        · split
          · rfl
          · exact go _ _
        · exact go _ _
  · rfl

@[simp] theorem sendResume_faults (s : Session) (t) : (s.sendResume t).faults = s.faults := by
  unfold sendResume
  split
  · split <;> simp
  · split <;> simp
  · rfl

@[simp] theorem attachLocalSender_faults (s : Session) (a) : (s.attachLocalSender a).faults = s.faults := by
  unfold attachLocalSender; dsimp only; rw [post_faults]; rfl

@[simp] theorem attachLocalReceiver_faults (s : Session) (a) : (s.attachLocalReceiver a).faults = s.faults := by
  unfold attachLocalReceiver; dsimp only; rw [post_faults]; rfl

/-- The control service accepts a sender link whose slot is gone. -/
def acceptPanics (s : Session) (r : Ref) : Bool :=
  match s.snd? r with
  | some l => !s.links.contains l.id
  | none => false

theorem confirmSender_faults (s : Session) (a g : Attach) (r : Ref) :
    (s.confirmSender a g r).faults = s.faults ++ if s.acceptPanics r then [.panic] else [] := by
  unfold confirmSender acceptPanics
  split
  · next l hl =>
    have hc : (s.registerSender a l.id).links = s.links := rfl
    have hf : (s.registerSender a l.id).faults = s.faults := rfl
    dsimp only
    rw [hc]
    cases hk : s.links.contains l.id
    · simp [hf, hl, hk]
    · simp [hf, hl, hk]
  · next hl => simp [hl]

@[simp] theorem refuseSender_faults (s : Session) (a r e) : (s.refuseSender a r e).faults = s.faults := by
  unfold refuseSender; split <;> simp

@[simp] theorem confirmReceiver_faults (s : Session) (r a) : (s.confirmReceiver r a).faults = s.faults := by
  unfold confirmReceiver
  split
  · split <;> simp
  · rfl

theorem checkAdd_faults (s : Session) (a b : UInt32) :
    (s.checkAdd a b).faults = s.faults ++ if a.toNat + b.toNat < 2 ^ 32 then [] else [.overflow] := by
  unfold checkAdd; split <;> simp

/-- A grant that takes the credit of a link past 32 bits. -/
def grantOverflows (s : Session) (r : Ref) (n : UInt32) : Bool :=
  match s.rcv? r with
  | some l => decide (2 ^ 32 ≤ l.credit.toNat + n.toNat)
  | none => false

theorem setLinkCredit_faults (s : Session) (r : Ref) (n : UInt32) :
    (s.setLinkCredit r n).faults = s.faults ++ if s.grantOverflows r n then [.overflow] else [] := by
  unfold setLinkCredit grantOverflows
  split
  · next l hl =>
    rw [rcvLinkFlow, post_faults, modRcv_faults, checkAdd_faults, note_granted_faults]
    by_cases h : l.credit.toNat + n.toNat < 2 ^ 32
    · rw [if_pos h, if_neg (by simpa [hl] using h)]
    · rw [if_neg h, if_pos (by simpa [hl] using h)]
  · next hl => simp [hl]

@[simp] theorem charge_faults (s : Session) (r t) : (s.charge r t).faults = s.faults := by
  unfold charge; split <;> simp

/-- A delivery is complete on a link whose delivery-count is the largest there is. -/
def countOverflows (l : Rcv) : Bool := l.deliveryCount == 0xffffffff

theorem countDelivery_faults (s : Session) (r : Ref) (l : Rcv) :
    (s.countDelivery r l).faults = s.faults ++ if countOverflows l then [.overflow] else [] := by
  unfold countDelivery countOverflows
  rw [modRcv_faults, checkAdd_faults]
  by_cases h : l.deliveryCount = 0xffffffff
  · rw [if_neg (by rw [h]; decide), if_pos (by simp [h])]
  · rw [if_pos, if_neg (by simp [h])]
    have : l.deliveryCount.toNat ≠ 0xffffffff := fun hh => h (UInt32.toNat_inj.mp hh)
    have := l.deliveryCount.toNat_lt
    have h1 : (1 : UInt32).toNat = 1 := rfl
    omega

@[simp] theorem enqueue_faults (s : Session) (a : Action) : (s.enqueue a).faults = s.faults := by
  unfold enqueue; split <;> rfl

@[simp] theorem sendCancel_faults (s : Session) (t) : (s.sendCancel t).faults = s.faults := by
  unfold sendCancel; first | rfl | (split <;> first | rfl | simp)

@[simp] theorem disposeOne_faults (b disp) (s : Session) (no) : (disposeOne b disp s no).faults = s.faults :=
  faults_congr (by simp)

@[simp] theorem settleDeliveries_faults (s : Session) (d) : (s.settleDeliveries d).faults = s.faults := by
  unfold settleDeliveries
  dsimp only
  split
  · exact foldl_faults (fun s a => disposeOne_faults _ _ s a) _ _
  · simp

@[simp] theorem newRemoteSender_faults (s : Session) (a) : (s.newRemoteSender a).1.faults = s.faults := rfl
@[simp] theorem newRemoteReceiver_faults (s : Session) (a) : (s.newRemoteReceiver a).1.faults = s.faults := rfl

@[simp] theorem handleAttach_faults (s : Session) (a) : (s.handleAttach a).1.faults = s.faults := by
  unfold handleAttach
  split
  · split
    · dsimp only
      split
      · rw [note_attached_faults]; rfl
      · rfl
    · rw [note_attached_faults]; rfl
    · rfl
  · rfl

@[simp] theorem onAttach_faults (s : Session) (a) : (s.onAttach a).1.faults = s.faults := by
  have h := handleAttach_faults s a
  unfold onAttach
  split
  · next s' hs => rw [hs] at h; exact h
  · next s' hs => rw [hs] at h; split <;> exact h

@[simp] theorem forget_faults (s : Session) (k h) : (s.forget k h).faults = s.faults := rfl

@[simp] theorem wakeAll_faults (s : Session) (ts m) : (s.wakeAll ts m).faults = s.faults :=
  foldl_faults (fun s t => by unfold wake; rfl) ts s

@[simp] theorem failPending_faults (s : Session) (h e) : (s.failPending h e).faults = s.faults :=
  wakeAll_faults s _ _

@[simp] theorem detachEstablishedSender_faults (s : Session) (r l f) :
    (s.detachEstablishedSender r l f).faults = s.faults := by
  unfold detachEstablishedSender
  rw [post_faults, sndRemoteDetached_faults, failDeliveries_faults, failPending_faults]
  rfl

@[simp] theorem detachEstablishedReceiver_faults (s : Session) (r l f) :
    (s.detachEstablishedReceiver r l f).faults = s.faults := by
  unfold detachEstablishedReceiver
  rw [rcvRemoteDetached_faults, post_faults, failDeliveries_faults]

@[simp] theorem handleDetach_faults (s : Session) (f) : (s.handleDetach f).1.faults = s.faults := by
  unfold handleDetach
  dsimp only
  split
  · rfl
  · split
    · rfl
    · rw [forget_faults]; split <;> simp
    · split
      · simp
      · rfl
    · rfl
    · rw [forget_faults]; split <;> simp
    · rfl
    · rw [forget_faults]; split <;> simp
    · split
      · simp
      · rfl
    · rw [forget_faults]; split <;> simp

@[simp] theorem failLink_faults (e) (s : Session) (l) : (failLink e s l).faults = s.faults := by
  unfold failLink; split <;> simp

@[simp] theorem clearLink_faults (s : Session) (l) : (clearLink s l).faults = s.faults := by
  unfold clearLink; split <;> simp

@[simp] theorem failLinks_faults (s : Session) (e) : (s.failLinks e).faults = s.faults :=
  (foldl_faults (failLink_faults e) _ _).trans rfl

@[simp] theorem clearLinks_faults (s : Session) : s.clearLinks.faults = s.faults :=
  (foldl_faults clearLink_faults _ _).trans rfl

@[simp] theorem setError_faults (s : Session) (e) : (s.setError e).faults = s.faults := by
  unfold setError; simp; rfl

@[simp] theorem remoteEnd_faults (s : Session) (e) : (s.remoteEnd e).1.faults = s.faults := setError_faults s _

@[simp] theorem endLocal_faults (s : Session) : s.endLocal.faults = s.faults := by
  unfold endLocal
  split
  · rfl
  · split
    · rfl
    · rw [note_control_faults]
      exact (post_faults _ _).trans (note_closeSession_faults _ _)

@[simp] theorem pollRecv_faults (s : Session) (r) : (s.pollRecv r).1.faults = s.faults := by
  unfold pollRecv
  split
  · rfl
  · next l hl =>
    have hstop : (if l.closed then
        match l.error with
        | some e => (s.modRcv r fun l => { l with error := none }, Recv.error (.linkDetached (some e)))
        | none => (s, .ended)
      else (s, .pending)).1.faults = s.faults := by
      split
      · split <;> rfl
      · rfl
    dsimp only
    split
    · exact hstop
    · split
      · simp
      · exact hstop

@[simp] theorem getDelivery_faults (s : Session) (r) : (s.getDelivery r).1.faults = s.faults := by
  unfold getDelivery
  split
  · rfl
  · split
    · split <;> simp
    · rfl

/-! ## Transfers -/

/-- The transfer completes a delivery: it is not refused and says that no more follows. -/
def completes (s : Session) (l : Rcv) (t : Transfer) : Bool :=
  l.credit != 0 && !t.head.more &&
    match l.partialBody with
    | some body =>
      !(decide (t.head.deliveryId.isSome ∧ s.backId l ≠ t.head.deliveryId)) &&
        !(decide (t.body.isSome ∧ body.length + optSum TransferBody.esize t.body > l.maxMessageSize.toNat))
    | none => t.head.deliveryId.isSome

theorem closePanics_congr {s s' : Session} {r : Ref} {l : Rcv} (hl : s.rcv? r = some l)
    (h : s.opensHere l.handle.toNat = false) (hk : s'.links = s.links)
    (hr : ∀ l', s'.rcv? r = some l' → l'.handle = l.handle) : s'.closePanics r = false := by
  unfold closePanics
  split
  · next l' hl' =>
    have : s'.opensHere l'.handle.toNat = s.opensHere l.handle.toNat := by
      unfold opensHere; rw [hk, hr l' hl']
    rw [this, h, Bool.and_false]
  · rfl

/-- `closePanics` looks at the slots and at the handle of the link only. -/
theorem closeReceiver_faults_of {s s' : Session} {r : Ref} {l : Rcv} (e : Option Error) (hl : s.rcv? r = some l)
    (h : s.opensHere l.handle.toNat = false) (hk : s'.links = s.links)
    (hr : ∀ l', s'.rcv? r = some l' → l'.handle = l.handle) : (s'.closeReceiver r e).faults = s'.faults := by
  rw [closeReceiver_faults, closePanics_congr hl h hk hr]
  simp

theorem charge_links (s : Session) (r t) : (s.charge r t).links = s.links := by
  unfold charge; split <;> rfl

theorem rcv?_modRcv_handle {s : Session} {r : Ref} {f : Rcv → Rcv} {l : Rcv} (hf : ∀ l, (f l).handle = l.handle)
    (h : ∀ l', s.rcv? r = some l' → l'.handle = l.handle) : ∀ l', (s.modRcv r f).rcv? r = some l' → l'.handle = l.handle := by
  intro l' hl'
  have : (s.modRcv r f).rcv? r = (s.rcv? r).map f := by
    show (s.rcvs.modify r f)[r]? = _
    rw [List.getElem?_modify]; simp [rcv?]
  rw [this] at hl'
  obtain ⟨l₀, h₀, rfl⟩ := Option.map_eq_some_iff.mp hl'
  rw [hf, h l₀ h₀]

theorem handleTransfer_faults {s : Session} {r : Ref} {l : Rcv} (t : Transfer) (hl : s.rcv? r = some l)
    (h : s.opensHere l.handle.toNat = false) :
    (s.handleTransfer r t).1.faults = s.faults ++ if s.completes l t && countOverflows l then [.overflow] else [] := by
  have h0 : ∀ l', s.rcv? r = some l' → l'.handle = l.handle := fun l' h' => by
    rw [hl] at h'; cases h'; rfl
  have hc : ∀ l', (s.charge r t).rcv? r = some l' → l'.handle = l.handle := by
    unfold charge
    split
    · exact h0
    · exact rcv?_modRcv_handle (fun _ => rfl) h0
  have hcl := charge_links s r t
  have hback : (s.charge r t).backId l = s.backId l := backId_congr (charge_dlvs _ _ _) l
  have hn : ∀ (a : Session) e, (∀ l', a.rcv? r = some l' → l'.handle = l.handle) →
      ∀ l', (a.note e).rcv? r = some l' → l'.handle = l.handle := fun _ _ h => h
  unfold handleTransfer
  rw [hl]
  dsimp only
  by_cases hcr : l.credit = 0
  · rw [if_pos hcr]
    have : s.completes l t = false := by simp [completes, hcr]
    rw [this]
    rw [closeReceiver_faults_of (s' := s.note (.declined r t)) _ hl h rfl h0]
    simp
  · rw [if_neg hcr]
    cases hb : l.partialBody with
    | some body =>
      dsimp only
      unfold continueTransfer
      rw [hback]
      by_cases h1 : t.head.deliveryId.isSome ∧ s.backId l ≠ t.head.deliveryId
      · rw [if_pos h1]
        have : s.completes l t = false := by simp only [completes, hb]; simp [h1]
        rw [this]
        rw [closeReceiver_faults_of (s' := (s.charge r t).note (.declined r t)) _ hl h hcl hc]
        simp
      · rw [if_neg h1]
        by_cases h2 : t.body.isSome ∧ body.length + optSum TransferBody.esize t.body > l.maxMessageSize.toNat
        · rw [if_pos h2]
          have : s.completes l t = false := by simp only [completes, hb]; simp [h2]
          rw [this]
          rw [closeReceiver_faults_of (s' := (s.charge r t).note (.declined r t)) _ hl h hcl hc]
          simp
        · rw [if_neg h2]
          cases hm : t.head.more
          · have hcomp : s.completes l t = true := by
              simp only [completes, hb, hm, decide_eq_false h1, decide_eq_false h2]; simp [hcr]
            rw [hcomp, Bool.true_and]
            simp only [Bool.false_eq_true, if_false]
            have hq : ∀ a : Session, a.faults = s.faults → a.links = s.links →
                (∀ l', a.rcv? r = some l' → l'.handle = l.handle) →
                ((a.countDelivery r l).modRcv r fun l => { l with partialBody := none }).faults =
                  (s.faults ++ if countOverflows l then [.overflow] else []) ∧
                ((a.countDelivery r l).modRcv r fun l => { l with partialBody := none }).links = s.links ∧
                (∀ l', ((a.countDelivery r l).modRcv r fun l => { l with partialBody := none }).rcv? r = some l' →
                  l'.handle = l.handle) := by
              intro a ha hak har
              refine ⟨by rw [modRcv_faults, countDelivery_faults, ha], ?_, ?_⟩
              · unfold countDelivery checkAdd
                split <;> exact hak
              · refine rcv?_modRcv_handle (fun _ => rfl) ?_
                unfold countDelivery
                refine rcv?_modRcv_handle (fun _ => rfl) ?_
                unfold checkAdd
                split <;> exact har
            obtain ⟨q1, q2, q3⟩ := hq (((s.charge r t).note (.received r t)).modRcv r fun l =>
                { l with partialBody := some (body ++ optEnc TransferBody.tenc t.body) }) (by simp) hcl
                (rcv?_modRcv_handle (fun _ => rfl) hc)
            split
            · rw [modRcv_faults]; exact q1
            · rw [closeReceiver_faults_of _ hl h q2 q3]; exact q1
          · have hcomp : s.completes l t = false := by simp only [completes, hm]; simp
            rw [hcomp]
            simp
    | none =>
      dsimp only
      unfold beginTransfer
      cases hid : t.head.deliveryId with
      | some id =>
        dsimp only
        cases hm : t.head.more
        · have hcomp : s.completes l t = true := by simp only [completes, hb, hm, hid]; simp [hcr]
          rw [hcomp, Bool.true_and]
          simp [countDelivery_faults]
        · have hcomp : s.completes l t = false := by simp only [completes, hm]; simp
          rw [hcomp]
          simp
      | none =>
        have : s.completes l t = false := by simp only [completes, hb, hid]; simp
        rw [this]
        dsimp only
        rw [closeReceiver_faults_of (s' := (s.charge r t).note (.declined r t)) _ hl h hcl hc]
        simp

/-! ## Steps -/

/-- What a frame of the peer adds. -/
def peerFault (s : Session) (f : Frame) : List Ev :=
  match f with
  | .transfer t =>
    if s.error.isSome then [] else
    match (s.remoteHandles.get t.head.handle).bind s.links.get with
    | some (.rcv (.established r)) =>
      match s.rcv? r with
      | some l => if s.completes l t && countOverflows l then [.overflow] else []
      | none => []
    | _ => []
  | _ => []

@[simp] theorem finishFrame_ok_faults (s : Session) (a : Action) : (finishFrame (s, .ok a)).faults = s.faults := by
  simp [finishFrame]

@[simp] theorem finishFrame_error_faults (s : Session) (e : PErr) : (finishFrame (s, .error e)).faults = s.faults := by
  simp [finishFrame]

theorem finishFrame_faults (x : Session × Except PErr Action) : (finishFrame x).faults = x.1.faults := by
  obtain ⟨s, a | a⟩ := x <;> simp

theorem opensHere_established {s : Session} (hs : RcvSlots s) {k : Nat} (hk : k < 2 ^ 32) {r : Ref} {l : Rcv}
    (h : s.links.get k = some (.rcv (.established r))) (hl : s.rcv? r = some l) : s.opensHere l.handle.toNat = false := by
  obtain ⟨l', hl', hh⟩ := hs.handle k _ r h rfl
  rw [hl] at hl'
  cases hl'
  have : (UInt32.ofNat k).toNat = k := by simp; omega
  unfold opensHere
  rw [hh, this, h]

theorem handleFrame_faults {s : Session} (hs : RcvSlots s) (hfit : ∀ k x, s.links.get k = some x → k < 2 ^ 32) (f : Frame) :
    (s.handleFrame f).1.faults = s.faults ++ s.peerFault f := by
  unfold handleFrame peerFault
  by_cases he : s.error.isSome
  · rw [if_pos he]
    cases f <;> simp [he]
  · rw [if_neg he]
    cases f
    case transfer t =>
      dsimp only
      rw [if_neg he]
      cases hg : s.remoteHandles.get t.head.handle with
      | none => simp
      | some idx =>
        dsimp only [Option.bind_some]
        cases hk : s.links.get idx with
        | none => simp
        | some x =>
          have hx := hfit idx x hk
          rcases x with _ | (_ | _ | r | _)
          case rcv.established =>
            dsimp only
            obtain ⟨l, hl, _⟩ := hs.handle idx _ r hk rfl
            rw [handleTransfer_faults t hl (opensHere_established hs hx hk hl), hl]
          all_goals simp
    case flow fl =>
      dsimp only
      split <;> simp
    all_goals simp

theorem peer_faults {s : Session} (hs : s.Reachable) (hfit : ∀ k x, s.links.get k = some x → k < 2 ^ 32) (f : Frame) :
    (s.step (.peer f)).faults = s.faults ++ s.peerFault f := by
  have hr : RcvSlots (s.note (.peer f)) := ⟨hs.rcvSlots.handle, hs.rcvSlots.unique⟩
  have hh := handleFrame_faults hr hfit f
  have hp : (s.note (.peer f)).peerFault f = s.peerFault f := rfl
  rw [note_peer_faults, hp] at hh
  show (s.onPeer f).faults = _
  unfold onPeer
  cases f
  case attach a =>
    dsimp only
    split
    · simp [peerFault]
    · simp [peerFault]
  case end_ e =>
    dsimp only
    split
    · simp [peerFault]
    · simp [peerFault]
  all_goals (dsimp only; rw [finishFrame_faults]; exact hh)

/-- What the answer to a call of the control service adds. -/
def answerFault (s : Session) (edit : Attach → Attach) (e : Option Error) : Todo → List Ev
  | .ctl (.attachReceiver r _ _) | .ctl (.detachReceiver r _) =>
    if e.isSome && s.closePanics r then [.panic] else []
  | .attached r response =>
    if e.isSome then (if s.closePanics r then [.panic] else [])
    else if s.grantOverflows r 50 then [.overflow] else []
  | .ctl (.attachSender r _ _) => if e.isNone && s.acceptPanics r then [.panic] else []
  | _ => []

theorem confirmReceiver_rcvs (s : Session) (r a) : (s.confirmReceiver r a).rcvs = s.rcvs := by
  unfold confirmReceiver
  split
  · split
    · next h =>
      show (s.setLink _ _).rcvs = _
      unfold setLink
      rw [h]
      rfl
    · rfl
  · rfl

theorem onComplete_faults (s : Session) (edit e) (t : Todo) :
    (s.onComplete edit e t).faults = s.faults ++ s.answerFault edit e t := by
  unfold onComplete answerFault
  split
  · cases e
    · simp; rfl
    · simp [closeReceiver_faults]
  · cases e
    · simp only [setLinkCredit_faults, confirmReceiver_faults, grantOverflows, rcv?, confirmReceiver_rcvs]
      simp
    · simp [closeReceiver_faults]
  · cases e <;> simp [confirmSender_faults]
  · cases e <;> simp
  · cases e <;> simp
  · cases e <;> simp [closeReceiver_faults]
  · next a h1 h2 h3 h4 h5 => cases a <;> simp_all

/-- What a step adds. -/
def stepFault (s : Session) : Step → List Ev
  | .peer f => s.peerFault f
  | .complete i edit e =>
    match s.todo[i]? with
    | some t => s.answerFault edit e t
    | none => []
  | .closeReceiver r _ => if s.closePanics r then [.panic] else []
  | .detachReceiver h _ => if s.opensHere h.toNat then [.panic] else []
  | .grant r n => if s.grantOverflows r n then [.overflow] else []
  | _ => []

theorem step_faults {s : Session} (hs : s.Reachable) (hfit : ∀ k x, s.links.get k = some x → k < 2 ^ 32) (st : Step) :
    (s.step st).faults = s.faults ++ s.stepFault st := by
  cases st
  case peer f => exact peer_faults hs hfit f
  case complete i edit e =>
    show (match s.todo[i]? with
      | some t => let s := s.onComplete edit e t; { s with todo := s.todo.eraseIdx i }
      | none => s : Session).faults = _
    simp only [stepFault]
    cases s.todo[i]? with
    | some t => exact onComplete_faults s edit e t
    | none => simp
  case closeReceiver r e => exact closeReceiver_faults s r e
  case detachReceiver h e => exact detachReceiver_faults s h false e
  case grant r n => exact setLinkCredit_faults s r n
  case endConfirmed e => simp only [step, stepFault]; split <;> simp
  case settle => simp only [step, stepFault]; split <;> simp
  case update => simp only [step, stepFault]; split <;> simp
  case dropDelivery => simp only [step, stepFault]; split <;> simp
  case wait => simp only [step, stepFault]; split <;> simp
  all_goals simp [step, stepFault]

end Session
end Amqp.Rt
