import Verif.Lemmas.SessionAccept
import Verif.Lemmas.SessionAttach
import Verif.Spec.Lifetime
/-!
# Which links this side has attached
-/

namespace Amqp.Rt

/-- What an event says about the links of this side: attached or detached, under which handle. -/
def Ev.life? : Ev → Option (UInt32 × Bool)
  | .frame (.attach a) => some (a.handle, true)
  | .frame (.detach d) => some (d.handle, false)
  | _ => none

def Session.life (s : Session) : List (UInt32 × Bool) := s.log.filterMap Ev.life?

namespace Session

theorem life_congr {s s' : Session} (h : s.log = s'.log) : s.life = s'.life := by simp [life, h]

theorem life_append {s s' : Session} {l : List Ev} (h : s'.log = s.log ++ l) (hl : ∀ e ∈ l, e.life? = none) :
    s'.life = s.life := by
  unfold life
  have : l.filterMap Ev.life? = [] := List.filterMap_eq_nil_iff.mpr hl
  rw [h, List.filterMap_append, this, List.append_nil]

theorem note_life {s : Session} {e : Ev} (h : e.life? = none) : (s.note e).life = s.life :=
  life_append (l := [e]) rfl (by simpa using h)

@[simp] theorem post_attach_life (s : Session) (a : Attach) : (s.post (.attach a)).life = s.life ++ [(a.handle, true)] := by
  simp [life, post, note, Ev.life?]
@[simp] theorem post_detach_life (s : Session) (a : Detach) : (s.post (.detach a)).life = s.life ++ [(a.handle, false)] := by
  simp [life, post, note, Ev.life?]
@[simp] theorem post_flow_life (s : Session) (a) : (s.post (.flow a)).life = s.life := note_life rfl
@[simp] theorem post_end_life (s : Session) (a) : (s.post (.end_ a)).life = s.life := note_life rfl

@[simp] theorem modSnd_life (s : Session) (r f) : (s.modSnd r f).life = s.life := rfl
@[simp] theorem modRcv_life (s : Session) (r f) : (s.modRcv r f).life = s.life := rfl
@[simp] theorem modSend_life (s : Session) (r f) : (s.modSend r f).life = s.life := rfl
@[simp] theorem modWait_life (s : Session) (r f) : (s.modWait r f).life = s.life := rfl
@[simp] theorem newOp_life (s : Session) : s.newOp.life = s.life := rfl
@[simp] theorem insertLink_life (s : Session) (l) : (s.insertLink l).life = s.life := rfl
@[simp] theorem note_panic_life (s : Session) : (s.note .panic).life = s.life := note_life rfl
@[simp] theorem note_overflow_life (s : Session) : (s.note .overflow).life = s.life := note_life rfl
@[simp] theorem note_attached_life (s : Session) (op l) : (s.note (.attached op l)).life = s.life := note_life rfl
@[simp] theorem note_attachFailed_life (s : Session) (op e) : (s.note (.attachFailed op e)).life = s.life := note_life rfl
@[simp] theorem note_detached_life (s : Session) (op e) : (s.note (.detached op e)).life = s.life := note_life rfl
@[simp] theorem note_opDropped_life (s : Session) (op) : (s.note (.opDropped op)).life = s.life := note_life rfl
@[simp] theorem note_refused_life (s : Session) (e) : (s.note (.refused e)).life = s.life := note_life rfl
@[simp] theorem note_peer_life (s : Session) (f) : (s.note (.peer f)).life = s.life := note_life rfl
@[simp] theorem note_control_life (s : Session) (f) : (s.note (.control f)).life = s.life := note_life rfl
@[simp] theorem note_closeSession_life (s : Session) (f) : (s.note (.closeSession f)).life = s.life := note_life rfl
@[simp] theorem note_granted_life (s : Session) (r n) : (s.note (.granted r n)).life = s.life := note_life rfl
@[simp] theorem note_windowed_life (s : Session) (f) : (s.note (.windowed f)).life = s.life := note_life rfl

@[simp] theorem note_received_life (s : Session) (r t) : (s.note (.received r t)).life = s.life := note_life rfl
@[simp] theorem note_declined_life (s : Session) (r t) : (s.note (.declined r t)).life = s.life := note_life rfl
@[simp] theorem note_handed_life (s : Session) (r d t) : (s.note (.handed r d t)).life = s.life := note_life rfl

theorem foldl_life {α : Type} {f : Session → α → Session} (h : ∀ s a, (f s a).life = s.life) (l : List α) (s : Session) :
    (l.foldl f s).life = s.life := by
  induction l generalizing s with
  | nil => rfl
  | cons a l ih => exact (ih _).trans (h _ _)

@[simp] theorem dropLink_life (s : Session) (l : Link) : (s.dropLink l).life = s.life := by
  unfold dropLink; split <;> simp

@[simp] theorem setLink_life (s : Session) (k : Nat) (l : Link) : (s.setLink k l).life = s.life := by
  unfold setLink
  split
  · rw [dropLink_life]; rfl
  · rfl

@[simp] theorem removeLink_life (s : Session) (k : Nat) : (s.removeLink k).life = s.life := by
  unfold removeLink
  split
  · rw [dropLink_life]; rfl
  · rfl

@[simp] theorem drainPending_life (s : Session) (m) : (s.drainPending m).life = s.life := life_congr (by simp)
@[simp] theorem dropSent_life (s : Session) : s.dropSent.life = s.life := life_congr (by simp)
@[simp] theorem dropReceived_life (s : Session) : s.dropReceived.life = s.life := life_congr (by simp)
@[simp] theorem failDeliveries_life (s : Session) (b h e) : (s.failDeliveries b h e).life = s.life := life_congr (by simp)
@[simp] theorem sndRemoteDetached_life (s : Session) (r e) : (s.sndRemoteDetached r e).life = s.life := life_congr (by simp)
@[simp] theorem rcvRemoteDetached_life (s : Session) (r e) : (s.rcvRemoteDetached r e).life = s.life := rfl
@[simp] theorem finishSend_life (s : Session) (t r) : (s.finishSend t r).life = s.life := rfl
@[simp] theorem waitStart_life (s : Session) (r) : (s.waitStart r).life = s.life := life_congr (by simp)
@[simp] theorem waitResume_life (s : Session) (r) : (s.waitResume r).life = s.life := life_congr (by simp)
@[simp] theorem startDelivery_life (s : Session) (r l id t) : (s.startDelivery r l id t).life = s.life :=
  life_congr (by simp)
@[simp] theorem applyFlow_life (s : Session) (r f) : (s.applyFlow r f).life = s.life :=
  life_append (applyFlow_log s r f) (by simp [Ev.life?])
@[simp] theorem emit_life (s : Session) (t req h tag) : (s.emit t req h tag).life = s.life :=
  life_append (emit_log s t req h tag) (by
    intro e he
    rcases List.mem_cons.mp he with rfl | he
    · rfl
    · obtain ⟨f, hf, rfl⟩ := List.mem_map.mp he
      obtain ⟨ts, hts⟩ := transferFrames_transfers s.maxFrameSize h s.nextOutgoingId tag req.body req.settled req.format
      rw [hts] at hf
      obtain ⟨_, _, rfl⟩ := List.mem_map.mp hf
      rfl)
@[simp] theorem takeCredit_life (s : Session) (t r) : (s.takeCredit t r).life = s.life :=
  life_append (takeCredit_log s t r) (by simp [Ev.life?])

@[simp] theorem settle_life (s : Session) (d st) : (s.settle d st).life = s.life := by
  rcases settle_log s d st with h | ⟨_, _, h⟩
  · exact life_congr h
  · exact life_append h (by simp [Ev.life?, dispFrame])

@[simp] theorem updateState_life (s : Session) (d st) : (s.updateState d st).life = s.life := by
  rcases updateState_log s d st with h | ⟨_, _, h⟩
  · exact life_congr h
  · exact life_append h (by simp [Ev.life?, dispFrame])

@[simp] theorem dropDelivery_life (s : Session) (d) : (s.dropDelivery d).life = s.life := by
  rcases dropDelivery_log s d with h | ⟨_, _, h⟩
  · exact life_congr h
  · exact life_append h (by simp [Ev.life?, dispFrame])

@[simp] theorem handleFlow_life (s : Session) (f : Flow) (l : Option Ref) : (s.handleFlow f l).life = s.life := by
  have h : ∀ a : Session, a.life = s.life → ((if f.echo then a.post a.echoFlow else a).life) = s.life := by
    intro a ha; split <;> simp [ha, echoFlow]
  have h' : ({ s.note (.windowed f) with
    nextIncomingId := f.nextOutgoingId
    remoteOutgoingWindow := f.outgoingWindow
    remoteIncomingWindow := (f.nextIncomingId.getD 0) + f.incomingWindow - s.nextOutgoingId } : Session).life = s.life :=
    note_windowed_life s f
  unfold handleFlow
  dsimp only
  split
  · rw [applyFlow_life]; exact h _ ((drainPending_life _ _).trans h')
  · exact h _ ((drainPending_life _ _).trans h')

@[simp] theorem windowLoop_life (s : Session) (t req tag) : (s.windowLoop t req tag).life = s.life := by
  unfold windowLoop
  split
  · dsimp only
    split
    · rfl
    · simp
  · rfl

@[simp] theorem creditLoop_life (s : Session) (t req tag) : (s.creditLoop t req tag).life = s.life := by
  unfold creditLoop
  split
  · split <;> simp
  · rfl

@[simp] theorem sendStart_life (s : Session) (req) : (s.sendStart req).life = s.life := by
  have go : ∀ t l, (sendStart.go req s t l).life = s.life := by
    intro t l
    unfold sendStart.go
    split
    · rw [creditLoop_life]; rfl
    · dsimp only; rw [creditLoop_life]; rfl
  unfold sendStart
  split
  · dsimp only
    split
    · rfl
    · split
      · rfl
      · split
        · split
          · rfl
          · exact go _ _
        · exact go _ _
  · rfl

@[simp] theorem sendResume_life (s : Session) (t) : (s.sendResume t).life = s.life := by
  unfold sendResume
  split
  · split <;> simp
  · split <;> simp
  · rfl

@[simp] theorem checkAdd_life (s : Session) (a b : UInt32) : (s.checkAdd a b).life = s.life := by
  unfold checkAdd; split <;> simp

@[simp] theorem setLinkCredit_life (s : Session) (r : Ref) (n : UInt32) : (s.setLinkCredit r n).life = s.life := by
  unfold setLinkCredit
  split
  · rw [rcvLinkFlow, post_flow_life, modRcv_life, checkAdd_life, note_granted_life]
  · rfl

@[simp] theorem countDelivery_life (s : Session) (r : Ref) (l : Rcv) : (s.countDelivery r l).life = s.life := by
  unfold countDelivery
  rw [modRcv_life, checkAdd_life]

@[simp] theorem charge_life (s : Session) (r t) : (s.charge r t).life = s.life := by
  unfold charge; split <;> simp

@[simp] theorem enqueue_life (s : Session) (a : Action) : (s.enqueue a).life = s.life := by
  unfold enqueue; split <;> rfl

@[simp] theorem sendCancel_life (s : Session) (t) : (s.sendCancel t).life = s.life := by
  unfold sendCancel; first | rfl | (split <;> first | rfl | simp)

@[simp] theorem disposeOne_life (b disp) (s : Session) (no) : (disposeOne b disp s no).life = s.life :=
  life_congr (by simp)

@[simp] theorem settleDeliveries_life (s : Session) (d) : (s.settleDeliveries d).life = s.life := by
  unfold settleDeliveries
  dsimp only
  split
  · exact foldl_life (fun s a => disposeOne_life _ _ s a) _ _
  · simp

@[simp] theorem newRemoteSender_life (s : Session) (a) : (s.newRemoteSender a).1.life = s.life := rfl
@[simp] theorem newRemoteReceiver_life (s : Session) (a) : (s.newRemoteReceiver a).1.life = s.life := rfl

@[simp] theorem handleAttach_life (s : Session) (a) : (s.handleAttach a).1.life = s.life := by
  unfold handleAttach
  split
  · split
    · dsimp only
      split
      · rw [note_attached_life]; rfl
      · rfl
    · rw [note_attached_life]; rfl
    · rfl
  · rfl

@[simp] theorem onAttach_life (s : Session) (a) : (s.onAttach a).1.life = s.life := by
  have h := handleAttach_life s a
  unfold onAttach
  split
  · next s' hs => rw [hs] at h; exact h
  · next s' hs => rw [hs] at h; split <;> exact h

@[simp] theorem forget_life (s : Session) (k h) : (s.forget k h).life = s.life := rfl

@[simp] theorem wakeAll_life (s : Session) (ts m) : (s.wakeAll ts m).life = s.life :=
  foldl_life (fun s t => by unfold wake; rfl) ts s

@[simp] theorem failPending_life (s : Session) (h e) : (s.failPending h e).life = s.life :=
  wakeAll_life s _ _

@[simp] theorem failLink_life (e) (s : Session) (l) : (failLink e s l).life = s.life := by
  unfold failLink; split <;> simp

@[simp] theorem clearLink_life (s : Session) (l) : (clearLink s l).life = s.life := by
  unfold clearLink; split <;> simp

@[simp] theorem failLinks_life (s : Session) (e) : (s.failLinks e).life = s.life :=
  (foldl_life (failLink_life e) _ _).trans rfl

@[simp] theorem clearLinks_life (s : Session) : s.clearLinks.life = s.life :=
  (foldl_life clearLink_life _ _).trans rfl

@[simp] theorem setError_life (s : Session) (e) : (s.setError e).life = s.life := by
  unfold setError; simp; rfl

@[simp] theorem remoteEnd_life (s : Session) (e) : (s.remoteEnd e).1.life = s.life := setError_life s _

@[simp] theorem endLocal_life (s : Session) : s.endLocal.life = s.life := by
  unfold endLocal
  split
  · rfl
  · split
    · rfl
    · rw [note_control_life]
      exact (post_end_life _ _).trans (note_closeSession_life _ _)

@[simp] theorem pollRecv_life (s : Session) (r) : (s.pollRecv r).1.life = s.life := by
  unfold pollRecv
  dsimp only
  (repeat' split) <;> simp

@[simp] theorem getDelivery_life (s : Session) (r) : (s.getDelivery r).1.life = s.life := by
  unfold getDelivery
  (repeat' split) <;> simp

@[simp] theorem finishFrame_life (x : Session × Except PErr Action) : (finishFrame x).life = x.1.life := by
  obtain ⟨s, a | a⟩ := x <;> simp [finishFrame]

/-! ## Attached links and their slots -/

/-- States of links that this side has attached and not detached. -/
def _root_.Amqp.Rt.Link.Up : Link → Prop
  | .snd (.opening _) | .snd (.established _) | .rcv (.openingLocal _) | .rcv (.established _) => True
  | _ => False

def _root_.Amqp.Rt.Link.Whole (x : Link) : Prop := x ≠ .rcv (.opening none)

/-- A change of the table of links together with the attaches and detaches that are sent. -/
inductive Turn (m : Slab Link) : Slab Link → List (UInt32 × Bool) → Prop
  | same : Turn m m []
  | clear : Turn m .empty []
  | insertUp (x : Link) (hw : x.Whole) : Turn m (m.insert x) [(UInt32.ofNat m.vacantKey, true)]
  | insertDown (x : Link) (hw : x.Whole) (hx : ¬ x.Up) : Turn m (m.insert x) []
  | attach (k) (x : Link) (hw : x.Whole) : Turn m (m.set k x) [(UInt32.ofNat k, true)]
  | confirm (k) (x old : Link) (hw : x.Whole) (hk : m.get k = some old) (ho : old.Up) : Turn m (m.set k x) []
  | detach (k) (x old : Link) (hw : x.Whole) (hk : m.get k = some old) (ho : old.Up) (hx : ¬ x.Up) :
      Turn m (m.set k x) [(UInt32.ofNat k, false)]
  | forget (k) : Turn m (m.remove k) []
  | remove (k) (old : Link) (hk : m.get k = some old) (ho : old.Up) : Turn m (m.remove k) [(UInt32.ofNat k, false)]
  | refuse (k) (hk : k < 2 ^ 32) : Turn m (m.remove k) [(UInt32.ofNat k, true), (UInt32.ofNat k, false)]

def Turned (s s' : Session) : Prop := ∃ evs, Turn s.links s'.links evs ∧ s'.life = s.life ++ evs

theorem Turned.silent {s s' : Session} (h : s'.links = s.links) (h' : s'.life = s.life) : Turned s s' :=
  ⟨[], by rw [h]; exact .same, by simp [h']⟩

theorem Turned.of {s s₁ s' : Session} (h : Turned s₁ s') (hk : s₁.links = s.links) (hl : s₁.life = s.life) : Turned s s' := by
  obtain ⟨evs, h₁, h₂⟩ := h
  exact ⟨evs, hk ▸ h₁, hl ▸ h₂⟩

theorem Turned.to {s s₁ s' : Session} (h : Turned s s₁) (hk : s'.links = s₁.links) (hl : s'.life = s₁.life) : Turned s s' := by
  obtain ⟨evs, h₁, h₂⟩ := h
  exact ⟨evs, hk ▸ h₁, hl ▸ h₂⟩

theorem Turn.detached {m m' : Slab Link} {h : UInt32} {x old : Link} (hw : x.Whole) (hk : m.get h.toNat = some old)
    (ho : old.Up) (hx : ¬ x.Up) (hm : m' = m.set h.toNat x) : Turn m m' [(h, false)] := by
  have := Turn.detach h.toNat x old hw hk ho hx
  rw [UInt32.ofNat_toNat] at this
  exact hm ▸ this

theorem detachSender_turned (s : Session) (h c e) : Turned s (s.detachSender h c e) := by
  unfold detachSender
  dsimp only
  have hn : s.newOp.links = s.links := rfl
  rw [hn]
  split
  · next tx hk =>
    exact ⟨_, .detached (x := .snd (.closing (some s.ops))) (by simp [Link.Whole]) hk trivial (fun h => h)
      (by simp only [post_links, setLink_links, hn]), by simp⟩
  · next r hk =>
    exact ⟨_, .detached (x := .snd (.closing (some s.ops))) (by simp [Link.Whole]) hk trivial (fun h => h)
      (by simp only [note_links, post_links, setLink_links, hn]), by simp⟩
  · exact .silent rfl (by simp)

theorem closeSender_turned (s : Session) (r e) : Turned s (s.closeSender r e) := by
  unfold closeSender
  split
  · split
    · exact .silent rfl (by simp)
    · exact (detachSender_turned _ _ _ _).of rfl rfl
  · exact .silent rfl rfl

/-- No receiver link is in the middle of being accepted. -/
def Entire (m : Slab Link) : Prop := ∀ k, m.get k ≠ some (.rcv (.opening none))

theorem detachReceiver_turned (s : Session) (h c e) (hw : Entire s.links) : Turned s (s.detachReceiver h c e) := by
  unfold detachReceiver
  dsimp only
  have hn : s.newOp.links = s.links := rfl
  rw [hn]
  split
  · next inner hk =>
    rcases inner with _ | ⟨r, src⟩
    · exact absurd hk (hw _)
    · refine ⟨[(h, true), (h, false)], ?_, by simp⟩
      have := Turn.refuse (m := s.links) h.toNat h.toNat_lt
      rw [UInt32.ofNat_toNat] at this
      rw [removeLink_links]
      exact this
  · next r hk =>
    exact ⟨_, .detached (x := .rcv (.closing (some s.ops))) (by simp [Link.Whole]) hk trivial (fun h => h)
      (by simp only [note_links, post_links, setLink_links, hn]), by simp⟩
  · exact ⟨[], by rw [removeLink_links]; exact .forget _, by simp⟩
  · exact .silent rfl (by simp)
  · exact .silent rfl (by simp)

theorem closeReceiver_turned (s : Session) (r e) (hw : Entire s.links) : Turned s (s.closeReceiver r e) := by
  unfold closeReceiver
  split
  · next l hl =>
    split
    · exact .silent rfl (by simp)
    · exact (detachReceiver_turned s l.handle true e hw).to rfl rfl
  · exact .silent rfl rfl

theorem handleTransfer_turned (s : Session) (r : Ref) (t : Transfer) (hw : Entire s.links) :
    Turned s (s.handleTransfer r t).1 := by
  have close : ∀ (s' : Session) (e : Option Error), s'.links = s.links → s'.life = s.life →
      Turned s (s'.closeReceiver r e) := fun s' e hk hl => (closeReceiver_turned s' r e (hk ▸ hw)).of hk hl
  unfold handleTransfer
  split
  · exact .silent rfl rfl
  · next l hl =>
    split
    · exact close _ _ rfl (by simp)
    · split
      · next body hb =>
        unfold continueTransfer
        split
        · exact close _ _ (by simp [charge_links]) (by simp)
        · split
          · exact close _ _ (by simp [charge_links]) (by simp)
          · dsimp only
            split
            · exact .silent (by simp only [modRcv_links, note_links, charge_links]) (by simp)
            · split
              · exact .silent (by simp only [modRcv_links, note_links, charge_links, countDelivery_links]) (by simp)
              · exact close _ _ (by simp [charge_links]) (by simp)
      · unfold beginTransfer
        split
        · split
          · exact .silent (by simp only [modRcv_links, note_links, charge_links, startDelivery_links]) (by simp)
          · exact .silent (by simp only [countDelivery_links, note_links, charge_links, startDelivery_links]) (by simp)
        · exact close _ _ (by simp [charge_links]) (by simp)

theorem handleDetach_turned {s : Session} (hS : SndSlots s) (hR : RcvSlots s) (f : Detach) : Turned s (s.handleDetach f).1 := by
  have rm : ∀ (k : Nat) (s' : Session) h, s'.links = s.links → s'.life = s.life → Turned s (s'.forget k h) :=
    fun k s' h h1 h2 => ⟨[], by show Turn s.links (s'.links.remove k) []; rw [h1]; exact .forget _, by simp [h2]⟩
  unfold handleDetach
  dsimp only
  split
  · exact .silent rfl rfl
  · next idx _ =>
    split
    · exact .silent rfl rfl
    · next tx hk => exact rm idx _ _ (by split <;> rfl) (by split <;> simp)
    · next r hk =>
      obtain ⟨l, hl, hid⟩ := hS idx r hk
      rw [hl]
      refine ⟨[(UInt32.ofNat idx, false)], ?_, ?_⟩
      · simp only [modSnd_links]
        show Turn s.links ((s.detachEstablishedSender r l f).links.remove idx) _
        rw [detachEstablishedSender_links]
        exact .remove idx _ hk trivial
      · simp only [modSnd_life, forget_life, detachEstablishedSender, post_detach_life, sndRemoteDetached_life,
          failDeliveries_life, failPending_life, hid]
        rfl
    · next hk => exact rm idx _ _ rfl rfl
    · next tx hk => exact rm idx _ _ (by split <;> rfl) (by split <;> simp)
    · exact .silent rfl rfl
    · next item hk => exact rm idx _ _ (by split <;> rfl) (by split <;> simp)
    · next r hk =>
      obtain ⟨l, hl, hid⟩ := hR.handle idx _ r hk rfl
      rw [hl]
      refine ⟨[(UInt32.ofNat idx, false)], ?_, ?_⟩
      · simp only [modRcv_links]
        show Turn s.links ((s.detachEstablishedReceiver r l f).links.remove idx) _
        rw [detachEstablishedReceiver_links]
        exact .remove idx _ hk trivial
      · simp only [modRcv_life, forget_life, detachEstablishedReceiver, rcvRemoteDetached_life, post_detach_life,
          failDeliveries_life, hid]
    · next tx hk => exact rm idx _ _ (by split <;> rfl) (by split <;> simp)

theorem onAttach_turned (s : Session) (a : Attach) : Turned s (s.onAttach a).1 := by
  refine ⟨[], ?_, by simp⟩
  have hh : (s.handleAttach a).2 = true → Turn s.links (s.handleAttach a).1.links [] := by
    unfold handleAttach
    split
    · next index _ =>
      split
      · next tx hk =>
        intro _
        dsimp only
        cases tx <;> exact .confirm index _ _ (by simp [Link.Whole]) hk trivial
      · next r op hk => intro _; exact .confirm index _ _ (by simp [Link.Whole]) hk trivial
      · intro _; exact .same
    · intro h; cases h
  unfold onAttach
  split
  · next s' heq => rw [heq] at hh; exact hh rfl
  · next s' heq =>
    have : s' = s := by
      unfold handleAttach at heq
      split at heq
      · split at heq <;> cases heq
      · cases heq; rfl
    subst this
    split
    · exact .insertDown _ (by simp [Link.Whole]) (fun h => h)
    · exact .insertDown _ (by simp [Link.Whole]) (fun h => h)

theorem handleFrame_turned {s : Session} (hS : SndSlots s) (hR : RcvSlots s) (hw : Entire s.links) (f : Frame) :
    Turned s (s.handleFrame f).1 := by
  unfold handleFrame
  split
  · exact .silent rfl rfl
  · split
    · split
      · exact .silent rfl rfl
      · exact .silent (by rw [handleFlow_links]) (by simp)
    · exact .silent (by rw [settleDeliveries_links]) (by simp)
    · next t =>
      split
      · exact .silent rfl rfl
      · split
        · exact .silent rfl rfl
        · exact .silent rfl rfl
        · exact .silent rfl rfl
        · exact .silent rfl rfl
        · exact handleTransfer_turned _ _ _ hw
        · exact .silent rfl rfl
    · exact handleDetach_turned hS hR _
    · exact .silent rfl rfl

/-- The answer prepared for a receiver link names the handle of the link. -/
def Answer (s : Session) : Prop :=
  ∀ r g, .attached r g ∈ s.todo → ∃ l, s.rcv? r = some l ∧ g.handle = l.handle

theorem onComplete_turned {s : Session} (hw : Entire s.links) (hf : s.Fits) (ha : Answer s) (edit e) (t : Todo) (ht : t ∈ s.todo) :
    Turned s (s.onComplete edit e t) := by
  unfold onComplete
  split
  · split
    · exact closeReceiver_turned _ _ _ hw
    · exact .silent rfl rfl
  · next r g =>
    split
    · exact closeReceiver_turned _ _ _ hw
    · obtain ⟨l, hl, hg⟩ := ha r g ht
      refine Turned.to (s₁ := s.confirmReceiver r g) ?_ (by simp) (by simp)
      unfold confirmReceiver
      rw [hl]
      dsimp only
      split
      · next r' src hk =>
        refine ⟨[(l.handle, true)], ?_, by simp [hg]⟩
        have := Turn.attach (m := s.links) l.handle.toNat (.rcv (.established r')) (by simp [Link.Whole])
        rw [UInt32.ofNat_toNat] at this
        rw [post_links, setLink_links]
        exact this
      · exact .silent rfl rfl
  · next r a g =>
    split
    · next e =>
      unfold refuseSender
      split
      · next l hl =>
        exact ⟨_, by rw [removeLink_links]; exact .refuse l.id (hf.ids r l hl), by simp⟩
      · exact .silent rfl rfl
    · unfold confirmSender
      split
      · next l hl =>
        dsimp only
        split
        · refine ⟨[(UInt32.ofNat l.id, true)], ?_, ?_⟩
          · rw [post_links, setLink_links]
            exact .attach l.id (.snd (.established r)) (by simp [Link.Whole])
          · rw [post_attach_life, setLink_life]
            rfl
        · exact .silent rfl (by rw [note_panic_life]; rfl)
      · exact .silent rfl rfl
  · split
    · exact closeSender_turned _ _ _
    · exact .silent (by simp) (by simp)
  · split
    · exact closeSender_turned _ _ _
    · exact .silent rfl rfl
  · split
    · exact closeReceiver_turned _ _ _ hw
    · exact .silent rfl rfl
  · exact .silent rfl rfl

theorem step_turned {s : Session} (hs : s.Reachable) (hw : Entire s.links) (hf : s.Fits) (ha : Answer s) (st : Step) : Turned s (s.step st) := by
  cases st
  case peer f =>
    show Turned s (s.onPeer f)
    have rest : ∀ f, Turned s (finishFrame ((s.note (.peer f)).handleFrame f)) := fun f =>
      ((handleFrame_turned (s := s.note (.peer f)) hs.sndSlots ⟨hs.rcvSlots.handle, hs.rcvSlots.unique⟩ hw f).of
        (s := s) rfl (note_peer_life s _)).to (by simp) (by simp)
    unfold onPeer
    cases f
    case attach a =>
      dsimp only
      split
      · exact .silent rfl (by simp)
      · exact (((onAttach_turned (s.note (.peer (.attach a))) a).of (s := s) rfl (by simp)).to (enqueue_links _ _) (enqueue_life _ _))
    case end_ e =>
      dsimp only
      split
      · exact .silent rfl (by simp)
      · exact ⟨[], by simp only [post_links, enqueue_links, remoteEnd_links]; exact .clear, by simp⟩
    all_goals
      exact rest _
  case endConfirmed e =>
    show Turned s (if s.error.isSome then s else (s.remoteEnd e.error).1 : Session)
    split
    · exact .silent rfl rfl
    · exact ⟨[], by rw [remoteEnd_links]; exact .clear, by simp⟩
  case complete i edit e =>
    show Turned s (match s.todo[i]? with
      | some t => let s := s.onComplete edit e t; { s with todo := s.todo.eraseIdx i }
      | none => s : Session)
    cases ht : s.todo[i]? with
    | some t => exact (onComplete_turned hw hf ha edit e t (List.mem_of_getElem? ht)).to rfl rfl
    | none => exact .silent rfl rfl
  case attachSender a =>
    exact ⟨_, .insertUp (.snd (.opening (some s.ops))) (by simp [Link.Whole]), by
      show (s.attachLocalSender a).life = _
      unfold attachLocalSender; dsimp only; rw [post_attach_life]; rfl⟩
  case attachReceiver a =>
    exact ⟨_, .insertUp (.rcv (.openingLocal (some (s.rcvs.length, s.ops)))) (by simp [Link.Whole]), by
      show (s.attachLocalReceiver a).life = _
      unfold attachLocalReceiver; dsimp only; rw [post_attach_life]; rfl⟩
  case closeSender r e => exact closeSender_turned _ _ _
  case detachSender h e => exact detachSender_turned _ _ _ _
  case closeReceiver r e => exact closeReceiver_turned _ _ _ hw
  case detachReceiver h e => exact detachReceiver_turned _ _ _ _ hw
  case fail e => exact ⟨[], by show Turn _ (s.setError e).links _; rw [setError_links]; exact .clear, by show (s.setError e).life = _; simp⟩
  all_goals
    refine .silent ?_ ?_
    · simp [step]
      try ((repeat' split) <;> simp)
    · simp [step]
      try ((repeat' split) <;> simp)

/-! ## The invariant -/

/-- The last thing sent about the handle is an attach. -/
def AttachedIn (h : UInt32) (life : List (UInt32 × Bool)) : Prop := ∃ l₁ l₂, life = l₁ ++ (h, true) :: l₂ ∧ (h, false) ∉ l₂

theorem attachedIn_last (h : UInt32) (life) : AttachedIn h (life ++ [(h, true)]) := ⟨life, [], rfl, by simp⟩

theorem AttachedIn.append {h : UInt32} {life} (hl : AttachedIn h life) {evs} (he : (h, false) ∉ evs) :
    AttachedIn h (life ++ evs) := by
  obtain ⟨l₁, l₂, rfl, hn⟩ := hl
  exact ⟨l₁, l₂ ++ evs, by simp, by simp [hn, he]⟩

/-- Every detach is about an attached link. -/
def Clean (life : List (UInt32 × Bool)) : Prop := ∀ l₁ h l₂, life = l₁ ++ (h, false) :: l₂ → AttachedIn h l₁

theorem Clean.snoc {life : List (UInt32 × Bool)} (hc : Clean life) {e : UInt32 × Bool} (he : e.2 = false → AttachedIn e.1 life) :
    Clean (life ++ [e]) := by
  intro l₁ h l₂ heq
  rcases List.eq_nil_or_concat l₂ with rfl | ⟨l₂, x, rfl⟩
  · obtain ⟨rfl, h'⟩ := List.append_inj' heq rfl
    cases h'
    exact he rfl
  · refine hc l₁ h l₂ ?_
    have : life ++ [e] = (l₁ ++ (h, false) :: l₂) ++ [x] := by rw [heq]; simp
    exact (List.append_inj' this rfl).1

structure LifeOk (m : Slab Link) (life : List (UInt32 × Bool)) : Prop where
  clean : Clean life
  up : ∀ k x, m.get k = some x → x.Up → AttachedIn (UInt32.ofNat k) life
  entire : Entire m

theorem ofNat_ne {k k' : Nat} (hk : k < 2 ^ 32) (hk' : k' < 2 ^ 32) (h : k ≠ k') : UInt32.ofNat k ≠ UInt32.ofNat k' := by
  intro he
  have := congrArg UInt32.toNat he
  rw [UInt32.toNat_ofNat_of_lt' hk, UInt32.toNat_ofNat_of_lt' hk'] at this
  exact h this

theorem Turn.lifeOk {m m' : Slab Link} {evs} (h : Turn m m' evs) (hm : m.Wf) (hf : ∀ k x, m.get k = some x → k < 2 ^ 32)
    {life} (hl : LifeOk m life) : LifeOk m' (life ++ evs) := by
  obtain ⟨hc, hu, he⟩ := hl
  have att : ∀ {k h' : UInt32}, AttachedIn k life → AttachedIn k (life ++ [(h', true)]) :=
    fun h => h.append (by simp)
  have cat : ∀ h' : UInt32, Clean (life ++ [(h', true)]) := fun h' => hc.snoc (by simp)
  have set : ∀ {k k' : Nat} {x y : Link}, (m.set k x).get k' = some y → (k = k' ∧ y = x) ∨ (k ≠ k' ∧ m.get k' = some y) := by
    intro k k' x y h
    rcases Slab.get_set_some h with ⟨h1, h2⟩ | ⟨h1, h2⟩
    · exact .inl ⟨h1, h2⟩
    · exact .inr ⟨h1, h2⟩
  cases h with
  | same => exact ⟨by simpa using hc, by simpa using hu, he⟩
  | clear => exact ⟨by simpa using hc, fun k x h => by simp [Slab.get_empty] at h, fun k h => by simp [Slab.get_empty] at h⟩
  | insertUp x hw =>
    refine ⟨cat _, fun k y hk hy => ?_, fun k hk => ?_⟩
    · rw [Slab.get_insert hm] at hk
      split at hk
      · next h => rw [h]; exact attachedIn_last _ _
      · exact att (hu k y hk hy)
    · rw [Slab.get_insert hm] at hk
      split at hk
      · exact hw (Option.some.inj hk)
      · exact he k hk
  | insertDown x hw hx =>
    refine ⟨by simpa using hc, fun k y hk hy => ?_, fun k hk => ?_⟩
    · rw [Slab.get_insert hm] at hk
      split at hk
      · cases hk; exact absurd hy hx
      · simpa using hu k y hk hy
    · rw [Slab.get_insert hm] at hk
      split at hk
      · exact hw (Option.some.inj hk)
      · exact he k hk
  | attach k x hw =>
    refine ⟨cat _, fun k' y hk hy => ?_, fun k' hk => ?_⟩
    · rcases set hk with ⟨rfl, _⟩ | ⟨_, h⟩
      · exact attachedIn_last _ _
      · exact att (hu k' y h hy)
    · rcases set hk with ⟨_, h⟩ | ⟨_, h⟩
      · exact hw h.symm
      · exact he k' h
  | confirm k x old hw hk₀ ho =>
    refine ⟨by simpa using hc, fun k' y hk hy => ?_, fun k' hk => ?_⟩
    · rcases set hk with ⟨rfl, _⟩ | ⟨_, h⟩
      · simpa using hu k old hk₀ ho
      · simpa using hu k' y h hy
    · rcases set hk with ⟨_, h⟩ | ⟨_, h⟩
      · exact hw h.symm
      · exact he k' h
  | detach k x old hw hk₀ ho hx =>
    refine ⟨hc.snoc fun _ => hu k old hk₀ ho, fun k' y hk hy => ?_, fun k' hk => ?_⟩
    · rcases set hk with ⟨_, rfl⟩ | ⟨hne, h⟩
      · exact absurd hy hx
      · exact (hu k' y h hy).append (by simpa using ofNat_ne (hf _ _ h) (hf _ _ hk₀) (Ne.symm hne))
    · rcases set hk with ⟨_, h⟩ | ⟨_, h⟩
      · exact hw h.symm
      · exact he k' h
  | forget k =>
    refine ⟨by simpa using hc, fun k' y hk hy => ?_, fun k' hk => ?_⟩
    · rw [Slab.get_remove] at hk
      split at hk
      · cases hk
      · simpa using hu k' y hk hy
    · rw [Slab.get_remove] at hk
      split at hk
      · cases hk
      · exact he k' hk
  | remove k old hk₀ ho =>
    refine ⟨hc.snoc fun _ => hu k old hk₀ ho, fun k' y hk hy => ?_, fun k' hk => ?_⟩
    · rw [Slab.get_remove] at hk
      split at hk
      · cases hk
      · next hne => exact (hu k' y hk hy).append (by simpa using ofNat_ne (hf _ _ hk) (hf _ _ hk₀) (Ne.symm hne))
    · rw [Slab.get_remove] at hk
      split at hk
      · cases hk
      · exact he k' hk
  | refuse k hk₀ =>
    refine ⟨?_, fun k' y hk hy => ?_, fun k' hk => ?_⟩
    · have := (cat (UInt32.ofNat k)).snoc (e := (UInt32.ofNat k, false)) fun _ => attachedIn_last _ _
      simpa using this
    · rw [Slab.get_remove] at hk
      split at hk
      · cases hk
      · next hne => exact (hu k' y hk hy).append (by simpa using ofNat_ne (hf _ _ hk) hk₀ (Ne.symm hne))
    · rw [Slab.get_remove] at hk
      split at hk
      · cases hk
      · exact he k' hk

theorem step_answer {s : Session} (hs : s.Reachable) (ha : Answer s) (st : Step) (hk : st.KeepsHandle) : Answer (s.step st) := by
  have keep : ∀ r g, .attached r g ∈ s.todo → ∃ l, (s.step st).rcv? r = some l ∧ g.handle = l.handle := by
    intro r g h
    obtain ⟨l, hl, hg⟩ := ha r g h
    obtain ⟨l', hl', hh⟩ := step_rcv_kept st hl
    exact ⟨l', hl', hg.trans hh.symm⟩
  intro r g hm
  rcases step_todo s st with ⟨i, edit, e, t, rfl, ht, h⟩ | ⟨h, _⟩ | ⟨act, h, _⟩
  · rw [h] at hm
    rcases List.mem_append.mp hm with hm | hm
    · exact keep r g (List.mem_of_mem_eraseIdx hm)
    · unfold nextTodo at hm
      split at hm
      · next r' a g' hm₀ =>
        split at hm
        · simp only [List.mem_cons, Todo.attached.injEq, List.not_mem_nil, or_false] at hm
          obtain ⟨rfl, rfl⟩ := hm
          obtain ⟨_, _, l, k, hl, hk₁, _, rfl⟩ := hs.asked.receiver r a g' (List.mem_of_getElem? ht)
          obtain ⟨l', hl', hh⟩ := step_rcv_kept (.complete i edit e) hl
          exact ⟨l', hl', by rw [hk, hh, hk₁]; rfl⟩
        · cases hm
      · cases hm
  · rw [h] at hm; exact keep r g hm
  · rw [h] at hm
    rcases List.mem_append.mp hm with hm | hm
    · exact keep r g hm
    · simp at hm

theorem run_lifeOk {s₀ : Session} (hf : Fresh s₀) (steps : List Step) (hk : ∀ st ∈ steps, st.KeepsHandle)
    (hb : ∀ p, p <+: steps → (s₀.run p).Fits) : LifeOk (s₀.run steps).links (s₀.run steps).life ∧ Answer (s₀.run steps) := by
  induction steps using List.reverseRecOn with
  | nil =>
    obtain ⟨_, _, _, _, _, rfl⟩ := hf
    exact ⟨⟨fun l₁ h l₂ he => by simp [run, life, Session.new] at he, fun k x h => by simp [run, Session.new, Slab.get_empty] at h,
      fun k h => by simp [run, Session.new, Slab.get_empty] at h⟩, fun r g h => by simp [run, Session.new] at h⟩
  | append_singleton steps st ih =>
    obtain ⟨ih, ha⟩ := ih (fun x hx => hk x (List.mem_append_left _ hx)) fun p hp => hb p (hp.trans (List.prefix_append _ _))
    have hr : (s₀.run steps).Reachable := ⟨s₀, steps, hf, rfl⟩
    have hfit := hb steps (List.prefix_append _ _)
    have : s₀.run (steps ++ [st]) = (s₀.run steps).step st := by simp [run]
    rw [this]
    obtain ⟨evs, ht, hl⟩ := step_turned hr ih.entire hfit ha st
    refine ⟨?_, step_answer hr ha st (hk st (by simp))⟩
    rw [hl]
    exact ht.lifeOk hr.linksWf hfit.slots ih

theorem AttachedIn.here {h : UInt32} {log : List Ev} (hl : AttachedIn h (log.filterMap Ev.life?)) : AttachedHere h log := by
  obtain ⟨l₁, l₂, he, hn⟩ := hl
  obtain ⟨m₁, m₂, rfl, h₁, h₂⟩ := List.filterMap_eq_append_iff.mp he
  obtain ⟨n₁, e, n₂, rfl, h₃, h₄, h₅⟩ := List.filterMap_eq_cons_iff.mp h₂
  have : ∃ a : Attach, e = .frame (.attach a) ∧ a.handle = h := by
    cases e <;> simp only [Ev.life?] at h₄ <;> try (cases h₄; done)
    next f =>
      cases f <;> simp only at h₄ <;> try (cases h₄; done)
      next a => exact ⟨a, rfl, by simpa using h₄⟩
  obtain ⟨a, rfl, ha⟩ := this
  refine ⟨m₁ ++ n₁, a, n₂, by simp, ha, fun d hd hh => hn ?_⟩
  rw [← h₅]
  exact List.mem_filterMap.mpr ⟨_, hd, by simp [Ev.life?, hh]⟩

theorem Clean.here {log : List Ev} (hc : Clean (log.filterMap Ev.life?)) {l₁ l₂ : List Ev} {d : Detach}
    (he : log = l₁ ++ .frame (.detach d) :: l₂) : AttachedHere d.handle l₁ :=
  (hc (l₁.filterMap Ev.life?) d.handle (l₂.filterMap Ev.life?) (by rw [he]; simp [Ev.life?])).here

end Session
end Amqp.Rt
