import Verif.Lemmas.SessionAccept
import Verif.Lemmas.SessionAttach
import Verif.Spec.Requests
import Mathlib.Data.List.Induction
/-!
# Which requests are answered
-/

namespace Amqp.Rt

/-- The request an event answers; `none` for a panic. -/
def Ev.reply? : Ev → Option (Option Ref)
  | .attached o _ | .attachFailed o _ | .detached o _ | .opDropped o => some (some o)
  | .panic => some none
  | _ => none

def Session.replied (s : Session) : List (Option Ref) := s.log.filterMap Ev.reply?

/-- The request whose channel a link holds. -/
def Link.req? : Link → Option Ref
  | .snd (.opening (some o)) | .snd (.closing (some o)) | .rcv (.closing (some o)) | .rcv (.openingLocal (some (_, o))) => some o
  | _ => none

theorem Link.awaits_iff (op : Ref) (l : Link) : l.awaits op = (l.req? == some op) := by
  unfold Link.awaits Link.req?
  split <;> simp

namespace Slab
variable {α : Type}

theorem countP_slots (p : α → Bool) (l : List (Option α)) {k : Nat} {o : Option α} (h : l[k]? = some o) (x : Option α) :
    ((l.set k x).filterMap id).countP p + (o.toList.countP p) = (l.filterMap id).countP p + x.toList.countP p := by
  induction l generalizing k with
  | nil => simp at h
  | cons a l ih =>
    cases k with
    | zero =>
      simp only [List.getElem?_cons_zero, Option.some.injEq] at h
      subst h
      cases a <;> cases x <;> simp [List.countP_cons] <;> omega
    | succ k =>
      simp only [List.getElem?_cons_succ] at h
      have := ih h
      cases a with
      | none => exact this
      | some a =>
        show (a :: (l.set k x).filterMap id).countP p + _ = (a :: l.filterMap id).countP p + _
        simp only [List.countP_cons]
        omega

theorem countP_set (p : α → Bool) {m : Slab α} {k : Nat} {old : α} (h : m.get k = some old) (x : α) :
    (m.set k x).values.countP p + (if p old then 1 else 0) = m.values.countP p + if p x then 1 else 0 := by
  have := countP_slots p m.slots (get_eq_some.mp h) (some x)
  unfold set values
  rw [if_pos (by simp [contains, h])]
  simpa [List.countP_cons] using this

theorem countP_remove (p : α → Bool) {m : Slab α} {k : Nat} {old : α} (h : m.get k = some old) :
    (m.remove k).values.countP p + (if p old then 1 else 0) = m.values.countP p := by
  have := countP_slots p m.slots (get_eq_some.mp h) none
  unfold remove values
  rw [if_pos (by simp [contains, h])]
  simpa [List.countP_cons] using this

theorem countP_insert (p : α → Bool) {m : Slab α} (hw : m.Wf) (x : α) :
    (m.insert x).values.countP p = m.values.countP p + if p x then 1 else 0 := by
  unfold insert values
  split
  · simp [List.countP_cons]
  · next k free hf =>
    have := countP_slots p m.slots (hw.vacant k (by simp [hf])) (some x)
    simpa [List.countP_cons] using this

end Slab

namespace Session

theorem replied_congr {s s' : Session} (h : s.log = s'.log) : s.replied = s'.replied := by simp [replied, h]

theorem replied_append {s s' : Session} {l : List Ev} (h : s'.log = s.log ++ l) (hl : ∀ e ∈ l, e.reply? = none) :
    s'.replied = s.replied := by
  unfold replied
  have : l.filterMap Ev.reply? = [] := List.filterMap_eq_nil_iff.mpr hl
  rw [h, List.filterMap_append, this, List.append_nil]

theorem note_replied {s : Session} {e : Ev} (h : e.reply? = none) : (s.note e).replied = s.replied :=
  replied_append (l := [e]) rfl (by simpa using h)





@[simp] theorem post_replied (s : Session) (f) : (s.post f).replied = s.replied := note_replied rfl
theorem note_reply {s : Session} {e : Ev} {o} (h : e.reply? = some o) : (s.note e).replied = s.replied ++ [o] := by
  simp [replied, note, h]
@[simp] theorem note_panic_replied (s : Session) : (s.note .panic).replied = s.replied ++ [none] := note_reply rfl
@[simp] theorem note_attached_replied (s : Session) (op l) : (s.note (.attached op l)).replied = s.replied ++ [some op] := note_reply rfl
@[simp] theorem note_attachFailed_replied (s : Session) (op e) : (s.note (.attachFailed op e)).replied = s.replied ++ [some op] :=
  note_reply rfl
@[simp] theorem note_detached_replied (s : Session) (op e) : (s.note (.detached op e)).replied = s.replied ++ [some op] := note_reply rfl
@[simp] theorem note_opDropped_replied (s : Session) (op) : (s.note (.opDropped op)).replied = s.replied ++ [some op] := note_reply rfl

@[simp] theorem modSnd_replied (s : Session) (r f) : (s.modSnd r f).replied = s.replied := rfl
@[simp] theorem modRcv_replied (s : Session) (r f) : (s.modRcv r f).replied = s.replied := rfl
@[simp] theorem modSend_replied (s : Session) (r f) : (s.modSend r f).replied = s.replied := rfl
@[simp] theorem modWait_replied (s : Session) (r f) : (s.modWait r f).replied = s.replied := rfl
@[simp] theorem newOp_replied (s : Session) : s.newOp.replied = s.replied := rfl
@[simp] theorem insertLink_replied (s : Session) (l) : (s.insertLink l).replied = s.replied := rfl

@[simp] theorem note_overflow_replied (s : Session) : (s.note .overflow).replied = s.replied := note_replied rfl




@[simp] theorem note_refused_replied (s : Session) (e) : (s.note (.refused e)).replied = s.replied := note_replied rfl
@[simp] theorem note_peer_replied (s : Session) (f) : (s.note (.peer f)).replied = s.replied := note_replied rfl
@[simp] theorem note_control_replied (s : Session) (f) : (s.note (.control f)).replied = s.replied := note_replied rfl
@[simp] theorem note_closeSession_replied (s : Session) (f) : (s.note (.closeSession f)).replied = s.replied := note_replied rfl
@[simp] theorem note_granted_replied (s : Session) (r n) : (s.note (.granted r n)).replied = s.replied := note_replied rfl
@[simp] theorem note_windowed_replied (s : Session) (f) : (s.note (.windowed f)).replied = s.replied := note_replied rfl

@[simp] theorem note_received_replied (s : Session) (r t) : (s.note (.received r t)).replied = s.replied := note_replied rfl
@[simp] theorem note_declined_replied (s : Session) (r t) : (s.note (.declined r t)).replied = s.replied := note_replied rfl
@[simp] theorem note_handed_replied (s : Session) (r d t) : (s.note (.handed r d t)).replied = s.replied := note_replied rfl

theorem foldl_replied {α : Type} {f : Session → α → Session} (h : ∀ s a, (f s a).replied = s.replied) (l : List α) (s : Session) :
    (l.foldl f s).replied = s.replied := by
  induction l generalizing s with
  | nil => rfl
  | cons a l ih => exact (ih _).trans (h _ _)




@[simp] theorem drainPending_replied (s : Session) (m) : (s.drainPending m).replied = s.replied := replied_congr (by simp)
@[simp] theorem dropSent_replied (s : Session) : s.dropSent.replied = s.replied := replied_congr (by simp)
@[simp] theorem dropReceived_replied (s : Session) : s.dropReceived.replied = s.replied := replied_congr (by simp)
@[simp] theorem failDeliveries_replied (s : Session) (b h e) : (s.failDeliveries b h e).replied = s.replied := replied_congr (by simp)
@[simp] theorem sndRemoteDetached_replied (s : Session) (r e) : (s.sndRemoteDetached r e).replied = s.replied := replied_congr (by simp)
@[simp] theorem rcvRemoteDetached_replied (s : Session) (r e) : (s.rcvRemoteDetached r e).replied = s.replied := rfl
@[simp] theorem finishSend_replied (s : Session) (t r) : (s.finishSend t r).replied = s.replied := rfl
@[simp] theorem waitStart_replied (s : Session) (r) : (s.waitStart r).replied = s.replied := replied_congr (by simp)
@[simp] theorem waitResume_replied (s : Session) (r) : (s.waitResume r).replied = s.replied := replied_congr (by simp)
@[simp] theorem startDelivery_replied (s : Session) (r l id t) : (s.startDelivery r l id t).replied = s.replied :=
  replied_congr (by simp)
@[simp] theorem applyFlow_replied (s : Session) (r f) : (s.applyFlow r f).replied = s.replied :=
  replied_append (applyFlow_log s r f) (by simp [Ev.reply?])
@[simp] theorem emit_replied (s : Session) (t req h tag) : (s.emit t req h tag).replied = s.replied :=
  replied_append (emit_log s t req h tag) (by
    intro e he
    rcases List.mem_cons.mp he with rfl | he
    · rfl
    · obtain ⟨f, hf, rfl⟩ := List.mem_map.mp he
      obtain ⟨ts, hts⟩ := transferFrames_transfers s.maxFrameSize h s.nextOutgoingId tag req.body req.settled req.format
      rw [hts] at hf
      obtain ⟨_, _, rfl⟩ := List.mem_map.mp hf
      rfl)
@[simp] theorem takeCredit_replied (s : Session) (t r) : (s.takeCredit t r).replied = s.replied :=
  replied_append (takeCredit_log s t r) (by simp [Ev.reply?])

@[simp] theorem settle_replied (s : Session) (d st) : (s.settle d st).replied = s.replied := by
  rcases settle_log s d st with h | ⟨_, _, h⟩
  · exact replied_congr h
  · exact replied_append h (by simp [Ev.reply?, dispFrame])

@[simp] theorem updateState_replied (s : Session) (d st) : (s.updateState d st).replied = s.replied := by
  rcases updateState_log s d st with h | ⟨_, _, h⟩
  · exact replied_congr h
  · exact replied_append h (by simp [Ev.reply?, dispFrame])

@[simp] theorem dropDelivery_replied (s : Session) (d) : (s.dropDelivery d).replied = s.replied := by
  rcases dropDelivery_log s d with h | ⟨_, _, h⟩
  · exact replied_congr h
  · exact replied_append h (by simp [Ev.reply?, dispFrame])

@[simp] theorem handleFlow_replied (s : Session) (f : Flow) (l : Option Ref) : (s.handleFlow f l).replied = s.replied := by
  have h : ∀ a : Session, a.replied = s.replied → ((if f.echo then a.post a.echoFlow else a).replied) = s.replied := by
    intro a ha; split <;> simp [ha, echoFlow]
  have h' : ({ s.note (.windowed f) with
    nextIncomingId := f.nextOutgoingId
    remoteOutgoingWindow := f.outgoingWindow
    remoteIncomingWindow := (f.nextIncomingId.getD 0) + f.incomingWindow - s.nextOutgoingId } : Session).replied = s.replied :=
    note_windowed_replied s f
  unfold handleFlow
  dsimp only
  split
  · rw [applyFlow_replied]; exact h _ ((drainPending_replied _ _).trans h')
  · exact h _ ((drainPending_replied _ _).trans h')

@[simp] theorem windowLoop_replied (s : Session) (t req tag) : (s.windowLoop t req tag).replied = s.replied := by
  unfold windowLoop
  split
  · dsimp only
    split
    · rfl
    · simp
  · rfl

@[simp] theorem creditLoop_replied (s : Session) (t req tag) : (s.creditLoop t req tag).replied = s.replied := by
  unfold creditLoop
  split
  · split <;> simp
  · rfl

@[simp] theorem sendStart_replied (s : Session) (req) : (s.sendStart req).replied = s.replied := by
  have go : ∀ t l, (sendStart.go req s t l).replied = s.replied := by
    intro t l
    unfold sendStart.go
    split
    · rw [creditLoop_replied]; rfl
    · dsimp only; rw [creditLoop_replied]; rfl
  unfold sendStart
  split
  · dsimp only
    split
    · rfl
    · split
      · rfl
      · split
        · split
          · rfl
          · exact go _ _
        · exact go _ _
  · rfl

@[simp] theorem sendResume_replied (s : Session) (t) : (s.sendResume t).replied = s.replied := by
  unfold sendResume
  split
  · split <;> simp
  · split <;> simp
  · rfl

@[simp] theorem checkAdd_replied (s : Session) (a b : UInt32) : (s.checkAdd a b).replied = s.replied := by
  unfold checkAdd; split <;> simp

@[simp] theorem setLinkCredit_replied (s : Session) (r : Ref) (n : UInt32) : (s.setLinkCredit r n).replied = s.replied := by
  unfold setLinkCredit
  split
  · rw [rcvLinkFlow, post_replied, modRcv_replied, checkAdd_replied, note_granted_replied]
  · rfl

@[simp] theorem countDelivery_replied (s : Session) (r : Ref) (l : Rcv) : (s.countDelivery r l).replied = s.replied := by
  unfold countDelivery
  rw [modRcv_replied, checkAdd_replied]

@[simp] theorem charge_replied (s : Session) (r t) : (s.charge r t).replied = s.replied := by
  unfold charge; split <;> simp

@[simp] theorem enqueue_replied (s : Session) (a : Action) : (s.enqueue a).replied = s.replied := by
  unfold enqueue; split <;> rfl

@[simp] theorem sendCancel_replied (s : Session) (t) : (s.sendCancel t).replied = s.replied := by
  unfold sendCancel; first | rfl | (split <;> first | rfl | simp)

@[simp] theorem disposeOne_replied (b disp) (s : Session) (no) : (disposeOne b disp s no).replied = s.replied :=
  replied_congr (by simp)

@[simp] theorem settleDeliveries_replied (s : Session) (d) : (s.settleDeliveries d).replied = s.replied := by
  unfold settleDeliveries
  dsimp only
  split
  · exact foldl_replied (fun s a => disposeOne_replied _ _ s a) _ _
  · simp

@[simp] theorem newRemoteSender_replied (s : Session) (a) : (s.newRemoteSender a).1.replied = s.replied := rfl
@[simp] theorem newRemoteReceiver_replied (s : Session) (a) : (s.newRemoteReceiver a).1.replied = s.replied := rfl



@[simp] theorem forget_replied (s : Session) (k h) : (s.forget k h).replied = s.replied := rfl

@[simp] theorem wakeAll_replied (s : Session) (ts m) : (s.wakeAll ts m).replied = s.replied :=
  foldl_replied (fun s t => by unfold wake; rfl) ts s

@[simp] theorem failPending_replied (s : Session) (h e) : (s.failPending h e).replied = s.replied :=
  wakeAll_replied s _ _







@[simp] theorem endLocal_replied (s : Session) : s.endLocal.replied = s.replied := by
  unfold endLocal
  split
  · rfl
  · split
    · rfl
    · rw [note_control_replied]
      exact (post_replied _ _).trans (note_closeSession_replied _ _)

@[simp] theorem pollRecv_replied (s : Session) (r) : (s.pollRecv r).1.replied = s.replied := by
  unfold pollRecv
  dsimp only
  (repeat' split) <;> simp

@[simp] theorem getDelivery_replied (s : Session) (r) : (s.getDelivery r).1.replied = s.replied := by
  unfold getDelivery
  (repeat' split) <;> simp

@[simp] theorem finishFrame_replied (x : Session × Except PErr Action) : (finishFrame x).replied = x.1.replied := by
  obtain ⟨s, a | a⟩ := x <;> simp [finishFrame]

/-! ## Requests are accounted for -/

theorem answered_replied (s : Session) (op : Ref) : s.answered op = s.replied.count (some op) := by
  unfold answered replied
  induction s.log with
  | nil => rfl
  | cons e l ih =>
    rw [List.countP_cons, ih, List.filterMap_cons]
    cases e <;> simp [Ev.answers, Ev.reply?, List.count_cons]

/-- Answers given to request `op`, and links that hold its channel. -/
def bal (s : Session) (op : Nat) : Nat := s.replied.count (some op) + s.awaiting op

theorem bal_congr {s s' : Session} (h : s'.links = s.links) (h' : s'.replied = s.replied) (op) : s'.bal op = s.bal op := by
  unfold bal awaiting; rw [h, h']

/-- Requests made in between are accounted for once; nothing else changes. -/
structure Acct (s s' : Session) : Prop where
  ops : s.ops ≤ s'.ops
  le : ∀ op : Nat, s'.bal op ≤ s.bal op + if s.ops ≤ op ∧ op < s'.ops then 1 else 0
  eq : none ∉ s'.replied → none ∉ s.replied ∧ ∀ op : Nat, s'.bal op = s.bal op + if s.ops ≤ op ∧ op < s'.ops then 1 else 0

theorem Acct.trans {s s' s'' : Session} (h : Acct s s') (h' : Acct s' s'') : Acct s s'' := by
  have ho := h.ops
  have ho' := h'.ops
  refine ⟨by omega, fun op => ?_, fun hn => ?_⟩
  · have h₁ := h.le op
    have h₂ := h'.le op
    split at h₁ <;> split at h₂ <;> split <;> omega
  · obtain ⟨hn, h₂⟩ := h'.eq hn
    obtain ⟨hn, h₁⟩ := h.eq hn
    refine ⟨hn, fun op => ?_⟩
    have h₁ := h₁ op
    have h₂ := h₂ op
    split at h₁ <;> split at h₂ <;> split <;> omega

/-- No request is made; the answers given are those whose channels were held. -/
theorem Acct.keep {s s' : Session} {l : List (Option Ref)} (ho : s'.ops = s.ops) (hl : s'.replied = s.replied ++ l)
    (h : ∀ op : Nat, s'.bal op = s.bal op) : Acct s s' :=
  ⟨by omega, fun op => by rw [h]; omega, fun hn => ⟨fun hm => hn (by rw [hl]; simp [hm]), fun op => by
    rw [h, if_neg (by omega), Nat.add_zero]⟩⟩

theorem Acct.silent {s s' : Session} (hk : s'.links = s.links) (hl : s'.replied = s.replied) (ho : s'.ops = s.ops) : Acct s s' :=
  .keep (l := []) ho (by simp [hl]) (bal_congr hk hl)

/-- One request is made. -/
theorem Acct.one {s s' : Session} {l : List (Option Ref)} (ho : s'.ops = s.ops + 1) (hl : s'.replied = s.replied ++ l)
    (h : ∀ op : Nat, s'.bal op = s.bal op + if op = s.ops then 1 else 0) : Acct s s' := by
  have e : ∀ op : Nat, (if op = s.ops then 1 else 0) = if s.ops ≤ op ∧ op < s'.ops then 1 else 0 := by
    intro op
    rw [ho]
    split <;> split <;> omega
  exact ⟨by omega, fun op => by rw [h, e]; exact Nat.le_refl _, fun hn => ⟨fun hm => hn (by rw [hl]; simp [hm]), fun op => by rw [h, e]⟩⟩

theorem Acct.to {s s₁ s' : Session} (h : Acct s s₁) (hk : s'.links = s₁.links) (hl : s'.replied = s₁.replied) (ho : s'.ops = s₁.ops) :
    Acct s s' := h.trans (.silent hk hl ho)

theorem Acct.of {s s₁ s' : Session} (h : Acct s₁ s') (hk : s₁.links = s.links) (hl : s₁.replied = s.replied) (ho : s₁.ops = s.ops) :
    Acct s s' := (Acct.silent hk hl ho).trans h

theorem dropLink_replied (s : Session) (l : Link) : (s.dropLink l).replied = s.replied ++ (l.req?.toList.map some) := by
  unfold dropLink Link.req?
  split <;> simp

@[simp] theorem dropLink_ops (s : Session) (l : Link) : (s.dropLink l).ops = s.ops := by
  unfold dropLink; split <;> rfl

@[simp] theorem setLink_ops (s : Session) (k) (l : Link) : (s.setLink k l).ops = s.ops := by
  unfold setLink
  split
  · rw [dropLink_ops]
  · rfl

@[simp] theorem removeLink_ops (s : Session) (k) : (s.removeLink k).ops = s.ops := by
  unfold removeLink
  split
  · rw [dropLink_ops]
  · rfl

theorem count_req (l : Link) (op : Nat) : (l.req?.toList.map some).count (some op) = if l.awaits op then 1 else 0 := by
  rw [Link.awaits_iff]
  cases l.req? with
  | none => simp
  | some o => simp [List.count_cons]

/-- `*slot = x`: the channel that was held is dropped, the one of `x` is held now. -/
theorem setLink_bal {s : Session} {k : Nat} {old : Link} (h : s.links.get k = some old) (x : Link) (op : Nat) :
    (s.setLink k x).bal op = s.bal op + if x.awaits op then 1 else 0 := by
  have hs : (s.setLink k x).replied = s.replied ++ (old.req?.toList.map some) := by
    unfold setLink; rw [h]; dsimp only; rw [dropLink_replied]; rfl
  have := Slab.countP_set (Link.awaits op) h x
  unfold bal awaiting
  rw [hs, setLink_links, List.count_append, count_req]
  omega

theorem setLink_replied {s : Session} {k : Nat} {old : Link} (h : s.links.get k = some old) (x : Link) :
    (s.setLink k x).replied = s.replied ++ (old.req?.toList.map some) := by
  unfold setLink; rw [h]; dsimp only; rw [dropLink_replied]; rfl

theorem removeLink_replied (s : Session) (k : Nat) : ∃ l, (s.removeLink k).replied = s.replied ++ l := by
  unfold removeLink
  split
  · next old h => exact ⟨_, dropLink_replied _ old⟩
  · exact ⟨[], by simp⟩

theorem removeLink_bal (s : Session) (k : Nat) (op : Nat) : (s.removeLink k).bal op = s.bal op := by
  cases h : s.links.get k with
  | none => unfold removeLink; rw [h]
  | some old =>
    have hs : (s.removeLink k).replied = s.replied ++ (old.req?.toList.map some) := by
      unfold removeLink; rw [h]; dsimp only; rw [dropLink_replied]; rfl
    have := Slab.countP_remove (Link.awaits op) h
    unfold bal awaiting
    rw [hs, removeLink_links, List.count_append, count_req]
    omega

theorem removeLink_acct (s : Session) (k : Nat) : Acct s (s.removeLink k) := by
  obtain ⟨l, hl⟩ := removeLink_replied s k
  exact .keep (by simp) hl (removeLink_bal s k)

/-- A request that is answered at once. -/
theorem now_acct (s : Session) (r) : Acct s (s.newOp.note (.detached s.ops r)) :=
  .one rfl (note_detached_replied _ _ _) fun op => by
    unfold bal awaiting
    rw [note_detached_replied, note_links, List.count_append]
    show _ + _ + List.countP _ s.links.values = _
    rw [newOp_replied]
    by_cases ho : op = s.ops
    · subst ho; simp; omega
    · simp [ho, List.count_cons, Ne.symm ho]

/-- A request whose channel is put in place of what was in the slot. -/
theorem held_acct (s : Session) {k : Nat} {old x : Link} (h : s.links.get k = some old) (hx : x.req? = some s.ops) :
    Acct s (s.newOp.setLink k x) :=
  .one (by simp; rfl) (setLink_replied (s := s.newOp) h x) fun op => by
    rw [setLink_bal (s := s.newOp) h, Link.awaits_iff, hx]
    show s.bal op + _ = _
    by_cases ho : op = s.ops
    · subst ho; simp
    · simp [ho, Ne.symm ho]

theorem detachSender_acct (s : Session) (h c e) : Acct s (s.detachSender h c e) := by
  unfold detachSender
  dsimp only
  have hn : s.newOp.links = s.links := rfl
  rw [hn]
  split
  · next tx hk => exact (held_acct s hk (x := .snd (.closing (some s.ops))) rfl).to (by simp) (by simp) (by simp)
  · next r hk => exact (held_acct s hk (x := .snd (.closing (some s.ops))) rfl).to (by simp) (by simp) (by simp)
  · exact now_acct s _

theorem closeSender_acct (s : Session) (r e) : Acct s (s.closeSender r e) := by
  unfold closeSender
  split
  · split
    · exact now_acct s _
    · exact (detachSender_acct _ _ _ _).of rfl rfl rfl
  · exact .silent rfl rfl rfl

theorem detachReceiver_acct (s : Session) (h c e) : Acct s (s.detachReceiver h c e) := by
  unfold detachReceiver
  dsimp only
  have hn : s.newOp.links = s.links := rfl
  rw [hn]
  split
  · next inner hk =>
    refine Acct.trans ?_ (removeLink_acct _ _)
    refine Acct.trans (now_acct s (.ok ())) (.silent ?_ ?_ ?_)
    · rcases inner with _ | ⟨r, src⟩ <;> rfl
    · rcases inner with _ | ⟨r, src⟩ <;> simp
    · rcases inner with _ | ⟨r, src⟩ <;> rfl
  · next r hk => exact (held_acct s hk (x := .rcv (.closing (some s.ops))) rfl).to (by simp) (by simp) (by simp)
  · exact (now_acct s _).trans (removeLink_acct _ _)
  · refine ⟨Nat.le_succ _, fun op => ?_, fun hn => absurd (by simp) hn⟩
    have : (s.newOp.note .panic).bal op = s.bal op := by
      unfold bal awaiting
      rw [note_panic_replied, note_links, List.count_append]
      simp [newOp]
      rfl
    rw [this]; omega
  · exact now_acct s _

theorem closeReceiver_acct (s : Session) (r e) : Acct s (s.closeReceiver r e) := by
  unfold closeReceiver
  split
  · next l hl =>
    split
    · exact (now_acct s _).to rfl rfl rfl
    · exact (detachReceiver_acct s l.handle true e).to rfl rfl rfl
  · exact .silent rfl rfl rfl

/-! ## The other functions make no request -/

@[simp] theorem checkAdd_ops (s : Session) (a b) : (s.checkAdd a b).ops = s.ops := by unfold checkAdd; split <;> rfl
@[simp] theorem charge_ops (s : Session) (r t) : (s.charge r t).ops = s.ops := by unfold charge; split <;> rfl
@[simp] theorem countDelivery_ops (s : Session) (r l) : (s.countDelivery r l).ops = s.ops := by simp [countDelivery]
@[simp] theorem setLinkCredit_ops (s : Session) (r n) : (s.setLinkCredit r n).ops = s.ops := by
  unfold setLinkCredit
  split
  · simp [rcvLinkFlow]
  · rfl
@[simp] theorem enqueue_ops (s : Session) (a) : (s.enqueue a).ops = s.ops := by unfold enqueue; split <;> rfl
@[simp] theorem finishFrame_ops (x : Session × Except PErr Action) : (finishFrame x).ops = x.1.ops := by
  obtain ⟨s, a | a⟩ := x <;> simp [finishFrame]
@[simp] theorem handleFlow_ops (s : Session) (f : Flow) (l) : (s.handleFlow f l).ops = s.ops := by
  unfold handleFlow
  dsimp only
  (repeat' split) <;> simp
@[simp] theorem windowLoop_ops (s : Session) (t req tag) : (s.windowLoop t req tag).ops = s.ops := by
  unfold windowLoop
  (repeat' split) <;> simp
@[simp] theorem creditLoop_ops (s : Session) (t req tag) : (s.creditLoop t req tag).ops = s.ops := by
  unfold creditLoop
  (repeat' split) <;> simp
@[simp] theorem sendStart_ops (s : Session) (req) : (s.sendStart req).ops = s.ops := by
  have go : ∀ t l, (sendStart.go req s t l).ops = s.ops := by
    intro t l
    unfold sendStart.go
    split <;> simp
  unfold sendStart
  dsimp only
  (repeat' split) <;> first | rfl | exact go _ _
@[simp] theorem sendResume_ops (s : Session) (t) : (s.sendResume t).ops = s.ops := by
  unfold sendResume
  (repeat' split) <;> simp
@[simp] theorem settleDeliveries_ops (s : Session) (d) : (s.settleDeliveries d).ops = s.ops := by
  unfold settleDeliveries
  dsimp only
  split
  · exact foldl_field Session.ops (fun s a => by simp) _ _
  · simp
@[simp] theorem failPending_ops (s : Session) (h e) : (s.failPending h e).ops = s.ops := by simp [failPending]
@[simp] theorem detachEstablishedSender_ops (s : Session) (r l f) : (s.detachEstablishedSender r l f).ops = s.ops := by
  simp [detachEstablishedSender]
@[simp] theorem detachEstablishedReceiver_ops (s : Session) (r l f) : (s.detachEstablishedReceiver r l f).ops = s.ops := by
  simp [detachEstablishedReceiver]
@[simp] theorem pollRecv_ops (s : Session) (r) : (s.pollRecv r).1.ops = s.ops := by
  unfold pollRecv
  dsimp only
  (repeat' split) <;> simp
@[simp] theorem getDelivery_ops (s : Session) (r) : (s.getDelivery r).1.ops = s.ops := by
  unfold getDelivery
  (repeat' split) <;> simp
@[simp] theorem endLocal_ops (s : Session) : s.endLocal.ops = s.ops := by
  unfold endLocal
  (repeat' split) <;> simp

/-! ## Failing -/

/-- What `set_error` answers in its loop over the links. -/
def failReply : Link → List (Option Ref)
  | .snd (.closing (some op)) => [some op]
  | _ => []

/-- What it answers by dropping the links. -/
def clearReply : Link → List (Option Ref)
  | .snd (.closing _) => []
  | l => l.req?.toList.map some

theorem failLink_replied (e) (s : Session) (l) : (failLink e s l).replied = s.replied ++ failReply l := by
  unfold failLink
  split <;> simp [failReply]

theorem clearLink_replied (s : Session) (l) : (clearLink s l).replied = s.replied ++ clearReply l := by
  unfold clearLink
  split
  · simp [clearReply]
  · next h =>
    rw [dropLink_replied]
    unfold clearReply
    split
    · next op => exact absurd rfl (h _)
    · rfl

theorem foldl_said_append {f : Session → Link → Session} {g : Link → List (Option Ref)}
    (h : ∀ s a, (f s a).replied = s.replied ++ g a) (l : List Link) (s : Session) : (l.foldl f s).replied = s.replied ++ l.flatMap g := by
  induction l generalizing s with
  | nil => simp
  | cons a l ih => rw [List.foldl_cons, ih, h, List.flatMap_cons, List.append_assoc]

theorem setError_replied (s : Session) (e) :
    (s.setError e).replied = s.replied ++ s.links.values.flatMap failReply ++ s.links.values.flatMap clearReply := by
  unfold setError clearLinks
  rw [foldl_said_append clearLink_replied]
  have hl : ((({ s with error := some e, ended := true } : Session).drainPending (.error e)).dropSent).dropReceived.links = s.links := by
    simp
  have hk : (failLinks ((({ s with error := some e, ended := true } : Session).drainPending (.error e)).dropSent).dropReceived e).links
      = s.links := by
    unfold failLinks
    rw [foldl_field Session.links (failLink_links e), hl]
  show (failLinks _ e).replied ++ _ = _
  rw [hk]
  unfold failLinks
  rw [foldl_said_append (failLink_replied e), hl]
  simp only [replied] 
  congr 2
  show (Session.replied { ((({ s with error := some e, ended := true } : Session).drainPending (.error e)).dropSent).dropReceived with linksByName := _ }) = s.replied
  show (((({ s with error := some e, ended := true } : Session).drainPending (.error e)).dropSent).dropReceived).replied = s.replied
  simp
  rfl

theorem setError_ops (s : Session) (e) : (s.setError e).ops = s.ops := by
  unfold setError clearLinks
  rw [foldl_field Session.ops (fun s a => by unfold clearLink; split <;> simp)]
  show (failLinks _ e).ops = _
  unfold failLinks
  rw [foldl_field Session.ops (fun s a => by unfold failLink; split <;> simp)]
  show (((({ s with error := some e, ended := true } : Session).drainPending (.error e)).dropSent).dropReceived).ops = s.ops
  simp

theorem replies_count (op : Ref) (l : List Link) :
    (l.flatMap failReply).count (some op) + (l.flatMap clearReply).count (some op) = l.countP (Link.awaits op) := by
  induction l with
  | nil => rfl
  | cons x l ih =>
    rw [List.flatMap_cons, List.flatMap_cons, List.count_append, List.count_append, List.countP_cons, ← ih]
    have : (failReply x).count (some op) + (clearReply x).count (some op) = if x.awaits op then 1 else 0 := by
      rw [← count_req]
      unfold failReply clearReply
      rcases x with (_ | _ | _ | (_ | _)) | _ <;> simp [Link.req?]
    omega

theorem setError_acct (s : Session) (e) : Acct s (s.setError e) := by
  refine .keep (setError_ops s e) (by rw [setError_replied, List.append_assoc]) fun op => ?_
  unfold bal awaiting
  have h := replies_count op s.links.values
  rw [setError_replied, setError_links, List.count_append, List.count_append,
    show (Slab.empty : Slab Link).values = [] from rfl, List.countP_nil]
  omega

/-- After a failure no link holds a channel. -/
theorem setError_awaiting (s : Session) (e) (op) : (s.setError e).awaiting op = 0 := by
  unfold awaiting
  rw [setError_links]
  rfl

/-! ## Every step -/

theorem handleTransfer_acct (s : Session) (r : Ref) (t : Transfer) : Acct s (s.handleTransfer r t).1 := by
  have close : ∀ (s' : Session) (e : Option Error), s'.links = s.links → s'.replied = s.replied → s'.ops = s.ops →
      Acct s (s'.closeReceiver r e) := fun s' e hk hl ho => (closeReceiver_acct s' r e).of hk hl ho
  unfold handleTransfer
  split
  · exact .silent rfl rfl rfl
  · next l hl =>
    split
    · exact close _ _ rfl (by simp) rfl
    · split
      · next body hb =>
        unfold continueTransfer
        split
        · exact close _ _ (by simp [charge_links]) (by simp) (by simp)
        · split
          · exact close _ _ (by simp [charge_links]) (by simp) (by simp)
          · dsimp only
            split
            · exact .silent (by simp only [modRcv_links, note_links, charge_links]) (by simp) (by simp)
            · split
              · exact .silent (by simp only [modRcv_links, note_links, charge_links, countDelivery_links]) (by simp) (by simp)
              · exact close _ _ (by simp [charge_links]) (by simp) (by simp)
      · unfold beginTransfer
        split
        · split
          · exact .silent (by simp only [modRcv_links, note_links, charge_links, startDelivery_links]) (by simp) (by simp)
          · exact .silent (by simp only [countDelivery_links, note_links, charge_links, startDelivery_links]) (by simp) (by simp)
        · exact close _ _ (by simp [charge_links]) (by simp) (by simp)

/-- The entry of a link is given up after its channel was used. -/
theorem forget_acct {s s' : Session} {k : Nat} {h : UInt32} {x : Link} (hk : s.links.get k = some x) (hl : s'.links = s.links)
    (hs : s'.replied = s.replied ++ (x.req?.toList.map some)) (ho : s'.ops = s.ops) : Acct s (s'.forget k h) := by
  refine .keep ho (by rw [forget_replied, hs]) fun op => ?_
  have := Slab.countP_remove (Link.awaits op) hk
  unfold bal awaiting
  rw [forget_replied, hs, List.count_append, count_req]
  show _ + (s'.links.remove k).values.countP _ = _
  rw [hl]
  omega

theorem handleDetach_acct (s : Session) (f : Detach) : Acct s (s.handleDetach f).1 := by
  unfold handleDetach
  dsimp only
  split
  · exact .silent rfl rfl rfl
  · next idx _ =>
    split
    · exact .silent rfl rfl rfl
    · next tx hk =>
      refine forget_acct hk (by split <;> rfl) ?_ (by split <;> rfl)
      cases tx <;> simp [Link.req?]
    · next r hk =>
      split
      · refine (forget_acct (h := f.handle) hk (s' := s.detachEstablishedSender r _ f) (by simp) ?_ (by simp)).to rfl rfl rfl
        simp only [detachEstablishedSender, post_replied, sndRemoteDetached_replied, failDeliveries_replied, failPending_replied]
        simp [Link.req?]
        rfl
      · exact .silent rfl rfl rfl
    · next hk => exact forget_acct hk rfl (by simp [Link.req?]) rfl
    · next tx hk =>
      refine forget_acct hk (by split <;> rfl) ?_ (by split <;> rfl)
      cases tx <;> simp [Link.req?]
    · exact .silent rfl rfl rfl
    · next item hk =>
      refine forget_acct hk (by split <;> rfl) ?_ (by split <;> rfl)
      rcases item with _ | ⟨_, _⟩ <;> simp [Link.req?]
    · next r hk =>
      split
      · refine (forget_acct (h := f.handle) hk (s' := s.detachEstablishedReceiver r _ f) (by simp) ?_ (by simp)).to rfl rfl rfl
        simp only [detachEstablishedReceiver, post_replied, rcvRemoteDetached_replied, failDeliveries_replied]
        simp [Link.req?]
      · exact .silent rfl rfl rfl
    · next tx hk =>
      refine forget_acct hk (by split <;> rfl) ?_ (by split <;> rfl)
      cases tx <;> simp [Link.req?]

/-- A link is established after its channel was used. -/
theorem answer_acct {s s' : Session} {k : Nat} {x y : Link} (hk : s.links.get k = some x) (hy : y.req? = none)
    (hl : s'.links = s.links.set k y) (hs : s'.replied = s.replied ++ (x.req?.toList.map some)) (ho : s'.ops = s.ops) : Acct s s' := by
  refine .keep ho hs fun op => ?_
  have := Slab.countP_set (Link.awaits op) hk y
  unfold bal awaiting
  rw [hs, hl, List.count_append, count_req]
  have hf : y.awaits op = false := by rw [Link.awaits_iff, hy]; rfl
  rw [hf, if_neg (by simp : ¬ false = true)] at this
  omega

/-- A link without a channel is entered. -/
theorem insert_acct {s s' : Session} (hw : s.links.Wf) {x : Link} (hx : x.req? = none) (hl : s'.links = s.links.insert x)
    (hs : s'.replied = s.replied) (ho : s'.ops = s.ops) : Acct s s' := by
  refine .keep (l := []) ho (by simp [hs]) fun op => ?_
  unfold bal awaiting
  rw [hs, hl, Slab.countP_insert _ hw, Link.awaits_iff, hx]
  simp

/-- A link is entered with the channel of a new request. -/
theorem enter_acct {s s' : Session} (hw : s.links.Wf) {x : Link} (hx : x.req? = some s.ops) (hl : s'.links = s.links.insert x)
    (hs : s'.replied = s.replied) (ho : s'.ops = s.ops + 1) : Acct s s' := by
  refine .one (l := []) ho (by simp [hs]) fun op => ?_
  unfold bal awaiting
  rw [hs, hl, Slab.countP_insert _ hw, Link.awaits_iff, hx]
  by_cases h : op = s.ops
  · subst h; simp; omega
  · simp [h, Ne.symm h]

theorem onAttach_acct {s : Session} (hw : s.links.Wf) (a : Attach) : Acct s (s.onAttach a).1 := by
  have hh : (s.handleAttach a).2 = true → Acct s (s.handleAttach a).1 := by
    unfold handleAttach
    split
    · next index _ =>
      split
      · next tx hk =>
        intro _
        dsimp only
        cases tx with
        | none => exact answer_acct hk (y := .snd (.established s.snds.length)) rfl rfl (by simp [Link.req?]; rfl) rfl
        | some op =>
          exact answer_acct hk (y := .snd (.established s.snds.length)) rfl rfl
            (by rw [note_attached_replied]; simp [Link.req?]; rfl) rfl
      · next r op hk =>
        intro _
        exact answer_acct hk (y := .rcv (.established r)) rfl rfl (by rw [note_attached_replied]; simp [Link.req?]; rfl) rfl
      · intro _; exact .silent rfl rfl rfl
    · intro h; cases h
  unfold onAttach
  split
  · next s' heq => rw [heq] at hh; exact hh rfl
  · next s' heq =>
    have : s' = s := by
      unfold handleAttach at heq
      split at heq
      · split at heq <;> cases heq
      · cases heq; rfl
    subst this
    split
    · exact insert_acct hw (x := .snd .openingRemote) rfl rfl rfl rfl
    · exact insert_acct hw (x := .rcv (.opening (some (s'.rcvs.length, a.source)))) rfl rfl rfl rfl

theorem handleFrame_acct (s : Session) (f : Frame) : Acct s (s.handleFrame f).1 := by
  unfold handleFrame
  split
  · exact .silent rfl rfl rfl
  · split
    · split
      · exact .silent rfl rfl rfl
      · exact .silent (by simp) (by simp) (by simp)
    · exact .silent (by simp) (by simp) (by simp)
    · next t =>
      split
      · exact .silent rfl rfl rfl
      · split
        · exact .silent rfl rfl rfl
        · exact .silent rfl rfl rfl
        · exact .silent rfl rfl rfl
        · exact .silent rfl rfl rfl
        · exact handleTransfer_acct _ _ _
        · exact .silent rfl rfl rfl
    · exact handleDetach_acct _ _
    · exact .silent rfl rfl rfl

theorem setLink_acct {s : Session} {k : Nat} {old x : Link} (h : s.links.get k = some old) (hx : x.req? = none) :
    Acct s (s.setLink k x) :=
  .keep (by simp) (setLink_replied h x) fun op => by rw [setLink_bal h, Link.awaits_iff, hx]; simp

theorem panic_acct {s s' : Session} (hl : s'.links = s.links) (hs : s'.replied = s.replied ++ [none]) (ho : s'.ops = s.ops) : Acct s s' := by
  refine ⟨by omega, fun op => ?_, fun hn => absurd (by simp [hs]) hn⟩
  unfold bal awaiting
  rw [hl, hs, List.count_append]
  simp

theorem onComplete_acct (s : Session) (edit e) (t : Todo) : Acct s (s.onComplete edit e t) := by
  unfold onComplete
  split
  · split
    · exact closeReceiver_acct _ _ _
    · exact .silent rfl rfl rfl
  · next r g =>
    split
    · exact closeReceiver_acct _ _ _
    · refine Acct.to (s₁ := s.confirmReceiver r g) ?_ (by simp) (by simp) (by simp)
      unfold confirmReceiver
      split
      · split
        · next r' src hk => exact (setLink_acct hk (x := .rcv (.established r')) rfl).to (by simp) (by simp) (by simp)
        · exact .silent rfl rfl rfl
      · exact .silent rfl rfl rfl
  · next r a g =>
    split
    · unfold refuseSender
      split
      · next l hl =>
        refine Acct.trans ?_ (removeLink_acct _ _)
        exact .silent rfl (by simp) rfl
      · exact .silent rfl rfl rfl
    · unfold confirmSender
      split
      · next l hl =>
        dsimp only
        split
        · next hc =>
          obtain ⟨old, ho⟩ := Option.isSome_iff_exists.mp hc
          exact ((setLink_acct ho (x := .snd (.established r)) rfl).of (s := s) rfl rfl rfl).to (by simp) (by simp) (by simp)
        · exact panic_acct rfl (by rw [note_panic_replied]; rfl) rfl
      · exact .silent rfl rfl rfl
  · split
    · exact closeSender_acct _ _ _
    · exact .silent (by simp) (by simp) (by simp)
  · split
    · exact closeSender_acct _ _ _
    · exact .silent rfl rfl rfl
  · split
    · exact closeReceiver_acct _ _ _
    · exact .silent rfl rfl rfl
  · exact .silent rfl rfl rfl

theorem step_acct {s : Session} (hw : s.links.Wf) (st : Step) : Acct s (s.step st) := by
  cases st
  case peer f =>
    show Acct s (s.onPeer f)
    have rest : ∀ f, Acct s (finishFrame ((s.note (.peer f)).handleFrame f)) := fun f =>
      ((handleFrame_acct (s.note (.peer f)) f).of (s := s) rfl (note_peer_replied s _) rfl).to (by simp) (by simp) (by simp)
    unfold onPeer
    cases f
    case attach a =>
      dsimp only
      split
      · exact .silent rfl (by simp) rfl
      · exact ((onAttach_acct (s := s.note (.peer (.attach a))) hw a).of (s := s) rfl (by simp) rfl).to (enqueue_links _ _)
          (enqueue_replied _ _) (enqueue_ops _ _)
    case end_ e =>
      dsimp only
      split
      · exact .silent rfl (by simp) rfl
      · exact ((setError_acct (s.note (.peer (.end_ e))) _).of (s := s) rfl (by simp) rfl).to (by simp) (by simp; rfl) (by simp; rfl)
    all_goals
      exact rest _
  case endConfirmed e =>
    show Acct s (if s.error.isSome then s else (s.remoteEnd e.error).1 : Session)
    split
    · exact .silent rfl rfl rfl
    · exact setError_acct s _
  case complete i edit e =>
    show Acct s (match s.todo[i]? with
      | some t => let s := s.onComplete edit e t; { s with todo := s.todo.eraseIdx i }
      | none => s : Session)
    cases ht : s.todo[i]? with
    | some t => exact (onComplete_acct s edit e t).to rfl rfl rfl
    | none => exact .silent rfl rfl rfl
  case attachSender a =>
    exact enter_acct hw (x := .snd (.opening (some s.ops))) rfl rfl (by
      show (s.attachLocalSender a).replied = _
      unfold attachLocalSender; dsimp only; rw [post_replied]; rfl) rfl
  case attachReceiver a =>
    exact enter_acct hw (x := .rcv (.openingLocal (some (s.rcvs.length, s.ops)))) rfl rfl (by
      show (s.attachLocalReceiver a).replied = _
      unfold attachLocalReceiver; dsimp only; rw [post_replied]; rfl) rfl
  case closeSender r e => exact closeSender_acct _ _ _
  case detachSender h e => exact detachSender_acct _ _ _ _
  case closeReceiver r e => exact closeReceiver_acct _ _ _
  case detachReceiver h e => exact detachReceiver_acct _ _ _ _
  case fail e => exact setError_acct s e
  all_goals
    refine .silent ?_ ?_ ?_
    · simp [step]
      try ((repeat' split) <;> simp)
    · simp [step]
      try ((repeat' split) <;> simp)
    · simp [step]
      try ((repeat' split) <;> simp)

/-! ## The invariant -/

structure OpsInv (s : Session) : Prop where
  le : ∀ op : Nat, s.bal op ≤ if op < s.ops then 1 else 0
  eq : none ∉ s.replied → ∀ op : Nat, s.bal op = if op < s.ops then 1 else 0

theorem OpsInv.acct {s s' : Session} (h : OpsInv s) (ha : Acct s s') : OpsInv s' := by
  have ho := ha.ops
  refine ⟨fun op => ?_, fun hn op => ?_⟩
  · have h₁ := h.le op
    have h₂ := ha.le op
    split at h₁ <;> split at h₂ <;> split <;> omega
  · obtain ⟨hn, he⟩ := ha.eq hn
    have h₁ := h.eq hn op
    have h₂ := he op
    split at h₁ <;> split at h₂ <;> split <;> omega

theorem Reachable.opsInv {s : Session} (h : s.Reachable) : OpsInv s := by
  obtain ⟨s₀, steps, hf, rfl⟩ := h
  induction steps using List.reverseRecOn with
  | nil =>
    obtain ⟨id, il, mfs, ch, b, rfl⟩ := hf
    exact ⟨fun op => by simp [bal, awaiting, replied, run, Session.new, Slab.values, Slab.empty],
      fun _ op => by simp [bal, awaiting, replied, run, Session.new, Slab.values, Slab.empty]⟩
  | append_singleton l st ih =>
    rw [show s₀.run (l ++ [st]) = (s₀.run l).step st by simp [run]]
    exact ih.acct (step_acct (Reachable.linksWf ⟨s₀, l, hf, rfl⟩) st)

end Session
end Amqp.Rt
