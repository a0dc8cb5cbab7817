import Verif.Lemmas.SessionRcv
import Verif.Spec.Accepting
import Verif.Lemmas.SessionFault
/-!
# What a step does to the table of links

Every step changes at most one slot, or empties the table.  `Relink` lists the changes and the steps that make them.
-/

namespace Amqp.Rt
namespace Session

@[simp] theorem dropLink_links (s : Session) (l : Link) : (s.dropLink l).links = s.links := by
  unfold dropLink; split <;> rfl

theorem setLink_links (s : Session) (k : Nat) (l : Link) : (s.setLink k l).links = s.links.set k l := by
  unfold setLink
  split
  · simp
  · next h => simp [Slab.set, Slab.contains, h]

theorem removeLink_links (s : Session) (k : Nat) : (s.removeLink k).links = s.links.remove k := by
  unfold removeLink
  split
  · simp
  · next h => simp [Slab.remove, Slab.contains, h]

@[simp] theorem setLinkCredit_links (s : Session) (r n) : (s.setLinkCredit r n).links = s.links := by
  unfold setLinkCredit
  split
  · exact checkAdd_links _ _ _
  · rfl

@[simp] theorem countDelivery_links (s : Session) (r l) : (s.countDelivery r l).links = s.links := by
  simp [countDelivery, checkAdd_links]

@[simp] theorem enqueue_links (s : Session) (a : Action) : (s.enqueue a).links = s.links := by
  unfold enqueue; split <;> rfl

@[simp] theorem handleFlow_links (s : Session) (f : Flow) (l : Option Ref) : (s.handleFlow f l).links = s.links := by
  unfold handleFlow
  dsimp only
  (repeat' split) <;> simp

@[simp] theorem windowLoop_links (s : Session) (t req tag) : (s.windowLoop t req tag).links = s.links := by
  unfold windowLoop; (repeat' split) <;> simp

@[simp] theorem creditLoop_links (s : Session) (t req tag) : (s.creditLoop t req tag).links = s.links := by
  unfold creditLoop; (repeat' split) <;> simp

@[simp] theorem sendStart_links (s : Session) (req) : (s.sendStart req).links = s.links := by
  unfold sendStart
  dsimp only
  (repeat' split) <;> (try rfl) <;> (unfold sendStart.go; split <;> simp)

@[simp] theorem sendResume_links (s : Session) (t) : (s.sendResume t).links = s.links := by
  unfold sendResume; (repeat' split) <;> simp

@[simp] theorem settleDeliveries_links (s : Session) (d) : (s.settleDeliveries d).links = s.links := by
  unfold settleDeliveries
  dsimp only
  split
  · exact foldl_field Session.links (fun s n => by simp) _ s
  · simp

@[simp] theorem failPending_links (s : Session) (h e) : (s.failPending h e).links = s.links := by simp [failPending]

@[simp] theorem detachEstablishedSender_links (s : Session) (r l f) : (s.detachEstablishedSender r l f).links = s.links := by
  simp [detachEstablishedSender]

@[simp] theorem detachEstablishedReceiver_links (s : Session) (r l f) :
    (s.detachEstablishedReceiver r l f).links = s.links := by
  simp [detachEstablishedReceiver]

@[simp] theorem pollRecv_links (s : Session) (r) : (s.pollRecv r).1.links = s.links := by
  unfold pollRecv; dsimp only; (repeat' split) <;> simp

@[simp] theorem getDelivery_links (s : Session) (r) : (s.getDelivery r).1.links = s.links := by
  unfold getDelivery; (repeat' split) <;> simp

@[simp] theorem endLocal_links (s : Session) : s.endLocal.links = s.links := by
  unfold endLocal; (repeat' split) <;> rfl

@[simp] theorem clearLinks_links (s : Session) : s.clearLinks.links = .empty := by
  unfold clearLinks
  exact foldl_field Session.links (fun s x => by unfold clearLink; (repeat' split) <;> simp) _ _

@[simp] theorem setError_links (s : Session) (e) : (s.setError e).links = .empty := by simp [setError]

@[simp] theorem remoteEnd_links (s : Session) (e) : (s.remoteEnd e).1.links = .empty := setError_links s _

@[simp] theorem setError_isSome (s : Session) (e) : (s.setError e).error.isSome = true := by
  have : (s.setError e).error = some e := by
    unfold setError clearLinks failLinks
    refine (foldl_field Session.error ?_ _ _).trans ((foldl_field Session.error ?_ _ _).trans ?_)
    · intro s x; unfold clearLink; split
      · rfl
      · unfold dropLink; split <;> rfl
    · intro s x; exact failLink_error _ _ _
    · simp [drainPending]
  rw [this]; rfl

/-- One slot is closed, or freed. -/
inductive Shut (m : Slab Link) (k : Nat) : Slab Link → Prop
  | same : Shut m k m
  | closing (old x : Link) (hk : m.get k = some old) (ho : ∀ r, ¬ old.Opening r) (hx : x.Bare) : Shut m k (m.set k x)
  | removed (old : Link) (hk : m.get k = some old) : Shut m k (m.remove k)

theorem detachReceiver_shut (s : Session) (id c e) : Shut s.links id.toNat (s.detachReceiver id c e).links := by
  unfold detachReceiver
  dsimp only
  have hn : s.newOp.links = s.links := rfl
  rw [hn]
  split
  · next inner hk =>
    rw [removeLink_links]
    rcases inner with _ | ⟨r, src⟩ <;> exact .removed _ hk
  · next r hk =>
    simp only [note_links, post_links, setLink_links, hn]
    exact .closing _ _ hk (by rintro r ⟨_, h⟩; cases h) ⟨trivial, rfl⟩
  · next hk =>
    rw [removeLink_links]
    exact .removed _ hk
  · exact .same
  · exact .same

theorem closeReceiver_shut (s : Session) (r : Ref) (e) :
    (s.closeReceiver r e).links = s.links ∨ ∃ l, s.rcv? r = some l ∧ l.closed = false ∧
      Shut s.links l.handle.toNat (s.closeReceiver r e).links := by
  unfold closeReceiver
  split
  · next l hl =>
    simp only [modRcv_links]
    split
    · exact .inl rfl
    · next hc => exact .inr ⟨l, hl, by simpa using hc, detachReceiver_shut _ _ _ _⟩
  · exact .inl rfl

theorem detachSender_shut (s : Session) (id c e) :
    (s.detachSender id c e).links = s.links ∨ ∃ old x, s.links.get id.toNat = some old ∧ (∀ r, ¬ old.Opening r) ∧ x.Bare ∧
      (s.detachSender id c e).links = s.links.set id.toNat x := by
  unfold detachSender
  dsimp only
  have hn : s.newOp.links = s.links := rfl
  rw [hn]
  split
  · next hk => exact .inr ⟨_, .snd (.closing (some s.ops)), hk, (by rintro r ⟨_, h⟩; cases h), ⟨trivial, rfl⟩, by simp only [post_links, setLink_links, hn]⟩
  · next hk =>
    exact .inr ⟨_, .snd (.closing (some s.ops)), hk, (by rintro r ⟨_, h⟩; cases h), ⟨trivial, rfl⟩, by simp only [post_links, note_links, setLink_links, hn]⟩
  · exact .inl rfl

theorem closeSender_shut (s : Session) (r : Ref) (e) :
    (s.closeSender r e).links = s.links ∨ ∃ k old x, s.links.get k = some old ∧ (∀ r, ¬ old.Opening r) ∧ x.Bare ∧
      (s.closeSender r e).links = s.links.set k x := by
  unfold closeSender
  split
  · split
    · exact .inl rfl
    · next l hl hc =>
      rcases detachSender_shut (s.modSnd r fun l => { l with closed := true }) (UInt32.ofNat l.id) true e with h | ⟨old, x, h⟩
      · exact .inl h
      · exact .inr ⟨_, old, x, h⟩
  · exact .inl rfl

theorem handleTransfer_shut {s : Session} {r : Ref} {l : Rcv} (hl : s.rcv? r = some l) (t : Transfer) :
    Shut s.links l.handle.toNat (s.handleTransfer r t).1.links := by
  have close : ∀ (s' : Session) (e : Option Error), s'.links = s.links → (∀ l', s'.rcv? r = some l' → l'.handle = l.handle) →
      Shut s.links l.handle.toNat (s'.closeReceiver r e).links := by
    intro s' e hk hh
    rcases closeReceiver_shut s' r e with h | ⟨l'', h1, _, h2⟩
    · rw [h, hk]; exact .same
    · rw [hk, hh _ h1] at h2
      exact h2
  have h0 : ∀ l', s.rcv? r = some l' → l'.handle = l.handle := fun l' h => by rw [hl] at h; cases h; rfl
  have hc : ∀ l', (s.charge r t).rcv? r = some l' → l'.handle = l.handle := by
    unfold charge
    split
    · exact h0
    · exact rcv?_modRcv_handle (fun _ => rfl) h0
  unfold handleTransfer
  rw [hl]
  dsimp only
  split
  · exact close _ _ rfl h0
  · split
    · next body hb =>
      unfold continueTransfer
      split
      · exact close _ _ (by simp [charge_links]) hc
      · split
        · exact close _ _ (by simp [charge_links]) hc
        · dsimp only
          split
          · simp only [modRcv_links, note_links, charge_links]; exact .same
          · split
            · simp only [modRcv_links, note_links, charge_links, countDelivery_links]; exact .same
            · refine close _ _ (by simp [charge_links]) ?_
              refine rcv?_modRcv_handle (fun _ => rfl) ?_
              refine rcv?_modRcv_handle (fun _ => rfl) ?_
              have := rcv?_modRcv_handle (s := s.charge r t) (r := r)
                (f := fun l => { l with partialBody := some (body ++ optEnc TransferBody.tenc t.body) }) (fun _ => rfl) hc
              unfold rcv? at this ⊢
              rw [checkAdd_rcvs]
              exact this
    · unfold beginTransfer
      split
      · split
        · simp only [modRcv_links, note_links, charge_links, startDelivery_links]; exact .same
        · simp only [countDelivery_links, note_links, charge_links, startDelivery_links]; exact .same
      · exact close _ _ (by simp [charge_links]) hc

/-- The steps that may free the slot of a receiver link which is being attached, through a link `r` with that handle: the
application closes or detaches it, a service refuses it, or a transfer on it is refused. -/
def Closes (s : Session) (st : Step) (k : Nat) : Prop :=
  (∃ h e, st = .detachReceiver h e ∧ h.toNat = k) ∨
  ∃ r l, s.rcv? r = some l ∧ l.handle.toNat = k ∧
    ((∃ e, st = .closeReceiver r e ∧ l.closed = false) ∨
     (∃ i edit e t, st = .complete i edit (some e) ∧ s.todo[i]? = some t ∧ l.closed = false ∧
       ((∃ a g, t = .ctl (.attachReceiver r a g)) ∨ (∃ g, t = .attached r g) ∨ ∃ f, t = .ctl (.detachReceiver r f))) ∨
     ∃ t, st = .peer (.transfer t) ∧ s.Receives r)

/-- The changes to the table of links. -/
inductive Relink (s : Session) (st : Step) (failed : Bool) : Slab Link → Prop
  | same : Relink s st failed s.links
  | cleared (hf : failed = true) : Relink s st failed .empty
  | inserted (x : Link) (hx : x.NotEst) (hr : x.rcv? = none ∨ x.rcv? = some s.rcvs.length)
      (ho : ∀ r, x.Opening r → s.error = none) : Relink s st failed (s.links.insert x)
  /-- The peer answers for a receiver link of this side. -/
  | answered (a k r op) (hst : st = .peer (.attach a)) (hk : s.links.get k = some (.rcv (.openingLocal (some (r, op))))) :
      Relink s st failed (s.links.set k (.rcv (.established r)))
  /-- The peer answers for a sender link of this side. -/
  | answeredSnd (k r tx) (hk : s.links.get k = some (.snd (.opening tx))) : Relink s st failed (s.links.set k (.snd (.established r)))
  /-- The control service accepts a sender link. -/
  | acceptedSnd (i edit r a g l) (hst : st = .complete i edit none) (ht : s.todo[i]? = some (.ctl (.attachSender r a g)))
      (hl : s.snd? r = some l) : Relink s st failed (s.links.set l.id (.snd (.established r)))
  /-- The control service refuses a sender link. -/
  | refusedSnd (i edit e r a g l) (hst : st = .complete i edit (some e))
      (ht : s.todo[i]? = some (.ctl (.attachSender r a g))) (hl : s.snd? r = some l) : Relink s st failed (s.links.remove l.id)
  /-- The services have accepted a receiver link. -/
  | accepted (i edit r g l r' src) (hst : st = .complete i edit none) (ht : s.todo[i]? = some (.attached r g))
      (hl : s.rcv? r = some l) (hk : s.links.get l.handle.toNat = some (.rcv (.opening (some (r', src))))) :
      Relink s st failed (s.links.set l.handle.toNat (.rcv (.established r')))
  | closing (k old x) (hk : s.links.get k = some old) (ho : ∀ r, ¬ old.Opening r) (hx : x.Bare) :
      Relink s st failed (s.links.set k x)
  | removed (k old) (hk : s.links.get k = some old) (ho : ∀ r, ¬ old.Opening r) : Relink s st failed (s.links.remove k)
  | closed (k) (hc : s.Closes st k) : Relink s st failed (s.links.remove k)

theorem Relink.of_note {s : Session} {st : Step} {failed : Bool} {e : Ev} {m : Slab Link}
    (h : (s.note e).Relink st failed m) : s.Relink st failed m := by
  cases h with
  | same => exact .same
  | cleared hf => exact .cleared hf
  | inserted x hx hr ho => exact .inserted x hx hr ho
  | answered a k r op hst hk => exact .answered a k r op hst hk
  | answeredSnd k r tx hk => exact .answeredSnd k r tx hk
  | acceptedSnd i edit r a g l hst ht hl => exact .acceptedSnd i edit r a g l hst ht hl
  | refusedSnd i edit e r a g l hst ht hl => exact .refusedSnd i edit e r a g l hst ht hl
  | accepted i edit r g l r' src hst ht hl hk => exact .accepted i edit r g l r' src hst ht hl hk
  | closing k old x hk ho hx => exact .closing k old x hk ho hx
  | removed k old hk ho => exact .removed k old hk ho
  | closed k hc => exact .closed k hc

@[simp] theorem finishFrame_links (x : Session × Except PErr Action) : (finishFrame x).links = x.1.links := by
  obtain ⟨s, a | a⟩ := x <;> simp [finishFrame]

theorem Shut.relink {s : Session} {st : Step} {failed : Bool} {k : Nat} {m : Slab Link} (h : Shut s.links k m) (hc : s.Closes st k) :
    Relink s st failed m := by
  cases h with
  | same => exact .same
  | closing old x hk ho hx => exact .closing k old x hk ho hx
  | removed old hk => exact .closed k hc

theorem closeReceiver_relink {s : Session} {st : Step} {failed : Bool} {r : Ref} {e : Option Error}
    (hc : ∀ l, s.rcv? r = some l → l.closed = false → s.Closes st l.handle.toNat) :
    Relink s st failed (s.closeReceiver r e).links := by
  rcases closeReceiver_shut s r e with h | ⟨l, h1, h2, h3⟩
  · rw [h]; exact .same
  · exact h3.relink (hc l h1 h2)

theorem closeSender_relink {s : Session} {st : Step} {failed : Bool} {r : Ref} {e : Option Error} :
    Relink s st failed (s.closeSender r e).links := by
  rcases closeSender_shut s r e with h | ⟨k, old, x, h1, h2, h3, h4⟩
  · rw [h]; exact .same
  · rw [h4]; exact .closing k old x h1 h2 h3

theorem onComplete_relink {s : Session} {i : Nat} {edit : Attach → Attach} {e : Option Error} {t : Todo} {failed : Bool}
    (ht : s.todo[i]? = some t) : Relink s (.complete i edit e) failed (s.onComplete edit e t).links := by
  unfold onComplete
  split
  · next r a g =>
    cases e with
    | none => exact .same
    | some e => exact closeReceiver_relink fun l hl hc => .inr ⟨r, l, hl, rfl, .inr (.inl ⟨i, edit, e, _, rfl, ht, hc, .inl ⟨a, g, rfl⟩⟩)⟩
  · next r g =>
    cases e with
    | some e => exact closeReceiver_relink fun l hl hc => .inr ⟨r, l, hl, rfl, .inr (.inl ⟨i, edit, e, _, rfl, ht, hc, .inr (.inl ⟨g, rfl⟩)⟩)⟩
    | none =>
      simp only [setLinkCredit_links]
      unfold confirmReceiver
      split
      · next l hl =>
        split
        · next r' src hk =>
          rw [post_links, setLink_links]
          exact .accepted i edit r g l r' src rfl ht hl hk
        · exact .same
      · exact .same
  · next r a g =>
    cases e with
    | some e =>
      show Relink _ _ _ (s.refuseSender a r e).links
      unfold refuseSender
      split
      · next l hl =>
        rw [removeLink_links]
        exact .refusedSnd i edit e r a g l rfl ht hl
      · exact .same
    | none =>
      show Relink _ _ _ (s.confirmSender a (edit g) r).links
      unfold confirmSender
      split
      · next l hl =>
        dsimp only
        split
        · rw [post_links, setLink_links]
          exact .acceptedSnd i edit r a g l rfl ht hl
        · exact .same
      · exact .same
  · cases e with
    | some e => exact closeSender_relink
    | none => dsimp only; rw [handleFlow_links]; exact .same
  · cases e with
    | some e => exact closeSender_relink
    | none => exact .same
  · next r f =>
    cases e with
    | some e => exact closeReceiver_relink fun l hl hc => .inr ⟨r, l, hl, rfl, .inr (.inl ⟨i, edit, e, _, rfl, ht, hc, .inr (.inr ⟨f, rfl⟩)⟩)⟩
    | none => exact .same
  · exact .same

theorem handleDetach_relink {s : Session} {st : Step} {failed : Bool} (f : Detach) : Relink s st failed (s.handleDetach f).1.links := by
  have rm : ∀ (k : Nat) (old : Link) (s' : Session) h, s'.links = s.links → s.links.get k = some old →
      (∀ r, ¬ old.Opening r) → Relink s st failed (s'.forget k h).links := by
    intro k old s' h h1 h2 h3
    show Relink s st failed (s'.links.remove k)
    rw [h1]
    exact .removed k old h2 h3
  unfold handleDetach
  dsimp only
  split
  · exact .same
  · next idx _ =>
    split
    · exact .same
    · next tx hk => exact rm idx _ _ _ (by split <;> rfl) hk (by rintro r ⟨_, h⟩; cases h)
    · next r hk =>
      split
      · rw [modSnd_links]; exact rm idx _ _ _ (by simp) hk (by rintro r ⟨_, h⟩; cases h)
      · exact .same
    · next hk => exact rm idx _ _ _ rfl hk (by rintro r ⟨_, h⟩; cases h)
    · next tx hk => exact rm idx _ _ _ (by split <;> rfl) hk (by rintro r ⟨_, h⟩; cases h)
    · exact .same
    · next item hk => exact rm idx _ _ _ (by split <;> rfl) hk (by rintro r ⟨_, h⟩; cases h)
    · next r hk =>
      split
      · rw [modRcv_links]; exact rm idx _ _ _ (by simp) hk (by rintro r ⟨_, h⟩; cases h)
      · exact .same
    · next tx hk => exact rm idx _ _ _ (by split <;> rfl) hk (by rintro r ⟨_, h⟩; cases h)

theorem onAttach_relink {s : Session} {failed : Bool} (he : s.error = none) (a : Attach) : Relink s (.peer (.attach a)) failed (s.onAttach a).1.links := by
  have hh : (s.handleAttach a).2 = true → Relink s (.peer (.attach a)) failed (s.handleAttach a).1.links := by
    unfold handleAttach
    split
    · next index _ =>
      split
      · next tx hk =>
        intro _
        dsimp only
        cases tx <;> exact .answeredSnd index s.snds.length _ hk
      · next r op hk => intro _; exact .answered a index r op rfl hk
      · intro _; exact .same
    · intro h; cases h
  unfold onAttach
  split
  · next s' heq => rw [heq] at hh; exact hh rfl
  · next s' heq =>
    have : s' = s := by
      unfold handleAttach at heq
      split at heq
      · split at heq <;> cases heq
      · cases heq; rfl
    subst this
    split
    · exact .inserted _ trivial (.inl rfl) fun _ _ => he
    · exact .inserted _ trivial (.inr rfl) fun _ _ => he

theorem handleFrame_relink {s : Session} {failed : Bool} (hs : RcvSlots s) (f : Frame) :
    Relink s (.peer f) failed (s.handleFrame f).1.links := by
  unfold handleFrame
  split
  · exact .same
  · split
    · split
      · exact .same
      · rw [handleFlow_links]; exact .same
    · rw [settleDeliveries_links]; exact .same
    · next t =>
      split
      · exact .same
      · next idx _ =>
        split
        · exact .same
        · exact .same
        · exact .same
        · exact .same
        · next r hk =>
          obtain ⟨l, hl, _⟩ := hs.handle idx _ r hk rfl
          exact (handleTransfer_shut hl t).relink (.inr ⟨r, l, hl, rfl, .inr (.inr ⟨t, rfl, idx, hk⟩)⟩)
        · exact .same
    · exact handleDetach_relink _
    · exact .same

end Session

/-- What a step does to the table of links. -/
theorem Session.step_relink {s : Session} (hs : s.Reachable) (st : Step) : s.Relink st (s.step st).error.isSome (s.step st).links := by
  cases st
  case peer f =>
    show s.Relink _ (s.onPeer f).error.isSome (s.onPeer f).links
    unfold onPeer
    cases f
    case attach a =>
      dsimp only
      split
      · exact .same
      · next he =>
        simp only [enqueue_links]
        exact Relink.of_note (onAttach_relink (by simpa using he) a)
    case end_ e =>
      dsimp only
      split
      · exact .same
      · simp only [post_links, enqueue_links, remoteEnd_links]
        exact .cleared (by simp [remoteEnd, enqueue])
    all_goals
      simp only [finishFrame_links]
      exact Relink.of_note (handleFrame_relink (s := s.note _) ⟨hs.rcvSlots.handle, hs.rcvSlots.unique⟩ _)
  case endConfirmed e =>
    show s.Relink _ _ (if s.error.isSome then s else (s.remoteEnd e.error).1 : Session).links
    split
    · exact .same
    · next h =>
      rw [remoteEnd_links]
      refine .cleared ?_
      show (if s.error.isSome then s else (s.remoteEnd e.error).1 : Session).error.isSome = true
      rw [if_neg h]
      simp [remoteEnd]
  case complete i edit e =>
    show s.Relink _ _ (match s.todo[i]? with
      | some t => let s := s.onComplete edit e t; { s with todo := s.todo.eraseIdx i }
      | none => s : Session).links
    cases ht : s.todo[i]? with
    | some t => exact onComplete_relink ht
    | none => exact .same
  case attachSender a => exact .inserted _ trivial (.inl rfl) (by rintro r ⟨_, h⟩; cases h)
  case attachReceiver a => exact .inserted _ trivial (.inr rfl) (by rintro r ⟨_, h⟩; cases h)
  case closeSender r e => exact closeSender_relink
  case detachSender h e =>
    rcases detachSender_shut s h false e with h' | ⟨old, x, h1, h2, h3, h4⟩
    · show s.Relink _ _ (s.detachSender h false e).links
      rw [h']; exact .same
    · show s.Relink _ _ (s.detachSender h false e).links
      rw [h4]; exact .closing _ old x h1 h2 h3
  case closeReceiver r e =>
    exact closeReceiver_relink fun l hl hc => .inr ⟨r, l, hl, rfl, .inl ⟨e, rfl, hc⟩⟩
  case detachReceiver h e => exact (detachReceiver_shut s h false e).relink (.inl ⟨h, e, rfl, rfl⟩)
  case fail e =>
    show s.Relink _ _ (s.setError e).links
    rw [setError_links]
    exact .cleared (by show (s.setError e).error.isSome = true; simp)
  all_goals
    have h : ∀ m : Slab Link, m = s.links → ∀ st b, s.Relink st b m := fun m h st b => by rw [h]; exact .same
    refine h _ ?_ _ _
    simp [step]
  all_goals (repeat' split) <;> simp

end Amqp.Rt
