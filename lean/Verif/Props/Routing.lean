import Verif.Lemmas.SessionRoute
import Verif.Props.Receiving
/-!
# Routing frames to links, and detaching: C33, C34
-/

namespace Amqp.Rt
open Session Examples

/-! ## Transfers -/

/-- **C33** A transfer on a handle the peer never attached ends in an error and changes nothing. -/
theorem c33_unattached (s : Session) (hs : Reachable s) (he : s.error = none) (t : Transfer)
    (hn : ∀ a, .peer (.attach a) ∈ s.log → a.handle ≠ t.head.handle) :
    s.step (.peer (.transfer t)) = { s with log := s.log ++ [.peer (.transfer t), .refused (.unknownLink (.transfer t))] } := by
  have hg : s.remoteHandles.get t.head.handle = none := by
    cases hg : s.remoteHandles.get t.head.handle with
    | none => rfl
    | some k =>
      obtain ⟨a, ha, hh⟩ := hs.handlesSeen.bound _ _ hg
      exact absurd hh (hn a ha)
  simp only [step, onPeer, handleFrame, note, he, Option.isSome_none, Bool.false_eq_true, if_false, hg, finishFrame,
    List.append_assoc, List.cons_append, List.nil_append]

example : ∃ s : Session, Reachable s ∧ s.error = none ∧
    (∀ a, .peer (.attach a) ∈ s.log → a.handle ≠ (aTransfer 6 (some 0) false [1]).head.handle) ∧
    (s.rcv? 0).isSome := by
  refine ⟨(start 0).run attachRcv, reachable _ _ _, rfl, ?_, rfl⟩
  intro a h
  have h : _ ∈ [_, _, _, _] := h
  simp only [List.mem_cons, List.not_mem_nil, or_false, Ev.peer.injEq, Frame.attach.injEq, reduceCtorEq, or_self] at h
  subst h
  decide

/-- **C33** A transfer affects no sender link, no receiver link but the one established in the slot the table gives for its
handle, and no other slot. -/
theorem c33_transfer (s : Session) (hs : Reachable s) (t : Transfer)
    (hfit : ∀ k, s.remoteHandles.get t.head.handle = some k → k < 2 ^ 32) :
    (s.step (.peer (.transfer t))).snds = s.snds ∧
    (∀ r, (∀ k, s.remoteHandles.get t.head.handle = some k → s.links.get k ≠ some (.rcv (.established r))) →
      (s.step (.peer (.transfer t))).rcv? r = s.rcv? r) ∧
    (∀ k, s.remoteHandles.get t.head.handle ≠ some k →
      (s.step (.peer (.transfer t))).links.get k = s.links.get k) := by
  have same : ∀ s' : Session, s'.snds = s.snds → s'.rcvs = s.rcvs → s'.links = s.links →
      s'.snds = s.snds ∧
      (∀ r, (∀ k, s.remoteHandles.get t.head.handle = some k → s.links.get k ≠ some (.rcv (.established r))) →
        s'.rcv? r = s.rcv? r) ∧
      (∀ k, s.remoteHandles.get t.head.handle ≠ some k → s'.links.get k = s.links.get k) :=
    fun s' h₁ h₂ h₃ => ⟨h₁, fun r _ => rcv?_congr h₂ r, fun k _ => by rw [h₃]⟩
  cases he : s.error with
  | some e =>
    refine same _ ?_ ?_ ?_ <;>
      simp [step, onPeer, handleFrame, note, he, finishFrame, enqueue]
  | none =>
    cases hk : s.remoteHandles.get t.head.handle with
    | none =>
      rw [hk] at same
      refine same _ ?_ ?_ ?_ <;>
        simp [step, onPeer, handleFrame, note, he, hk, finishFrame]
    | some k =>
      rw [hk] at same
      have hk32 := hfit k hk
      match hl : s.links.get k with
      | some (.rcv (.established r)) =>
        rw [peer_transfer_eq he hk hl]
        obtain ⟨l, hlr, hh⟩ := hs.rcvSlots.handle k _ r hl rfl
        have hkk : l.handle.toNat = k := by rw [hh]; simpa using Nat.mod_eq_of_lt hk32
        have ho := OnlyRcv.handleTransfer (s := s.note (.peer (.transfer t))) hlr (r := r) (by
          intro x hx
          have hx : s.links.get l.handle.toNat = some x := hx
          rw [hkk, hl] at hx
          cases hx
          exact ⟨fun r' h => by cases h; rfl, fun r' h => by cases h⟩) t
        rw [hkk] at ho
        refine ⟨ho.snds, fun r' hr' => ho.rcvs r' ?_, fun k' hk' => ho.slots k' ?_⟩
        · rintro rfl
          exact hr' k rfl hl
        · rintro rfl
          exact hk' rfl
      | none =>
        refine same _ ?_ ?_ ?_ <;> simp [step, onPeer, handleFrame, note, he, hk, hl, finishFrame]
      | some (.snd x) =>
        refine same _ ?_ ?_ ?_ <;> simp [step, onPeer, handleFrame, note, he, hk, hl, finishFrame]
      | some (.rcv (.opening x)) =>
        refine same _ ?_ ?_ ?_ <;> simp [step, onPeer, handleFrame, note, he, hk, hl, finishFrame]
      | some (.rcv (.openingLocal x)) =>
        refine same _ ?_ ?_ ?_ <;> simp [step, onPeer, handleFrame, note, he, hk, hl, finishFrame]
      | some (.rcv (.closing x)) =>
        refine same _ ?_ ?_ ?_ <;> simp [step, onPeer, handleFrame, note, he, hk, hl, finishFrame, enqueue]

/-- Two receiver links, under the peer's handles 5 and 6. -/
def twoRcv : List Step := attachRcv ++ [.peer (.attach (anAttach "p" 6 .sender)), pass 0, pass 0]

example : ∃ s : Session, Reachable s ∧ s.remoteHandles.get 5 = some 0 ∧ s.remoteHandles.get 6 = some 1 ∧
    ((s.step (.peer (.transfer (aTransfer 6 (some 0) false [1])))).rcv? 1).map (·.queue.length) = some 1 ∧
    ((s.step (.peer (.transfer (aTransfer 6 (some 0) false [1])))).rcv? 0).map (·.queue.length) = some 0 :=
  ⟨(start 0).run twoRcv, reachable _ _ _, rfl, rfl, rfl, rfl⟩

/-! ## Flow frames -/

/-- **C33** A flow frame by itself changes no link.  If its handle leads to an established sender link, that link is put
before the control service with the frame; otherwise nothing is queued. -/
theorem c33_flow (s : Session) (f : Flow) :
    let s' := s.step (.peer (.flow f))
    s'.snds = s.snds ∧ s'.rcvs = s.rcvs ∧ s'.links = s.links ∧
      (s'.todo = s.todo ∨ ∃ h k r, f.handle = some h ∧ s.remoteHandles.get h = some k ∧
        s.links.get k = some (.snd (.established r)) ∧ s'.todo = s.todo ++ [.ctl (.flow r f)]) := by
  have hflow : (s.note (.peer (.flow f))).handleFlow f none = ((s.note (.peer (.flow f))).handleFlow f none) := rfl
  have h₁ : ((s.note (.peer (.flow f))).handleFlow f none).snds = s.snds := by
    unfold handleFlow; dsimp only; split <;> simp [note]
  have h₂ : ((s.note (.peer (.flow f))).handleFlow f none).rcvs = s.rcvs := by
    unfold handleFlow; dsimp only; split <;> simp [note]
  have h₃ : ((s.note (.peer (.flow f))).handleFlow f none).links = s.links := by
    unfold handleFlow; dsimp only; split <;> simp [note]
  have h₄ : ((s.note (.peer (.flow f))).handleFlow f none).todo = s.todo := handleFlow_todo _ _ _
  intro s'
  have hs' : s' = finishFrame ((s.note (.peer (.flow f))).handleFrame (.flow f)) := rfl
  unfold handleFrame at hs'
  split at hs'
  · rw [hs']; exact ⟨rfl, rfl, rfl, .inl rfl⟩
  · dsimp only at hs'
    split at hs'
    · next r hr =>
      rw [hs']
      refine ⟨rfl, rfl, rfl, .inr ?_⟩
      obtain ⟨k, hk, hl⟩ := Option.bind_eq_some_iff.mp hr
      obtain ⟨h, hh, hk⟩ := Option.bind_eq_some_iff.mp hk
      exact ⟨h, k, r, hh, hk, hl, rfl⟩
    · rw [hs']
      exact ⟨h₁, h₂, h₃, .inl h₄⟩

/-- **C33** When the control service lets the frame pass, only that sender link is affected. -/
theorem c33_flow_applied (s : Session) (i : Nat) (r : Ref) (f : Flow) (edit : Attach → Attach)
    (hi : s.todo[i]? = some (.ctl (.flow r f))) :
    let s' := s.step (.complete i edit none)
    (∀ r', r' ≠ r → s'.snd? r' = s.snd? r') ∧ s'.rcvs = s.rcvs ∧ s'.links = s.links := by
  intro s'
  have hs' : s' = { (s.handleFlow f (some r)) with todo := (s.handleFlow f (some r)).todo.eraseIdx i } := by
    show s.step _ = _
    unfold step
    dsimp only
    rw [hi]
    rfl
  refine ⟨fun r' hr => ?_, ?_, ?_⟩
  · rw [hs']
    show (s.handleFlow f (some r)).snd? r' = _
    unfold handleFlow
    dsimp only
    rw [applyFlow_snd?, if_neg (Ne.symm hr)]
    split <;> simp [snd?, note]
  · rw [hs']
    show (s.handleFlow f (some r)).rcvs = _
    unfold handleFlow applyFlow; dsimp only; repeat' split
    all_goals simp [note]
  · rw [hs']
    show (s.handleFlow f (some r)).links = _
    unfold handleFlow applyFlow; dsimp only; repeat' split
    all_goals simp [note]

example : ∃ (s : Session) (r : Ref) (f : Flow), Reachable s ∧ s.todo[0]? = some (.ctl (.flow r f)) :=
  ⟨(start 0).run (attachOne ++ [.peer (.flow (aFlow (some 7) (some 0) (some 5) (some 1) 0))]), 0,
    aFlow (some 7) (some 0) (some 5) (some 1) 0, reachable _ _ _, rfl⟩

/-! ## Detach frames -/

theorem detachEstablishedSender_same (s : Session) (r : Ref) (l : Snd) (f : Detach) :
    (∀ r', r' ≠ r → (s.detachEstablishedSender r l f).snd? r' = s.snd? r') ∧
    (s.detachEstablishedSender r l f).rcvs = s.rcvs ∧ (s.detachEstablishedSender r l f).links = s.links := by
  unfold detachEstablishedSender failPending
  dsimp only
  refine ⟨fun r' hr => ?_, by simp, by simp⟩
  show (sndRemoteDetached _ r _).snd? r' = _
  rw [sndRemoteDetached_snd?, if_neg (Ne.symm hr)]
  simp [snd?]

theorem detachEstablishedReceiver_same (s : Session) (r : Ref) (l : Rcv) (f : Detach) :
    (s.detachEstablishedReceiver r l f).snds = s.snds ∧
    (∀ r', r' ≠ r → (s.detachEstablishedReceiver r l f).rcv? r' = s.rcv? r') ∧
    (s.detachEstablishedReceiver r l f).links = s.links := by
  unfold detachEstablishedReceiver rcvRemoteDetached
  dsimp only
  refine ⟨by simp, fun r' hr => ?_, by simp⟩
  rw [rcv?_modRcv, if_neg (Ne.symm hr)]
  exact rcv?_congr (by simp) r'

/-- A detach touches one slot and the link in it. -/
structure OnlySlot (s s' : Session) (k : Nat) : Prop where
  snds : ∀ r, s.links.get k ≠ some (.snd (.established r)) → s'.snd? r = s.snd? r
  rcvs : ∀ r, (∀ x, s.links.get k = some x → x.rcv? ≠ some r) → s'.rcv? r = s.rcv? r
  slots : ∀ k', k' ≠ k → s'.links.get k' = s.links.get k'

theorem OnlySlot.of_eq {s s' : Session} {k : Nat} (h₁ : s'.snds = s.snds) (h₂ : s'.rcvs = s.rcvs)
    (h₃ : s'.links = s.links ∨ s'.links = s.links.remove k) : OnlySlot s s' k := by
  refine ⟨fun r _ => by simp only [snd?, h₁], fun r _ => rcv?_congr h₂ r, fun k' h => ?_⟩
  rcases h₃ with h₃ | h₃
  · rw [h₃]
  · rw [h₃, Slab.get_remove, if_neg (Ne.symm h)]

theorem handleDetach_same (s : Session) (f : Detach) (k : Nat) (hk : s.remoteHandles.get f.handle = some k) :
    OnlySlot s (s.handleDetach f).1 k := by
  unfold handleDetach
  rw [hk]
  dsimp only
  split
  · exact .of_eq rfl rfl (.inl rfl)
  · exact .of_eq (by split <;> rfl) (by split <;> rfl) (.inr (by split <;> rfl))
  · next r₀ hx =>
    split
    · next l hl =>
      obtain ⟨h₁, h₂, h₃⟩ := detachEstablishedSender_same s r₀ l f
      generalize s.detachEstablishedSender r₀ l f = a at h₁ h₂ h₃
      refine ⟨fun r hr => ?_, fun r _ => ?_, fun k' h => ?_⟩
      · have hne : r₀ ≠ r := fun h => hr (by rw [h] at hx; exact hx)
        show ((a.forget k f.handle).modSnd _ _).snd? r = _
        rw [modSnd_snd?, if_neg hne]
        exact h₁ r (Ne.symm hne)
      · exact rcv?_congr (s := s) (s' := (a.forget k f.handle).modSnd _ _) h₂ r
      · show (a.links.remove k).get k' = _
        rw [h₃, Slab.get_remove, if_neg (Ne.symm h)]
    · exact .of_eq rfl rfl (.inl rfl)
  · exact .of_eq rfl rfl (.inr rfl)
  · exact .of_eq (by split <;> rfl) (by split <;> rfl) (.inr (by split <;> rfl))
  · exact .of_eq rfl rfl (.inl rfl)
  · next item hx =>
    split
    · next r₀ op =>
      refine ⟨fun r _ => rfl, fun r hr => ?_, fun k' h => ?_⟩
      · have hne : r₀ ≠ r := fun h => hr _ hx (by rw [h]; rfl)
        show (s.modRcv _ _).rcv? r = _
        rw [rcv?_modRcv, if_neg hne]
      · show (s.links.remove k).get k' = _
        rw [Slab.get_remove, if_neg (Ne.symm h)]
    · exact .of_eq rfl rfl (.inr rfl)
  · next r₀ hx =>
    split
    · next l hl =>
      obtain ⟨h₁, h₂, h₃⟩ := detachEstablishedReceiver_same s r₀ l f
      generalize s.detachEstablishedReceiver r₀ l f = a at h₁ h₂ h₃
      refine ⟨fun r _ => ?_, fun r hr => ?_, fun k' h => ?_⟩
      · show a.snds[r]? = s.snds[r]?
        rw [h₁]
      · have hne : r₀ ≠ r := fun h => hr _ hx (by rw [h]; rfl)
        show ((a.forget k f.handle).modRcv _ _).rcv? r = _
        rw [rcv?_modRcv, if_neg hne]
        exact h₂ r (Ne.symm hne)
      · show (a.links.remove k).get k' = _
        rw [h₃, Slab.get_remove, if_neg (Ne.symm h)]
    · exact .of_eq rfl rfl (.inl rfl)
  · exact .of_eq (by split <;> rfl) (by split <;> rfl) (.inr (by split <;> rfl))

theorem peer_detach_eq {s : Session} {f : Detach} (he : s.error = none) :
    s.step (.peer (.detach f)) = ((s.note (.peer (.detach f))).handleDetach f).1.enqueue
      ((s.note (.peer (.detach f))).handleDetach f).2 := by
  simp [step, onPeer, handleFrame, note, he, finishFrame]

theorem enqueue_same (a : Session) (act : Action) : (a.enqueue act).snds = a.snds ∧ (a.enqueue act).rcvs = a.rcvs ∧
    (a.enqueue act).links = a.links := by
  unfold enqueue; split <;> exact ⟨rfl, rfl, rfl⟩

/-- **C33** A detach whose handle the table knows affects only the link in the slot it names, and that slot.

Missing for the full property: what the table names can be the wrong link, and a handle the table does not know is taken for
a slot number; see the witnesses below. -/
theorem c33_detach_partial (s : Session) (f : Detach) (k : Nat) (hk : s.remoteHandles.get f.handle = some k) :
    (∀ r, s.links.get k ≠ some (.snd (.established r)) → (s.step (.peer (.detach f))).snd? r = s.snd? r) ∧
    (∀ r, (∀ x, s.links.get k = some x → x.rcv? ≠ some r) → (s.step (.peer (.detach f))).rcv? r = s.rcv? r) ∧
    ∀ k', k' ≠ k → (s.step (.peer (.detach f))).links.get k' = s.links.get k' := by
  cases he : s.error with
  | some e =>
    have : s.step (.peer (.detach f)) = s.note (.peer (.detach f)) := by
      simp [step, onPeer, handleFrame, note, he, finishFrame, enqueue]
    rw [this]
    exact ⟨fun _ _ => rfl, fun _ _ => rfl, fun _ _ => rfl⟩
  | none =>
    rw [peer_detach_eq he]
    obtain ⟨h₁, h₂, h₃⟩ := handleDetach_same (s.note (.peer (.detach f))) f k hk
    obtain ⟨e₁, e₂, e₃⟩ := enqueue_same ((s.note (.peer (.detach f))).handleDetach f).1
      ((s.note (.peer (.detach f))).handleDetach f).2
    exact ⟨fun r h => Eq.trans (by simp only [snd?, e₁]) (h₁ r h), fun r h => Eq.trans (by simp only [rcv?, e₂]) (h₂ r h),
      fun k' h => by rw [e₃]; exact h₃ k' h⟩

/-! ## What a handle keeps meaning -/

/-- **C33** A handle keeps meaning the receiver link it was attached for.  As long as the peer neither attaches nor detaches
on the handle, its table entry stays, and the slot it names is the only one the link can be in: frames on the handle reach
this link or, once it has left its slot, possibly another one.

Missing for the full property: the entry of a link that left its slot should be gone, see the witnesses below. -/
theorem c33_kept_receiver_partial (s : Session) (hs : Reachable s) (h : UInt32) (k : Nat) (r : Ref) (x : Link)
    (hk : s.remoteHandles.get h = some k) (hx : s.links.get k = some x) (hr : x.rcv? = some r)
    (ha : ∀ r a g, .ctl (.attachSender r a g) ∈ s.todo → a.handle ≠ h) (steps : List Step)
    (hst : ∀ st ∈ steps, ∀ a d, (st = .peer (.attach a) → a.handle ≠ h) ∧ (st = .peer (.detach d) → d.handle ≠ h)) :
    (s.run steps).remoteHandles.get h = some k ∧
      ∀ k' x', (s.run steps).links.get k' = some x' → x'.rcv? = some r → k' = k := by
  constructor
  · rw [run_elsewhere s steps (h := h) ?_ ha, hk]
    intro st hm
    unfold Step.Elsewhere
    split
    · exact (hst _ hm _ { handle := 0, closed := true, error := none }).1 rfl
    · exact (hst _ hm (anAttach "" 0 .sender) _).2 rfl
    · trivial
  · obtain ⟨l, hl, _⟩ := hs.rcvSlots.handle k x r hx hr
    have := (run_micros s steps).invariant (P := fun s' => (∃ l, s'.rcv? r = some l) ∧
      ∀ k' x', s'.links.get k' = some x' → x'.rcv? = some r → k' = k) ?_ ⟨⟨l, hl⟩, ?_⟩
    · exact this.2
    · rintro a b hm ⟨⟨l, hl⟩, hi⟩
      obtain ⟨l', hl', _⟩ := hm.rcv_kept hl
      refine ⟨⟨l', hl'⟩, fun k' x' h₁ h₂ => ?_⟩
      rcases hm.rcv_slots k' x' r h₁ h₂ with ⟨y, h₃, h₄, _⟩ | ⟨_, h₃, _⟩
      · exact hi k' y h₃ h₄
      · exact absurd (rcv?_lt hl) (by rw [h₃]; exact Nat.lt_irrefl _)
    · intro k' x' h₁ h₂
      exact hs.rcvSlots.unique k' k x' x r h₁ hx h₂ hr

/-- **C33** The same for sender links. -/
theorem c33_kept_sender_partial (s : Session) (hs : Reachable s) (h : UInt32) (k : Nat) (r : Ref)
    (hk : s.remoteHandles.get h = some k) (hx : s.links.get k = some (.snd (.established r)))
    (ha : ∀ r a g, .ctl (.attachSender r a g) ∈ s.todo → a.handle ≠ h) (steps : List Step)
    (hst : ∀ st ∈ steps, ∀ a d, (st = .peer (.attach a) → a.handle ≠ h) ∧ (st = .peer (.detach d) → d.handle ≠ h)) :
    (s.run steps).remoteHandles.get h = some k ∧
      ∀ k', (s.run steps).links.get k' = some (.snd (.established r)) → k' = k := by
  constructor
  · rw [run_elsewhere s steps (h := h) ?_ ha, hk]
    intro st hm
    unfold Step.Elsewhere
    split
    · exact (hst _ hm _ { handle := 0, closed := true, error := none }).1 rfl
    · exact (hst _ hm (anAttach "" 0 .sender) _).2 rfl
    · trivial
  · intro k' hk'
    obtain ⟨l, hl, rfl⟩ := hs.sndSlots k r hx
    obtain ⟨l', hl', rfl⟩ := (reachable_run hs steps).sndSlots k' r hk'
    have := (run_micros s steps).invariant (P := fun s' => ∃ l', s'.snd? r = some l' ∧ l'.id = l.id) ?_ ⟨l, hl, rfl⟩
    · obtain ⟨l'', h₁, h₂⟩ := this
      rw [hl'] at h₁
      cases h₁
      exact h₂
    · rintro a b hm ⟨l₁, h₁, h₂⟩
      obtain ⟨l₂, h₃, h₄, _⟩ := hm.snd_kept r l₁ h₁
      exact ⟨l₂, h₃, h₄.trans h₂⟩

example : ∃ (s : Session) (k : Nat) (x : Link), Reachable s ∧ s.remoteHandles.get 5 = some k ∧ s.links.get k = some x ∧
    x.rcv? = some 0 ∧ s.todo = [] :=
  ⟨(start 0).run attachRcv, 0, _, reachable _ _ _, rfl, rfl, rfl, rfl⟩

example : ∃ (s : Session) (k : Nat), Reachable s ∧ s.remoteHandles.get 7 = some k ∧
    s.links.get k = some (.snd (.established 0)) ∧ s.todo = [] :=
  ⟨(start 0).run attachOne, 0, reachable _ _ _, rfl, rfl, rfl⟩

/-! ## Frames that reach the wrong link -/

/-- The error a service refuses a link with. -/
def refusal : Error := { condition := .amqpError .notAllowed, description := none, info := none }

def aDetach (handle : UInt32) : Step := .peer (.detach { handle, closed := true, error := none })

/-- The peer attaches a sender under handle 5 and is refused; then it attaches another one under handle 6. -/
def refusedThenOther : List Step :=
  [.peer (.attach (anAttach "q" 5 .sender)), .complete 0 (fun a => a) (some refusal),
    .peer (.attach (anAttach "p" 6 .sender)), pass 0, pass 0]

/-- **C33** Violated: the entry of a refused receiver link stays in the table.  The peer's answer to the refusal, a detach of
handle 5, closes the link attached under handle 6. -/
theorem c33_refused_detaches_other : ∃ s : Session, Reachable s ∧ s.remoteHandles.get 6 = some 0 ∧
    s.links.get 0 = some (.rcv (.established 1)) ∧ (s.rcv? 1).map (fun l => (l.remoteHandle, l.closed)) = some (6, false) ∧
    (s.step (aDetach 5)).links.get 0 = none ∧ ((s.step (aDetach 5)).rcv? 1).map Rcv.closed = some true :=
  ⟨(start 0).run refusedThenOther, reachable _ _ _, rfl, rfl, rfl, rfl, rfl⟩

/-- **C33** Violated: and a transfer on the refused handle 5 is delivered to the link attached under handle 6. -/
theorem c33_refused_transfer : ∃ s : Session, Reachable s ∧ s.links.get 0 = some (.rcv (.established 1)) ∧
    (s.rcv? 1).map Rcv.remoteHandle = some 6 ∧
    ((s.step (.peer (.transfer (aTransfer 5 (some 0) false [1])))).rcv? 1).map (·.queue.length) = some 1 :=
  ⟨(start 0).run refusedThenOther, reachable _ _ _, rfl, rfl, rfl⟩

/-- **C33** Violated: a detach of a handle the table does not know is taken for one of ours.  Sender link 0 is attached under
the peer's handle 7.  The peer attaches a receiver under its handle 0 and is refused; its answer, a detach of handle 0, closes
the link attached under 7. -/
theorem c33_unknown_detaches_other : ∃ s : Session, Reachable s ∧ s.remoteHandles.get 0 = none ∧
    s.links.get 0 = some (.snd (.established 0)) ∧ (s.snd? 0).map (fun l => (l.remoteHandle, l.closed)) = some (7, false) ∧
    (s.step (aDetach 0)).links.get 0 = none ∧ ((s.step (aDetach 0)).snd? 0).map Snd.closed = some true :=
  ⟨(start 0).run (attachOne ++ [.peer (.attach (anAttach "x" 0 .receiver)), .complete 0 (fun a => a) (some refusal)]),
    reachable _ _ _, rfl, rfl, rfl, rfl, rfl⟩

/-- The names of the links the peer has attached or answered for. -/
def peerAttached (log : List Ev) : List Str := log.filterMap fun
  | .peer (.attach a) => some a.name
  | _ => none

/-- **C33** Violated: the name of a closed link stays registered for its slot.  Receiver link "q" is attached and closed by us,
then the application asks for sender link "z", which gets the same slot.  When the peer attaches a link named "q" of its own,
the application's request is completed with it: "z" is established though the peer never answered for "z". -/
theorem c33_stale_name : ∃ s : Session, Reachable s ∧ s.links.get 0 = some (.snd (.opening (some 2))) ∧
    s.linksByName.get (text "z") = some 0 ∧ peerAttached s.log = [text "q"] ∧
    (s.step (.peer (.attach (anAttach "q" 8 .sender)))).links.get 0 = some (.snd (.established 0)) ∧
    .attached 2 (.inl 0) ∈ (s.step (.peer (.attach (anAttach "q" 8 .sender)))).log :=
  ⟨(start 0).run [.attachReceiver (anAttach "q" 0 .receiver), .peer (.attach (anAttach "q" 5 .sender)),
    .closeReceiver 0 none, aDetach 5, .attachSender (anAttach "z" 0 .sender)], reachable _ _ _, rfl, rfl, rfl, rfl,
    List.mem_of_getElem? (i := 9) rfl⟩

/-- **C33** Violated: accepting a link late overwrites another one.  The peer attaches a receiver and, before the service
answers, detaches it (handle and slot being both 0); its next link, under handle 6, gets the slot.  When the service accepts
the first one, the established link is thrown out of its slot. -/
theorem c33_late_accept : ∃ s : Session, Reachable s ∧ s.remoteHandles.get 6 = some 0 ∧
    s.links.get 0 = some (.rcv (.established 0)) ∧ (s.rcv? 0).map (fun l => (l.remoteHandle, l.closed)) = some (6, false) ∧
    (s.step (pass 0)).links.get 0 = some (.snd (.established 0)) ∧ ((s.step (pass 0)).rcv? 0).map Rcv.closed = some true :=
  ⟨(start 0).run [.peer (.attach (anAttach "x" 0 .receiver)), aDetach 0, .peer (.attach (anAttach "p" 6 .sender)), pass 1,
    pass 1], reachable _ _ _, rfl, rfl, rfl, rfl, rfl⟩

end Amqp.Rt
