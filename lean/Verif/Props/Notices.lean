import Verif.Props.Detaching
/-!
# What the control service is told about the peer: C54
-/

namespace Amqp.Rt
open Session Examples

/-- What is kept about the calls to the control service in flight. -/
structure CallInv (s : Session) : Prop where
  from_ : ∀ t ∈ s.todo, t.From s.log
  flow : ∀ r f, .ctl (.flow r f) ∈ s.todo → .peer (.flow f) ∈ s.log
  attach : ∀ r a g, .ctl (.attachSender r a g) ∈ s.todo → .peer (.attach a) ∈ s.log

theorem Todo.From.mono {log log' : List Ev} (h : ∀ e ∈ log, e ∈ log') {t : Todo} (ht : t.From log) : t.From log' := by
  cases t with
  | attached => trivial
  | ctl a =>
    cases a <;> first
      | trivial
      | exact h _ ht
      | exact ⟨_, h _ ht.choose_spec⟩
      | exact ⟨_, h _ ht.choose_spec.1, ht.choose_spec.2⟩

theorem Micro.callInv {s s' : Session} (h : Micro s s') (hi : CallInv s) : CallInv s' := by
  have hl : ∀ e ∈ s.log, e ∈ s'.log := fun e he => h.log_mem he
  have keep : (∀ t ∈ s'.todo, t ∈ s.todo) → CallInv s' := fun ht =>
    ⟨fun t h => (hi.from_ t (ht t h)).mono hl, fun r f h => hl _ (hi.flow r f (ht _ h)),
      fun r a g h => hl _ (hi.attach r a g (ht _ h))⟩
  have add : ∀ a, s'.todo = s.todo ++ [a] → a.From s.log → (∀ r f, a = .ctl (.flow r f) → .peer (.flow f) ∈ s.log) →
      (∀ r f g, a = .ctl (.attachSender r f g) → .peer (.attach f) ∈ s.log) → CallInv s' := by
    intro a ha h₁ h₂ h₃
    have mem : ∀ t, t ∈ s'.todo → t ∈ s.todo ∨ t = a := fun t ht => by
      rw [ha] at ht
      rcases List.mem_append.1 ht with ht | ht
      · exact .inl ht
      · exact .inr (List.mem_singleton.1 ht)
    refine ⟨fun t ht => ?_, fun r f ht => ?_, fun r f g ht => ?_⟩
    · rcases mem t ht with ht | rfl
      · exact (hi.from_ t ht).mono hl
      · exact h₁.mono hl
    · rcases mem _ ht with ht | ht
      · exact hl _ (hi.flow r f ht)
      · exact hl _ (h₂ r f ht.symm)
    · rcases mem _ ht with ht | ht
      · exact hl _ (hi.attach r f g ht)
      · exact hl _ (h₃ r f g ht.symm)
  cases h
  case newSnd a ha _ =>
    refine add _ rfl (by trivial) (by intro r f h; cases h) ?_
    intro r f g h
    cases h
    exact ha
  case addTodo a h₁ h₂ hf _ => exact add a rfl hf (fun r f h => (h₁ r f h).elim) (fun r f g h => (h₂ r f g h).elim)
  case addFlow r f k hk hf =>
    refine add _ rfl (by trivial) ?_ (by intro r f g h; cases h)
    intro r f h
    cases h
    exact hf
  case eraseTodo i => exact keep fun t ht => List.mem_of_mem_eraseIdx ht
  all_goals exact keep (fun t ht => by first | exact ht | simpa using ht)

/-- **C54** The control service is called about the peer only for what the peer did: in every execution, a call about an
attach, a flow, a detach or an end is in flight only if such a frame arrived, and it carries that frame.  (A detach of a
receiver link is passed on without its error.) -/
theorem c54_only_peer (s : Session) (hs : Reachable s) :
    (∀ r a g, .ctl (.attachSender r a g) ∈ s.todo → .peer (.attach a) ∈ s.log) ∧
    (∀ r a g, .ctl (.attachReceiver r a g) ∈ s.todo → .peer (.attach a) ∈ s.log) ∧
    (∀ r f, .ctl (.flow r f) ∈ s.todo → .peer (.flow f) ∈ s.log) ∧
    (∀ r f, .ctl (.detachSender r f) ∈ s.todo → .peer (.detach f) ∈ s.log) ∧
    (∀ r f, .ctl (.detachReceiver r f) ∈ s.todo → ∃ g, .peer (.detach g) ∈ s.log ∧ f = { g with error := none }) ∧
    ∀ links, .ctl (.sessionEnded links) ∈ s.todo → ∃ e, .peer (.end_ e) ∈ s.log := by
  have hi : CallInv s := hs.invariant
    (by rintro _ ⟨id, l, mfs, ch, b, rfl⟩; exact ⟨by simp [Session.new], by simp [Session.new], by simp [Session.new]⟩)
    fun _ _ h => h.callInv
  exact ⟨hi.attach, fun r a g h => hi.from_ _ h, hi.flow, fun r f h => hi.from_ _ h, fun r f h => hi.from_ _ h,
    fun l h => hi.from_ _ h⟩

/-- **C54** When the peer detaches a sender link, the control service is called once, with the detach as it arrived. -/
theorem c54_told_sender (s : Session) (f : Detach) (r : Ref) (l : Snd) (h : SenderDetached s f r l) :
    (s.step (.peer (.detach f))).todo = s.todo ++ [.ctl (.detachSender r f)] := by
  obtain ⟨he, hl, k, hk, hx⟩ := h
  have hd : (s.note (.peer (.detach f))).handleDetach f =
      ((((s.note (.peer (.detach f))).detachEstablishedSender r l f).forget k f.handle).modSnd r
        (fun l => { l with closed := true }), .detachSender r f) := by
    unfold handleDetach
    rw [show (s.note (.peer (.detach f))).remoteHandles.get f.handle = some k from hk]
    dsimp only
    rw [show (s.note (.peer (.detach f))).links.get k = some (.snd (.established r)) from hx]
    dsimp only
    rw [show (s.note (.peer (.detach f))).snd? r = some l from hl]
  rw [peer_detach_eq he, hd]
  simp [enqueue, forget, detachEstablishedSender, failPending]

example : ∃ (s : Session) (f : Detach) (r : Ref) (l : Snd), Reachable s ∧ SenderDetached s f r l :=
  ⟨(start 0).run attachOne, { handle := 7, closed := true, error := none }, 0, _, reachable _ _ _, rfl, rfl, 0, rfl, rfl⟩

/-- **C54** When the peer detaches a receiver link, the control service is called once, with the handle and the closed flag
of the detach.

Missing for the full property: the error the peer gave, see `c54_error_withheld`. -/
theorem c54_told_receiver_partial (s : Session) (f : Detach) (r : Ref) (l : Rcv) (h : ReceiverDetached s f r l) :
    (s.step (.peer (.detach f))).todo =
      s.todo ++ [.ctl (.detachReceiver r { handle := f.handle, closed := f.closed, error := none })] := by
  obtain ⟨he, hl, k, hk, hx⟩ := h
  have hd : (s.note (.peer (.detach f))).handleDetach f =
      ((((s.note (.peer (.detach f))).detachEstablishedReceiver r l f).forget k f.handle).modRcv r
        (fun l => { l with closed := true }), .detachReceiver r { f with error := none }) := by
    unfold handleDetach
    rw [show (s.note (.peer (.detach f))).remoteHandles.get f.handle = some k from hk]
    dsimp only
    rw [show (s.note (.peer (.detach f))).links.get k = some (.rcv (.established r)) from hx]
    dsimp only
    rw [show (s.note (.peer (.detach f))).rcv? r = some l from hl]
  rw [peer_detach_eq he, hd]
  simp [enqueue, forget, detachEstablishedReceiver]

/-- **C54** Violated: the control service is called about a receiver link the peer detached with an error, and is told there
was none.  (The link object has it.) -/
theorem c54_error_withheld : ∃ (s : Session) (l : Rcv) (f : Detach) (e : Error), Reachable s ∧ ReceiverDetached s f 0 l ∧
    f.error = some e ∧
    (s.step (.peer (.detach f))).todo = [.ctl (.detachReceiver 0 { handle := 5, closed := true, error := none })] := by
  let e : Error := { condition := .custom ⟨ascii "oops"⟩, description := none, info := none }
  exact ⟨(start 9).run [.attachReceiver (anAttach "q" 0 .receiver), .peer (.attach (anAttach "q" 5 .sender))], _,
    { handle := 5, closed := true, error := some e }, e, reachable _ _ _, ⟨rfl, rfl, 0, rfl, rfl⟩, rfl, rfl⟩

theorem mem_allLinks_snd (s : Session) (r : Ref) : .inl r ∈ s.allLinks ↔ ∃ k, s.links.get k = some (.snd (.established r)) := by
  unfold allLinks
  rw [List.mem_filterMap]
  constructor
  · rintro ⟨x, hx, h⟩
    obtain ⟨k, hk⟩ := Slab.get_of_mem_values hx
    refine ⟨k, ?_⟩
    rw [hk]
    split at h <;> simp_all
  · rintro ⟨k, hk⟩
    exact ⟨_, Slab.mem_values hk, rfl⟩

theorem mem_allLinks_rcv (s : Session) (r : Ref) : .inr r ∈ s.allLinks ↔ ∃ k, s.links.get k = some (.rcv (.established r)) := by
  unfold allLinks
  rw [List.mem_filterMap]
  constructor
  · rintro ⟨x, hx, h⟩
    obtain ⟨k, hk⟩ := Slab.get_of_mem_values hx
    refine ⟨k, ?_⟩
    rw [hk]
    split at h <;> simp_all
  · rintro ⟨k, hk⟩
    exact ⟨_, Slab.mem_values hk, rfl⟩

/-- **C54** When the peer ends the session, the control service is called once, with exactly the established links. -/
theorem c54_told_end (s : Session) (e : End) (he : s.error = none) : ∃ links,
    (s.step (.peer (.end_ e))).todo = s.todo ++ [.ctl (.sessionEnded links)] ∧
    (∀ r, .inl r ∈ links ↔ ∃ k, s.links.get k = some (.snd (.established r))) ∧
    ∀ r, .inr r ∈ links ↔ ∃ k, s.links.get k = some (.rcv (.established r)) := by
  refine ⟨s.allLinks, ?_, mem_allLinks_snd s, mem_allLinks_rcv s⟩
  have : s.step (.peer (.end_ e)) = (((s.note (.peer (.end_ e))).setError (.sessionEnded e.error)).enqueue
      (.sessionEnded s.allLinks)).post (.end_ { error := none }) := by
    simp [step, onPeer, note, he, remoteEnd, allLinks]
  rw [this]
  simp [enqueue]

example : ∃ s : Session, Reachable s ∧ s.error = none ∧ ∃ k r, s.links.get k = some (.snd (.established r)) :=
  ⟨(start 0).run attachOne, reachable _ _ _, rfl, 0, 0, rfl⟩

/-- **C54** When the application ends the session, an end goes out once, and the control service is told once, with exactly the
established links. -/
theorem c54_told_local_end (s : Session) (h₁ : s.ended = false) (h₂ : s.ending = false) : ∃ links,
    (s.step .endSession).log = s.log ++ [.closeSession s.remoteChannelId.toNat, .frame (.end_ { error := none }),
      .control (.localSessionEnded links)] ∧
    ((s.step .endSession).step .endSession).log = (s.step .endSession).log ∧
    (∀ r, .inl r ∈ links ↔ ∃ k, s.links.get k = some (.snd (.established r))) ∧
    ∀ r, .inr r ∈ links ↔ ∃ k, s.links.get k = some (.rcv (.established r)) := by
  have : s.step .endSession = { s with
      log := s.log ++ [.closeSession s.remoteChannelId.toNat, .frame (.end_ { error := none }),
        .control (.localSessionEnded s.allLinks)]
      ending := true } := by
    simp [step, endLocal, h₁, h₂, note, post]
  refine ⟨s.allLinks, by rw [this], ?_, mem_allLinks_snd s, mem_allLinks_rcv s⟩
  rw [this]
  simp [step, endLocal]

example : ∃ s : Session, Reachable s ∧ s.ended = false ∧ s.ending = false ∧ ∃ k r, s.links.get k = some (.snd (.established r)) :=
  ⟨(start 0).run attachOne, reachable _ _ _, rfl, rfl, 0, 0, rfl⟩

end Amqp.Rt
