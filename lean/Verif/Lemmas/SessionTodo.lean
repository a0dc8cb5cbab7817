import Verif.Lemmas.SessionRoute
/-!
# The session's calls in flight
-/

namespace Amqp.Rt
open Session

/-- What answering a call adds. -/
def nextTodo (edit : Attach → Attach) (e : Option Error) : Todo → List Todo
  | .ctl (.attachReceiver r _ response) => if e.isNone then [.attached r (edit response)] else []
  | _ => []

theorem newRemoteReceiver_act {s : Session} {a : Attach} {act : Action} (h : (s.onAttach a).2 = act) (r : Ref) (b g : Attach)
    (ha : act = .attachReceiver r b g) : r = s.rcvs.length ∧ b = a ∧ (s.onAttach a).1.rcvs.length = s.rcvs.length + 1 := by
  subst h
  have hh : ∀ s', s.handleAttach a = (s', false) → s'.rcvs = s.rcvs := by
    intro s' he
    unfold handleAttach at he
    repeat' split at he
    all_goals first | (cases he; done) | (cases he; rfl)
  unfold onAttach at ha ⊢
  split at ha
  · cases ha
  · next s' he =>
    have := hh s' he
    split at ha
    · cases ha
    · next hrole =>
      cases ha
      refine ⟨by rw [this], rfl, ?_⟩
      simp [he, hrole, newRemoteReceiver, this]

theorem handleDetach_act (s : Session) (f : Detach) (r : Ref) (a g : Attach) :
    (s.handleDetach f).2 ≠ .attachReceiver r a g := by
  unfold handleDetach detachEstablishedSender detachEstablishedReceiver
  dsimp only
  repeat' split
  all_goals first | (intro h; cases h; done) | (intro h; simp at h; done)

theorem handleTransfer_act {s : Session} {q : Ref} {t : Transfer} {r : Ref} {a g : Attach} :
    (s.handleTransfer q t).2 ≠ .attachReceiver r a g := by
  intro h
  unfold handleTransfer continueTransfer beginTransfer at h
  repeat' split at h
  all_goals (cases h; done)

theorem handleFrame_act {s : Session} {f : Frame} {r : Ref} {a g : Attach}
    (h : (s.handleFrame f).2 = .ok (.attachReceiver r a g)) : False := by
  unfold handleFrame at h
  repeat' split at h
  all_goals first
    | (cases h; done)
    | (next he => cases h; exact handleDetach_act _ _ _ _ _ (congrArg Prod.snd he))
    | (next he => cases h; exact handleTransfer_act (congrArg Prod.snd he))

theorem enqueue_todo (s : Session) (act : Action) :
    (s.enqueue act).todo = s.todo ∨ (s.enqueue act).todo = s.todo ++ [.ctl act] := by
  unfold enqueue
  split
  · exact .inl rfl
  · exact .inl rfl
  · exact .inr rfl

@[simp] theorem enqueue_rcvs (s : Session) (act : Action) : (s.enqueue act).rcvs = s.rcvs := by
  unfold enqueue
  split <;> rfl

/-- What a step does to the calls in flight. -/
theorem step_todo (s : Session) (st : Step) :
    (∃ i edit e t, st = .complete i edit e ∧ s.todo[i]? = some t ∧
      (s.step st).todo = s.todo.eraseIdx i ++ nextTodo edit e t) ∨
    (s.step st).todo = s.todo ∧ (∀ i edit e, st = .complete i edit e → s.todo[i]? = none) ∨
    ∃ act, (s.step st).todo = s.todo ++ [.ctl act] ∧ (∀ i edit e, st ≠ .complete i edit e) ∧
      ∀ r a g, act = .attachReceiver r a g → r = s.rcvs.length ∧ (s.step st).rcvs.length = s.rcvs.length + 1 := by
  cases st <;> unfold step
  case peer f =>
    right
    show ((s.onPeer f).todo = s.todo ∧ _) ∨ _
    unfold onPeer
    dsimp only
    split
    · next b =>
      split
      · exact .inl ⟨rfl, nofun⟩
      · rcases enqueue_todo ((s.note (.peer (.attach b))).onAttach b).1 ((s.note (.peer (.attach b))).onAttach b).2 with h | h
        · exact .inl ⟨by rw [h]; simp, nofun⟩
        · refine .inr ⟨((s.note (.peer (.attach b))).onAttach b).2, by rw [h]; simp, nofun, fun r a g ha => ?_⟩
          have := newRemoteReceiver_act rfl r a g ha
          exact ⟨this.1, by rw [enqueue_rcvs]; exact this.2.2⟩
    · next e =>
      split
      · exact .inl ⟨rfl, nofun⟩
      · rcases enqueue_todo ((s.note (.peer (.end_ e))).remoteEnd e.error).1
          ((s.note (.peer (.end_ e))).remoteEnd e.error).2 with h | h
        · exact .inl ⟨by rw [post_todo, h]; simp [remoteEnd], nofun⟩
        · refine .inr ⟨_, by rw [post_todo, h]; simp [remoteEnd]; rfl, nofun, fun r a g ha => ?_⟩
          simp [remoteEnd] at ha
    · have hf : ((s.note (.peer f)).handleFrame f).1.todo = s.todo := handleFrame_todo _ f
      unfold finishFrame
      split
      · next s' act he =>
        rw [he] at hf
        rcases enqueue_todo s' act with h | h
        · exact .inl ⟨by rw [h]; exact hf, nofun⟩
        · refine .inr ⟨act, by rw [h, hf], nofun, fun r a g ha => ?_⟩
          subst ha
          exact (handleFrame_act (by rw [he])).elim
      · next s' e he =>
        rw [he] at hf
        exact .inl ⟨hf, nofun⟩
  case complete i edit e =>
    dsimp only
    split
    · next t ht =>
      left
      refine ⟨i, edit, e, t, rfl, ht, ?_⟩
      have hlt := (List.getElem?_eq_some_iff.mp ht).1
      have hc : (s.onComplete edit e t).todo = s.todo ++ nextTodo edit e t := by
        cases t with
        | ctl a => cases a <;> cases e <;> simp [onComplete, nextTodo]
        | attached r a => cases e <;> simp [onComplete, nextTodo]
      show (s.onComplete edit e t).todo.eraseIdx i = _
      rw [hc, List.eraseIdx_append_of_lt_length hlt]
    · next ht => exact .inr (.inl ⟨rfl, fun i' _ _ h => by cases h; exact ht⟩)
  case settle d x => by_cases hf : s.free d <;> simp [hf]
  case update d x => by_cases hf : s.free d <;> simp [hf]
  case dropDelivery d => by_cases hf : s.free d <;> simp [hf]
  case wait d => by_cases hf : s.held d <;> simp [hf]
  case endConfirmed => dsimp only; split <;> simp [remoteEnd]
  case attachSender a => exact .inr (.inl ⟨rfl, nofun⟩)
  case attachReceiver a => exact .inr (.inl ⟨rfl, nofun⟩)
  all_goals simp

theorem Micro.rcvs_length {s s' : Session} (h : Micro s s') : s.rcvs.length ≤ s'.rcvs.length := by
  rcases Nat.lt_or_ge (s'.rcvs.length) s.rcvs.length with hlt | hge
  · exfalso
    obtain ⟨l, hl, _⟩ := h.rcv_kept (r := s'.rcvs.length) (List.getElem?_eq_getElem hlt)
    exact Nat.lt_irrefl _ (rcv?_lt hl)
  · exact hge

theorem step_rcvs_length (s : Session) (a : Step) : s.rcvs.length ≤ (s.step a).rcvs.length :=
  (step_micros s a).invariant (P := fun s' => s.rcvs.length ≤ s'.rcvs.length)
    (fun _ _ h hp => Nat.le_trans hp h.rcvs_length) (Nat.le_refl _)

end Amqp.Rt
