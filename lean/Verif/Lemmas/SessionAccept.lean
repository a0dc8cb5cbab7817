import Verif.Lemmas.SessionRelink
import Verif.Lemmas.SessionArrive
import Verif.Lemmas.SessionTodo
import Verif.Lemmas.RouterOffer
import Verif.Lemmas.SessionError
import Mathlib.Data.List.Induction
/-!
# Receiver links the services have not answered for
-/

namespace Amqp.Rt
open Session

theorem Session.Reachable.linksWf {s : Session} (h : s.Reachable) : s.links.Wf := by
  obtain ⟨s₀, steps, hf, rfl⟩ := h
  induction steps using List.reverseRecOn with
  | nil => obtain ⟨_, _, _, _, _, rfl⟩ := hf; exact Slab.wf_empty
  | append_singleton steps st ih =>
    have : s₀.run (steps ++ [st]) = (s₀.run steps).step st := by simp [run]
    rw [this]
    have h := step_relink ⟨s₀, steps, hf, rfl⟩ st
    generalize ((s₀.run steps).step st).links = m at h
    cases h with
    | same => exact ih
    | cleared => exact Slab.wf_empty
    | inserted => exact ih.insert _
    | answered => exact ih.set _ _
    | answeredSnd => exact ih.set _ _
    | acceptedSnd => exact ih.set _ _
    | refusedSnd => exact ih.remove _
    | accepted => exact ih.set _ _
    | closing => exact ih.set _ _
    | removed => exact ih.remove _
    | closed => exact ih.remove _

theorem Session.step_error_none {s : Session} {st : Step} (h : (s.step st).error = none) : s.error = none := by
  by_cases he : st.ends = true
  · cases hs : s.error with
    | none => rfl
    | some e =>
      exfalso
      cases st <;> simp only [Step.ends] at he <;> try (cases he; done)
      case fail e' =>
        have := setError_isSome s e'
        rw [show s.setError e' = s.step (.fail e') from rfl, h] at this
        cases this
      case endConfirmed e' =>
        have : s.step (.endConfirmed e') = s := by
          show (if s.error.isSome then s else (s.remoteEnd e'.error).1 : Session) = s
          rw [hs]; rfl
        rw [this, hs] at h
        cases h
      case peer f =>
        cases f <;> simp only at he <;> try (cases he; done)
        case end_ e' =>
          have : (s.step (.peer (.end_ e'))) = s.note (.peer (.end_ e')) := by
            show s.onPeer (.end_ e') = _
            unfold onPeer
            dsimp only
            rw [if_pos (by rw [note_error, hs]; rfl)]
          rw [this, note_error, hs] at h
          cases h
  · rw [← step_error s st (by simpa using he)]; exact h

theorem Session.step_rcv_kept {s : Session} {r : Ref} {l : Rcv} (st : Step) (hl : s.rcv? r = some l) :
    ∃ l', (s.step st).rcv? r = some l' ∧ l'.handle = l.handle :=
  (step_micros s st).invariant (P := fun s' => ∃ l', s'.rcv? r = some l' ∧ l'.handle = l.handle)
    (fun _ _ h ⟨_, h', hh⟩ => by obtain ⟨l'', h'', hh', _⟩ := Micro.rcv_kept h h'; exact ⟨l'', h'', by rw [hh', hh]⟩)
    ⟨l, hl, rfl⟩

/-- Where slots of links being attached come from. -/
theorem Session.step_slots {s : Session} (hs : s.Reachable) {st : Step} {k : Nat} {r : Ref} {src : Option Source}
    (hk : (s.step st).links.get k = some (.rcv (.opening (some (r, src))))) :
    s.links.get k = some (.rcv (.opening (some (r, src)))) ∨ s.error = none := by
  have set : ∀ k' x, (∀ r, ¬ x.Opening r) → (s.links.set k' x).get k = some (.rcv (.opening (some (r, src)))) →
      s.links.get k = some (.rcv (.opening (some (r, src)))) := by
    intro k' x hx h
    rcases Slab.get_set_some h with ⟨_, rfl⟩ | ⟨_, h⟩
    · exact absurd ⟨src, rfl⟩ (hx r)
    · exact h
  have remove : ∀ k', (s.links.remove k').get k = some (.rcv (.opening (some (r, src)))) →
      s.links.get k = some (.rcv (.opening (some (r, src)))) := by
    intro k' h
    rw [Slab.get_remove] at h
    split at h
    · cases h
    · exact h
  have h := step_relink hs st
  generalize (s.step st).links = m at h hk
  cases h with
  | same => exact .inl hk
  | cleared => rw [Slab.get_empty] at hk; cases hk
  | inserted x hx hr ho =>
    rcases Slab.get_insert_some hk with ⟨_, rfl⟩ | h
    · exact .inr (ho r ⟨src, rfl⟩)
    · exact .inl h
  | answered => exact .inl (set _ _ (by rintro r ⟨_, h⟩; cases h) hk)
  | answeredSnd => exact .inl (set _ _ (by rintro r ⟨_, h⟩; cases h) hk)
  | acceptedSnd => exact .inl (set _ _ (by rintro r ⟨_, h⟩; cases h) hk)
  | refusedSnd => exact .inl (remove _ hk)
  | accepted => exact .inl (set _ _ (by rintro r ⟨_, h⟩; cases h) hk)
  | closing _ _ x _ _ hx => exact .inl (set _ x (by rintro r ⟨_, rfl⟩; cases hx.2) hk)
  | removed => exact .inl (remove _ hk)
  | closed => exact .inl (remove _ hk)

theorem Session.ends_empty {s : Session} {st : Step} (hs : s.error = none) (he : (s.step st).error.isSome) :
    (s.step st).links = .empty := by
  cases hst : st.ends with
  | false => rw [step_error s st hst, hs] at he; cases he
  | true =>
    cases st <;> simp only [Step.ends] at hst <;> try (cases hst; done)
    case fail e => exact setError_links s e
    case endConfirmed e =>
      show (if s.error.isSome then s else (s.remoteEnd e.error).1 : Session).links = _
      rw [hs]
      exact remoteEnd_links s _
    case peer f =>
      cases f <;> simp only at hst <;> try (cases hst; done)
      case end_ e =>
        show (s.onPeer (.end_ e)).links = _
        unfold onPeer
        dsimp only
        rw [if_neg (by rw [note_error, hs]; simp)]
        simp

/-- When the session has failed there are no links being attached. -/
theorem Session.Reachable.failedNone {s : Session} (h : s.Reachable) (he : s.error.isSome) :
    ∀ k x r, s.links.get k = some x → ¬ x.Opening r := by
  obtain ⟨s₀, steps, hf, rfl⟩ := h
  induction steps using List.reverseRecOn with
  | nil => obtain ⟨_, _, _, _, _, rfl⟩ := hf; cases he
  | append_singleton steps st ih =>
    have hrun : s₀.run (steps ++ [st]) = (s₀.run steps).step st := by simp [run]
    rw [hrun] at he ⊢
    intro k x r hk ho
    cases hs : (s₀.run steps).error with
    | some e =>
      have ih := ih (by rw [hs]; rfl)
      obtain ⟨src, rfl⟩ := ho
      rcases step_slots ⟨s₀, steps, hf, rfl⟩ hk with h | h
      · exact ih k _ r h ⟨src, rfl⟩
      · rw [h] at hs; cases hs
    | none =>
      have := ends_empty (s := s₀.run steps) (st := st) hs he
      rw [this, Slab.get_empty] at hk
      cases hk

/-! ## Calls about attaching -/

theorem nextTodo_asks {edit : Attach → Attach} {e : Option Error} {t x : Todo} {r : Ref} (h : x ∈ nextTodo edit e t)
    (hx : x.asksAbout r = true) : t.asksAbout r = true := by
  unfold nextTodo at h
  split at h
  · split at h
    · simp only [List.mem_singleton] at h
      subst h
      exact hx
    · simp at h
  · simp at h

theorem onAttach_opens {s : Session} {a : Attach} {r : Ref} {b g : Attach} (h : (s.onAttach a).2 = .attachReceiver r b g) :
    r = s.rcvs.length ∧ (s.onAttach a).1.rcvs = s.rcvs ++ [rcvNew (UInt32.ofNat s.links.vacantKey) a.handle a] ∧
      (s.onAttach a).1.links = s.links.insert (.rcv (.opening (some (r, a.source)))) := by
  have hh : ∀ s', s.handleAttach a = (s', false) → s' = s := by
    intro s' he
    unfold handleAttach at he
    repeat' split at he
    all_goals first | (cases he; done) | (cases he; rfl)
  unfold onAttach at h ⊢
  split at h
  · cases h
  · next s' he =>
    obtain rfl := hh s' he
    split at h
    · cases h
    · next hrole =>
      cases h
      exact ⟨rfl, rfl, rfl⟩

/-- A call about attaching is added when the peer attaches. -/
theorem asks_new {s : Session} {st : Step} {r : Ref} (h : (s.step st).Asking r) (hn : ¬ s.Asking r) :
    ∃ a b g, st = .peer (.attach a) ∧ s.error = none ∧ ((s.note (.peer (.attach a))).onAttach a).2 = .attachReceiver r b g ∧
      s.step st = ((s.note (.peer (.attach a))).onAttach a).1.enqueue (.attachReceiver r b g) := by
  obtain ⟨t, ht, hr⟩ := h
  rcases step_todo s st with ⟨i, edit, e, t', rfl, ht', hto⟩ | ⟨hto, _⟩ | ⟨act, hto, hc, hact⟩
  · exfalso
    rw [hto] at ht
    rcases List.mem_append.mp ht with hm | hm
    · exact hn ⟨t, (List.eraseIdx_sublist _ _).mem hm, hr⟩
    · exact hn ⟨t', List.mem_of_getElem? ht', nextTodo_asks hm hr⟩
  · exact absurd ⟨t, by rw [← hto]; exact ht, hr⟩ hn
  · have hnew : ∃ b g, act = .attachReceiver r b g := by
      rw [hto] at ht
      rcases List.mem_append.mp ht with hm | hm
      · exact absurd ⟨t, hm, hr⟩ hn
      · simp only [List.mem_singleton] at hm
        subst hm
        unfold Todo.asksAbout at hr
        split at hr
        · next h => cases h; simp at hr; subst hr; exact ⟨_, _, rfl⟩
        · next h => cases h
        · cases hr
    obtain ⟨b, g, rfl⟩ := hnew
    have hlen : (s.step st).todo ≠ s.todo := by
      intro h
      rw [h] at hto
      have := congrArg List.length hto
      simp at this
    cases st
    case peer f =>
      have hto' : (s.onPeer f).todo = s.todo ++ [.ctl (.attachReceiver r b g)] := hto
      unfold onPeer at hto'
      have last : ∀ (x : Session) (a : Action), x.todo = s.todo →
          (x.enqueue a).todo = s.todo ++ [.ctl (.attachReceiver r b g)] → a = .attachReceiver r b g := by
        intro x a hx h
        rcases enqueue_todo x a with h' | h'
        · rw [h', hx] at h
          have := congrArg List.length h
          simp at this
        · rw [h', hx] at h
          have := List.append_cancel_left h
          simp only [List.cons.injEq, and_true, Todo.ctl.injEq] at this
          exact this
      have fin : ∀ f, (finishFrame ((s.note (.peer f)).handleFrame f)).todo = s.todo ++ [.ctl (.attachReceiver r b g)] →
          False := by
        intro f h
        have hf : ((s.note (.peer f)).handleFrame f).1.todo = s.todo := handleFrame_todo _ f
        unfold finishFrame at h
        split at h
        · next s' act he =>
          rw [he] at hf
          have := last s' act hf h
          subst this
          exact handleFrame_act (by rw [he])
        · next s' e he =>
          rw [he] at hf
          have := congrArg List.length h
          rw [note_todo, hf] at this
          simp at this
      cases f
      case attach a =>
        dsimp only at hto'
        split at hto'
        · next he =>
          exact absurd hto' (by intro h; have := congrArg List.length h; simp at this)
        · next he =>
          have ha := last _ _ (by simp) hto'
          refine ⟨a, b, g, rfl, by simpa using he, ha, ?_⟩
          show s.onPeer (.attach a) = _
          unfold onPeer
          dsimp only
          rw [if_neg he, ha]
      case end_ e =>
        exfalso
        dsimp only at hto'
        split at hto'
        · have := congrArg List.length hto'; simp at this
        · rw [post_todo] at hto'
          have := last _ _ (by simp [remoteEnd]) hto'
          cases this
      all_goals exact (fin _ hto').elim
    case complete i edit e => exact absurd rfl (hc i edit e)
    all_goals
      exfalso
      refine hlen ?_
      simp [step]
    all_goals (repeat' split) <;> first | rfl | simp [remoteEnd]

/-- There is one call about a link at most, and none about a link there is not. -/
theorem Session.Reachable.asksOnce {s : Session} (h : s.Reachable) (r : Ref) :
    s.todo.countP (Todo.asksAbout r) ≤ 1 ∧ (s.rcvs.length ≤ r → s.todo.countP (Todo.asksAbout r) = 0) := by
  obtain ⟨s₀, steps, hf, rfl⟩ := h
  induction steps using List.reverseRecOn with
  | nil => obtain ⟨_, _, _, _, _, rfl⟩ := hf; exact ⟨Nat.zero_le _, fun _ => rfl⟩
  | append_singleton steps st ih =>
    have hrun : s₀.run (steps ++ [st]) = (s₀.run steps).step st := by simp [run]
    rw [hrun]
    generalize s₀.run steps = s at ih ⊢
    have hlen := step_rcvs_length s st
    rcases step_todo s st with ⟨i, edit, e, t', rfl, ht', hto⟩ | ⟨hto, _⟩ | ⟨act, hto, hc, hact⟩
    · rw [hto, List.countP_append]
      have h1 := Router.countP_eraseIdx (Todo.asksAbout r) ht'
      have h2 : (nextTodo edit e t').countP (Todo.asksAbout r) ≤ if t'.asksAbout r then 1 else 0 := by
        unfold nextTodo
        split
        · split
          · simp [Todo.asksAbout, List.countP_cons]
          · simp
        · simp
      exact ⟨by omega, fun h => by have := ih.2 (by omega); omega⟩
    · rw [hto]
      exact ⟨ih.1, fun h => ih.2 (by omega)⟩
    · rw [hto, List.countP_append, List.countP_singleton]
      by_cases ha : Todo.asksAbout r (.ctl act) = true
      · rw [if_pos ha]
        have : ∃ b g, act = .attachReceiver r b g := by
          unfold Todo.asksAbout at ha
          split at ha
          · next h => cases h; simp at ha; subst ha; exact ⟨_, _, rfl⟩
          · next h => cases h
          · cases ha
        obtain ⟨b, g, rfl⟩ := this
        obtain ⟨rfl, hl⟩ := hact r b g rfl
        have := ih.2 (Nat.le_refl _)
        exact ⟨by omega, fun h => by omega⟩
      · rw [if_neg ha]
        exact ⟨ih.1, fun h => ih.2 (by omega)⟩

/-- The link has a slot of its own, and is not established. -/
def Session.OwnsSlot (s : Session) (r : Ref) : Prop :=
  ∃ l x, s.rcv? r = some l ∧ s.links.get l.handle.toNat = some x ∧ x.Opening r

theorem Session.OwnsSlot.notReceives {s : Session} {r : Ref} (hs : s.Reachable) (h : s.OwnsSlot r) : ¬ s.Receives r := by
  rintro ⟨k, hk⟩
  obtain ⟨l, x, hl, hx, src, rfl⟩ := h
  have := hs.rcvSlots.unique _ _ _ _ r hx hk rfl rfl
  rw [← this, hx] at hk
  cases hk

/-- The peer's detach closes the link object. -/
theorem detach_closes {s : Session} {f : Detach} {r : Ref} {g : Detach} (h : (s.handleDetach f).2 = .detachReceiver r g) :
    ∃ l, (s.handleDetach f).1.rcv? r = some l ∧ l.closed = true := by
  unfold handleDetach at h ⊢
  dsimp only at h ⊢
  split at h
  · cases h
  · next idx hidx =>
    split at h
    all_goals first | (cases h; done) | skip
    · split at h <;> cases h
    · next r' hk =>
      split at h
      · next l hl =>
        cases h
        have hk : ∃ l', ((s.detachEstablishedReceiver r l f).forget idx f.handle).rcv? r = some l' := by
          show ∃ l', (s.detachEstablishedReceiver r l f).rcv? r = some l'
          unfold detachEstablishedReceiver rcvRemoteDetached
          rw [rcv?_modRcv, if_pos rfl]
          have : ((s.failDeliveries false l.handle (.linkDetached f.error)).post
              (.detach { handle := l.handle, closed := true, error := none })).rcv? r = s.rcv? r := by
            unfold rcv?; simp
          rw [this, hl]
          exact ⟨_, rfl⟩
        obtain ⟨l', hl'⟩ := hk
        rw [rcv?_modRcv, if_pos rfl, hl']
        exact ⟨_, rfl, rfl⟩
      · cases h

theorem handleFrame_told {s s' : Session} {fr : Frame} {r : Ref} {f : Detach}
    (he : s.handleFrame fr = (s', .ok (.detachReceiver r f))) : ∃ l, s'.rcv? r = some l ∧ l.closed = true := by
  have ht : ∀ r' t, (s.handleTransfer r' t).2 ≠ .detachReceiver r f := by
    intro r' t h
    unfold handleTransfer continueTransfer beginTransfer at h
    repeat' split at h
    all_goals (cases h; done)
  unfold handleFrame at he
  by_cases hs : s.error.isSome
  · rw [if_pos hs] at he; cases he
  · rw [if_neg hs] at he
    cases fr
    case flow f => dsimp only at he; split at he <;> cases he
    case transfer t =>
      dsimp only at he
      split at he
      · cases he
      · split at he
        all_goals first | (cases he; done) | skip
        next r' _ =>
        have := congrArg Prod.snd he
        simp only [Except.ok.injEq] at this
        exact absurd this (ht r' t)
    case detach d =>
      dsimp only at he
      have h2 := congrArg Prod.snd he
      simp only [Except.ok.injEq] at h2
      have h1 : (s.handleDetach d).1 = s' := congrArg Prod.fst he
      rw [← h1]
      exact detach_closes h2
    all_goals (cases he; done)

/-- The control service is told of a receiver's detach when the link is closed. -/
theorem Session.Reachable.toldClosed {s : Session} (h : s.Reachable) {r : Ref} {f : Detach}
    (ht : .ctl (.detachReceiver r f) ∈ s.todo) : ∃ l, s.rcv? r = some l ∧ l.closed = true := by
  obtain ⟨s₀, steps, hf, rfl⟩ := h
  induction steps using List.reverseRecOn generalizing f with
  | nil => obtain ⟨_, _, _, _, _, rfl⟩ := hf; cases ht
  | append_singleton steps st ih =>
    have hrun : s₀.run (steps ++ [st]) = (s₀.run steps).step st := by simp [run]
    rw [hrun] at ht ⊢
    generalize s₀.run steps = s at ih ht ⊢
    have old : ∀ {f}, .ctl (.detachReceiver r f) ∈ s.todo → ∃ l, (s.step st).rcv? r = some l ∧ l.closed = true := by
      intro f hm
      obtain ⟨l, hl, hc⟩ := ih hm
      exact step_rcv_closed hl hc st
    rcases step_todo s st with ⟨i, edit, e, t', rfl, ht', hto⟩ | ⟨hto, _⟩ | ⟨act, hto, hc, hact⟩
    · rw [hto] at ht
      rcases List.mem_append.mp ht with hm | hm
      · exact old ((List.eraseIdx_sublist _ _).mem hm)
      · exfalso
        unfold nextTodo at hm
        split at hm
        · split at hm <;> simp at hm
        · simp at hm
    · rw [hto] at ht; exact old ht
    · by_cases hm : .ctl (.detachReceiver r f) ∈ s.todo
      · exact old hm
      · have hact : act = .detachReceiver r f := by
          rw [hto] at ht
          rcases List.mem_append.mp ht with hm' | hm'
          · exact absurd hm' hm
          · simp only [List.mem_singleton, Todo.ctl.injEq] at hm'
            exact hm'.symm
        subst hact
        have hlen : (s.step st).todo ≠ s.todo := by
          intro h
          rw [h] at hto
          have := congrArg List.length hto
          simp at this
        have last : ∀ (x : Session) (a : Action), x.todo = s.todo →
            (x.enqueue a).todo = s.todo ++ [.ctl (.detachReceiver r f)] → a = .detachReceiver r f := by
          intro x a hx h
          rcases enqueue_todo x a with h' | h'
          · rw [h', hx] at h
            have := congrArg List.length h
            simp at this
          · rw [h', hx] at h
            have := List.append_cancel_left h
            simp only [List.cons.injEq, and_true, Todo.ctl.injEq] at this
            exact this
        cases st
        case peer fr =>
          have hto' : (s.onPeer fr).todo = s.todo ++ [.ctl (.detachReceiver r f)] := hto
          show ∃ l, (s.onPeer fr).rcv? r = some l ∧ l.closed = true
          unfold onPeer at hto' ⊢
          cases fr
          case attach a =>
            exfalso
            dsimp only at hto'
            split at hto'
            · have := congrArg List.length hto'; simp at this
            · have ha := last _ _ (by simp) hto'
              unfold onAttach newRemoteSender newRemoteReceiver at ha
              split at ha
              · cases ha
              · split at ha <;> cases ha
          case end_ e =>
            exfalso
            dsimp only at hto'
            split at hto'
            · have := congrArg List.length hto'; simp at this
            · rw [post_todo] at hto'
              have := last _ _ (by simp [remoteEnd]) hto'
              cases this
          all_goals
            dsimp only at hto' ⊢
            exact told_fin last hto'
        case complete i edit e => exact absurd rfl (hc i edit e)
        all_goals
          exfalso
          refine hlen ?_
          simp [step]
        all_goals (repeat' split) <;> first | rfl | simp [remoteEnd]
where
  told_fin {s : Session} {r : Ref} {f : Detach} {fr : Frame}
      (last : ∀ (x : Session) (a : Action), x.todo = s.todo →
        (x.enqueue a).todo = s.todo ++ [.ctl (.detachReceiver r f)] → a = .detachReceiver r f)
      (h : (finishFrame ((s.note (.peer fr)).handleFrame fr)).todo = s.todo ++ [.ctl (.detachReceiver r f)]) :
      ∃ l, (finishFrame ((s.note (.peer fr)).handleFrame fr)).rcv? r = some l ∧ l.closed = true := by
    have hf : ((s.note (.peer fr)).handleFrame fr).1.todo = s.todo := handleFrame_todo _ fr
    cases he : (s.note (.peer fr)).handleFrame fr with
    | mk s' a =>
      rw [he] at hf h
      cases a with
      | error e =>
        have := congrArg List.length h
        rw [show (finishFrame (s', .error e)).todo = s'.todo from rfl, hf] at this
        simp at this
      | ok act =>
        have hact := last s' act hf h
        subst hact
        show ∃ l, (s'.enqueue _).rcv? r = some l ∧ l.closed = true
        have hr : (s'.enqueue (.detachReceiver r f)).rcv? r = s'.rcv? r := rfl
        rw [hr]
        exact handleFrame_told he

/-- Unless disturbed, links that are being attached have their slots. -/
theorem owns_step {s : Session} (hs : s.Reachable) {st : Step} (hd : ¬ s.Disturbs st)
    (hfit : ∀ k x, s.links.get k = some x → k < 2 ^ 32)
    (hfit' : ∀ k x, (s.step st).links.get k = some x → k < 2 ^ 32)
    (ih : ∀ r, s.Asking r → s.error = none → s.OwnsSlot r) {r : Ref} (ha : (s.step st).Asking r)
    (he' : (s.step st).error = none) : (s.step st).OwnsSlot r := by
  have he := step_error_none he'
  by_cases hn : s.Asking r
  · obtain ⟨l, x, hl, hx, ho⟩ := ih r hn he
    obtain ⟨l', hl', hh⟩ := step_rcv_kept st hl
    refine ⟨l', x, hl', ?_, ho⟩
    rw [hh]
    -- the link is no longer asked about when its call is answered
    have gone : ∀ i edit e t, st = .complete i edit e → s.todo[i]? = some t → t.asksAbout r = true →
        nextTodo edit e t = [] → False := by
      rintro i edit e t rfl ht hr hne
      rcases step_todo s (.complete i edit e) with ⟨i', edit', e', t', heq, ht', hto⟩ | ⟨_, h⟩ | ⟨_, _, h, _⟩
      · cases heq
        rw [ht] at ht'
        cases ht'
        rw [hne, List.append_nil] at hto
        have h1 := Router.countP_eraseIdx (Todo.asksAbout r) ht
        have h2 := (hs.asksOnce r).1
        rw [hr] at h1
        simp only [if_true] at h1
        obtain ⟨t', ht', hr'⟩ := ha
        rw [hto] at ht'
        have := List.countP_pos_iff.mpr ⟨t', ht', hr'⟩
        omega
      · rw [h i edit e rfl] at ht; cases ht
      · exact absurd rfl (h i edit e)
    have same : ∀ r₀ l₀, s.Asking r₀ → s.rcv? r₀ = some l₀ → l₀.handle.toNat = l.handle.toNat → r₀ = r := by
      intro r₀ l₀ h1 h2 h3
      obtain ⟨l₁, x₁, hl₁, hx₁, src₁, rfl⟩ := ih r₀ h1 he
      obtain ⟨src, rfl⟩ := ho
      rw [h2] at hl₁
      cases hl₁
      rw [h3, hx] at hx₁
      cases hx₁
      rfl
    have set : ∀ k y, k ≠ l.handle.toNat → (s.links.set k y).get l.handle.toNat = some x := by
      intro k y hk
      by_cases hc : s.links.contains k = true
      · rw [Slab.get_set _ _ _ _ hc, if_neg hk]; exact hx
      · unfold Slab.set; rw [if_neg hc]; exact hx
    have remove : ∀ k, k ≠ l.handle.toNat → (s.links.remove k).get l.handle.toNat = some x := by
      intro k hk
      rw [Slab.get_remove, if_neg hk]; exact hx
    have h := step_relink hs st
    rw [he'] at h
    generalize (s.step st).links = m at h
    cases h with
    | same => exact hx
    | cleared h => cases h
    | inserted y hy hr hoy =>
      rw [Slab.get_insert hs.linksWf, if_neg]
      · exact hx
      · rintro h
        have := hs.linksWf.vacantKey
        rw [h, hx] at this
        cases this
    | answered a k r' op hst hk =>
      refine set _ _ ?_
      rintro rfl
      obtain ⟨_, rfl⟩ := ho
      rw [hx] at hk; cases hk
    | answeredSnd k r' tx hk =>
      refine set _ _ ?_
      rintro rfl
      obtain ⟨_, rfl⟩ := ho
      rw [hx] at hk; cases hk
    | acceptedSnd i edit r' a g l₀ hst ht hl₀ =>
      refine set _ _ ?_
      intro h
      subst hst
      exact hd ⟨_, x, r, hx, ho, r', a, g, l₀, ht, hl₀, h⟩
    | refusedSnd i edit e r' a g l₀ hst ht hl₀ =>
      refine remove _ ?_
      intro h
      subst hst
      exact hd ⟨_, x, r, hx, ho, r', a, g, l₀, ht, hl₀, h⟩
    | accepted i edit r' g l₀ r₁ src hst ht hl₀ hk =>
      refine set _ _ ?_
      intro h
      have hr : r' = r := same r' l₀ ⟨_, List.mem_of_getElem? ht, by simp [Todo.asksAbout]⟩ hl₀ h
      subst hr
      exact gone i edit none _ hst ht (by simp [Todo.asksAbout]) rfl
    | closing k old y hk hold hy =>
      refine set _ _ ?_
      rintro rfl
      rw [hx] at hk; cases hk
      exact hold r ho
    | removed k old hk hold =>
      refine remove _ ?_
      rintro rfl
      rw [hx] at hk; cases hk
      exact hold r ho
    | closed k hc =>
      refine remove _ ?_
      rintro rfl
      rcases hc with ⟨h, e, rfl, hh⟩ | ⟨r₀, l₀, hl₀, hh₀, ⟨e, rfl, hc⟩ | ⟨i, edit, e, t, rfl, ht, hc, h⟩ | ⟨t, rfl, k, hk⟩⟩
      · exact hd ⟨_, x, r, hx, ho, hh⟩
      · exact hd ⟨_, x, r, hx, ho, l₀, hl₀, hc, hh₀⟩
      · rcases h with ⟨a, g, rfl⟩ | ⟨g, rfl⟩ | ⟨f, rfl⟩
        · have hr : r₀ = r := same r₀ l₀ ⟨_, List.mem_of_getElem? ht, by simp [Todo.asksAbout]⟩ hl₀ hh₀
          subst hr
          exact gone i edit (some e) _ rfl ht (by simp [Todo.asksAbout]) rfl
        · have hr : r₀ = r := same r₀ l₀ ⟨_, List.mem_of_getElem? ht, by simp [Todo.asksAbout]⟩ hl₀ hh₀
          subst hr
          exact gone i edit (some e) _ rfl ht (by simp [Todo.asksAbout]) rfl
        · obtain ⟨l₁, hl₁, hc₁⟩ := hs.toldClosed (List.mem_of_getElem? ht)
          rw [hl₀] at hl₁
          cases hl₁
          rw [hc] at hc₁
          cases hc₁
      · obtain ⟨l₁, hl₁, hh₁⟩ := hs.rcvSlots.handle k _ r₀ hk rfl
        rw [hl₀] at hl₁
        cases hl₁
        have hlt := hfit k _ hk
        have : l₀.handle.toNat = k := by
          rw [hh₁]
          exact Nat.mod_eq_of_lt hlt
        rw [← hh₀, this, hk] at hx
        cases hx
        obtain ⟨_, h⟩ := ho
        cases h
  · obtain ⟨a, b, g, rfl, _, hact, hstep⟩ := asks_new ha hn
    obtain ⟨hr, hrc, hlk⟩ := onAttach_opens hact
    have hlk' : (s.step (.peer (.attach a))).links = s.links.insert (.rcv (.opening (some (r, a.source)))) := by
      rw [hstep, enqueue_links, hlk]; rfl
    have hget : (s.step (.peer (.attach a))).links.get s.links.vacantKey = some (.rcv (.opening (some (r, a.source)))) := by
      rw [hlk', Slab.get_insert hs.linksWf, if_pos rfl]
    have hlt := hfit' _ _ hget
    refine ⟨rcvNew (UInt32.ofNat s.links.vacantKey) a.handle a, .rcv (.opening (some (r, a.source))), ?_, ?_, a.source, rfl⟩
    · have : (s.step (.peer (.attach a))).rcvs = s.rcvs ++ [rcvNew (UInt32.ofNat s.links.vacantKey) a.handle a] := by
        rw [hstep, enqueue_rcvs, hrc]; rfl
      unfold rcv?
      rw [this, hr]
      show (s.rcvs ++ _)[s.rcvs.length]? = _
      simp
    · have : (rcvNew (UInt32.ofNat s.links.vacantKey) a.handle a).handle.toNat = s.links.vacantKey := by
        show (UInt32.ofNat s.links.vacantKey).toNat = _
        exact Nat.mod_eq_of_lt hlt
      rw [this]
      exact hget

/-! ## Links that are established -/

theorem receivedOn_arrivals (r : Ref) (s : Session) : receivedOn r s.log = receivedOn r s.arrivals := by
  unfold receivedOn arrivals
  rw [List.filterMap_filter]
  congr 1
  funext e
  cases e <;> rfl

/-- Frames are taken in by established links only. -/
theorem received_step {s : Session} (hs : s.Reachable) (st : Step) (r : Ref) :
    receivedOn r (s.step st).log = receivedOn r s.log ∨
      s.Receives r ∧ ∃ t, st = .peer (.transfer t) ∧ receivedOn r (s.step st).log = receivedOn r s.log ++ [t] := by
  rw [receivedOn_arrivals, receivedOn_arrivals r s]
  by_cases hm : st.moves = true
  · cases st <;> simp only [Step.moves] at hm <;> try (cases hm; done)
    case take r' =>
      left
      show receivedOn r (s.getDelivery r').1.arrivals = _
      rw [getDelivery_arrivals]
      split <;> simp [receivedOn]
    case recv r' =>
      left
      show receivedOn r (s.pollRecv r').1.arrivals = _
      rcases pollRecv_arrivals s r' with h | ⟨d, t, h⟩ <;> rw [h] <;> simp [receivedOn]
    case peer f =>
      cases f <;> simp only at hm <;> try (cases hm; done)
      case transfer t =>
        rcases transfer_arrivals hs t with ⟨h, _⟩ | ⟨r', hr, h, _⟩ | ⟨r', h, _⟩
        · rw [h]; exact .inl rfl
        · rw [h]
          by_cases he : r' = r
          · subst he
            exact .inr ⟨hr, t, rfl, by simp [receivedOn]⟩
          · exact .inl (by simp [receivedOn, he])
        · rw [h]; exact .inl (by simp [receivedOn])
  · rw [step_arrivals s (by simpa using hm)]; exact .inl rfl

/-- How a link gets established. -/
theorem receives_new {s : Session} (hs : s.Reachable) {st : Step} {r : Ref} (hn : ¬ s.Receives r)
    (h : (s.step st).Receives r) : s.PeerAnswers r st ∨
      ∃ i edit r' g l src, st = .complete i edit none ∧ s.todo[i]? = some (.attached r' g) ∧ s.rcv? r' = some l ∧
        s.links.get l.handle.toNat = some (.rcv (.opening (some (r, src)))) := by
  obtain ⟨k, hk⟩ := h
  have old : s.links.get k = some (.rcv (.established r)) → False := fun h => hn ⟨k, h⟩
  have set : ∀ k' x, (s.links.set k' x).get k = some (.rcv (.established r)) → x = .rcv (.established r) := by
    intro k' x h
    rcases Slab.get_set_some h with ⟨_, h⟩ | ⟨_, h⟩
    · exact h.symm
    · exact (old h).elim
  have remove : ∀ k', (s.links.remove k').get k = some (.rcv (.established r)) → False := by
    intro k' h
    rw [Slab.get_remove] at h
    split at h
    · cases h
    · exact old h
  have h := step_relink hs st
  generalize (s.step st).links = m at h hk
  cases h with
  | same => exact (old hk).elim
  | cleared => rw [Slab.get_empty] at hk; cases hk
  | inserted x hx hr ho =>
    rcases Slab.get_insert_some hk with ⟨_, rfl⟩ | h
    · exact hx.elim
    · exact (old h).elim
  | answered a k' r' op hst hk' => cases set _ _ hk; exact .inl ⟨a, k', op, hst, hk'⟩
  | answeredSnd => cases set _ _ hk
  | acceptedSnd => cases set _ _ hk
  | refusedSnd => exact (remove _ hk).elim
  | accepted i edit r' g l r₁ src hst ht hl hk' => cases set _ _ hk; exact .inr ⟨i, edit, r', g, l, src, hst, ht, hl, hk'⟩
  | closing _ _ x _ _ hx => cases set _ _ hk; cases hx.2
  | removed => exact (remove _ hk).elim
  | closed => exact (remove _ hk).elim

/-- Links of this side that wait for the peer's answer are new when they begin to. -/
theorem local_new {s : Session} (hs : s.Reachable) {st : Step} {r op : Ref} {k : Nat}
    (h : (s.step st).links.get k = some (.rcv (.openingLocal (some (r, op))))) :
    s.links.get k = some (.rcv (.openingLocal (some (r, op)))) ∨ r = s.rcvs.length := by
  have set : ∀ k' x, (s.links.set k' x).get k = some (.rcv (.openingLocal (some (r, op)))) →
      x = .rcv (.openingLocal (some (r, op))) ∨ s.links.get k = some (.rcv (.openingLocal (some (r, op)))) := by
    intro k' x h
    rcases Slab.get_set_some h with ⟨_, h⟩ | ⟨_, h⟩
    · exact .inl h.symm
    · exact .inr h
  have remove : ∀ k', (s.links.remove k').get k = some (.rcv (.openingLocal (some (r, op)))) →
      s.links.get k = some (.rcv (.openingLocal (some (r, op)))) := by
    intro k' h
    rw [Slab.get_remove] at h
    split at h
    · cases h
    · exact h
  have h' := step_relink hs st
  generalize (s.step st).links = m at h h'
  cases h' with
  | same => exact .inl h
  | cleared => rw [Slab.get_empty] at h; cases h
  | inserted x hx hr ho =>
    rcases Slab.get_insert_some h with ⟨_, rfl⟩ | h
    · rcases hr with hr | hr
      · cases hr
      · exact .inr (Option.some.inj hr)
    · exact .inl h
  | answered => rcases set _ _ h with h | h <;> first | cases h | exact .inl h
  | answeredSnd => rcases set _ _ h with h | h <;> first | cases h | exact .inl h
  | acceptedSnd => rcases set _ _ h with h | h <;> first | cases h | exact .inl h
  | refusedSnd => exact .inl (remove _ h)
  | accepted => rcases set _ _ h with h | h <;> first | cases h | exact .inl h
  | closing _ _ x _ _ hx =>
    rcases set _ _ h with h | h
    · subst h; cases hx.2
    · exact .inl h
  | removed => exact .inl (remove _ h)
  | closed => exact .inl (remove _ h)

/-- Whoever is asked about has its slot. -/
def Session.Kept (s : Session) : Prop := ∀ r, s.Asking r → s.error = none → s.OwnsSlot r

/-- Then only the acceptance of a link, or the peer's answer, establishes it. -/
theorem receives_kept {s : Session} (hs : s.Reachable) (hk : s.Kept) {st : Step} {r : Ref} (hn : ¬ s.Receives r)
    (h : (s.step st).Receives r) : s.PeerAnswers r st ∨ s.PublishAccepts r st := by
  rcases receives_new hs hn h with h | ⟨i, edit, r', g, l, src, hst, ht, hl, hx⟩
  · exact .inl h
  · right
    have he : s.error = none := by
      cases he : s.error with
      | none => rfl
      | some e => exact absurd ⟨src, rfl⟩ (hs.failedNone (by rw [he]; rfl) _ _ r hx)
    obtain ⟨l', x, hl', hx', src', rfl⟩ := hk r' ⟨_, List.mem_of_getElem? ht, by simp [Todo.asksAbout]⟩ he
    rw [hl] at hl'
    cases hl'
    rw [hx] at hx'
    cases hx'
    exact ⟨i, edit, g, hst, ht⟩

/-- The link takes in nothing, and does not wait for the peer. -/
structure Session.Silent (s : Session) (r : Ref) : Prop where
  old : r < s.rcvs.length
  closed : ¬ s.Receives r
  remote : ∀ k op, s.links.get k ≠ some (.rcv (.openingLocal (some (r, op))))
  none : receivedOn r s.log = []

theorem Session.Silent.step {s : Session} {r : Ref} (h : s.Silent r) (hs : s.Reachable) (hk : s.Kept) {st : Step}
    (ha : ¬ s.PublishAccepts r st) : (s.step st).Silent r := by
  refine ⟨Nat.lt_of_lt_of_le h.old (step_rcvs_length s st), fun hr => ?_, fun k op hx => ?_, ?_⟩
  · rcases receives_kept hs hk h.closed hr with ⟨a, k, op, _, hx⟩ | hp
    · exact h.remote k op hx
    · exact ha hp
  · rcases local_new hs hx with hx | hr
    · exact h.remote k op hx
    · exact Nat.lt_irrefl _ (hr ▸ h.old)
  · rcases received_step hs st r with hr | ⟨hr, _⟩
    · rw [hr]; exact h.none
    · exact absurd hr h.closed

theorem Session.Asking.old {s : Session} {r : Ref} (hs : s.Reachable) (h : s.Asking r) : r < s.rcvs.length := by
  rcases Nat.lt_or_ge r s.rcvs.length with h' | h'
  · exact h'
  · obtain ⟨t, ht, hr⟩ := h
    have := (hs.asksOnce r).2 h'
    have := List.countP_pos_iff.mpr ⟨t, ht, hr⟩
    omega

/-- A call that is answered for good is the last one about its link. -/
theorem answered_gone {s : Session} (hs : s.Reachable) {i : Nat} {edit : Attach → Attach} {e : Option Error} {t : Todo}
    {r : Ref} (ht : s.todo[i]? = some t) (hr : t.asksAbout r = true) (hn : nextTodo edit e t = []) :
    ¬ (s.step (.complete i edit e)).Asking r := by
  rintro ⟨t', ht', hr'⟩
  rcases step_todo s (.complete i edit e) with ⟨i', edit', e', t₀, heq, ht₀, hto⟩ | ⟨_, h⟩ | ⟨_, _, h, _⟩
  · cases heq
    rw [ht] at ht₀
    cases ht₀
    rw [hn, List.append_nil] at hto
    have h1 := Router.countP_eraseIdx (Todo.asksAbout r) ht
    have h2 := (hs.asksOnce r).1
    rw [hr] at h1
    simp only [if_true] at h1
    rw [hto] at ht'
    have := List.countP_pos_iff.mpr ⟨t', ht', hr'⟩
    omega
  · rw [h i edit e rfl] at ht; cases ht
  · exact absurd rfl (h i edit e)

theorem silent_asking {s : Session} (hs : s.Reachable) (hk : s.Kept) (st : Step)
    (ih : ∀ r, s.Asking r → s.Silent r) {r : Ref} (ha : (s.step st).Asking r) : (s.step st).Silent r := by
  by_cases hn : s.Asking r
  · refine (ih r hn).step hs hk ?_
    rintro ⟨i, edit, g, rfl, ht⟩
    exact answered_gone hs ht (by simp [Todo.asksAbout]) rfl ha
  · have hs' : (s.step st).Reachable := by
      obtain ⟨s₀, steps, hf, rfl⟩ := hs
      exact ⟨s₀, steps ++ [st], hf, by simp [run]⟩
    obtain ⟨a, b, g, rfl, _, hact, hstep⟩ := asks_new ha hn
    obtain ⟨hr, hrc, hlk⟩ := onAttach_opens hact
    have hr : r = s.rcvs.length := hr
    have hlk' : (s.step (.peer (.attach a))).links = s.links.insert (.rcv (.opening (some (r, a.source)))) := by
      rw [hstep, enqueue_links, hlk]; rfl
    have fresh : ∀ k x, s.links.get k = some x → x.rcv? ≠ some r := by
      intro k x hx hxr
      obtain ⟨l, hl, _⟩ := hs.rcvSlots.handle k x r hx hxr
      exact Nat.lt_irrefl _ (hr ▸ rcv?_lt hl)
    refine ⟨ha.old hs', ?_, ?_, ?_⟩
    · rintro ⟨k, hx⟩
      rw [hlk'] at hx
      rcases Slab.get_insert_some hx with ⟨_, h⟩ | h
      · cases h
      · exact fresh k _ h rfl
    · intro k op hx
      rw [hlk'] at hx
      rcases Slab.get_insert_some hx with ⟨_, h⟩ | h
      · cases h
      · exact fresh k _ h rfl
    · rcases received_step hs (.peer (.attach a)) r with h | ⟨⟨k, hx⟩, _⟩
      · rw [h, receivedOn]
        refine List.filterMap_eq_nil_iff.mpr fun e he => ?_
        have := received_old hs
        cases e
        case received r' t =>
          have h' := this r' t he
          exact if_neg fun h => Nat.lt_irrefl _ (hr ▸ h ▸ h')
        all_goals rfl
      · exact absurd rfl (fresh k _ hx)
where
  received_old {s : Session} (hs : s.Reachable) (r : Ref) (t : Transfer) (h : .received r t ∈ s.log) :
      r < s.rcvs.length := by
    obtain ⟨s₀, steps, hf, rfl⟩ := hs
    induction steps using List.reverseRecOn generalizing t with
    | nil => obtain ⟨_, _, _, _, _, rfl⟩ := hf; cases h
    | append_singleton steps st ih =>
      have hrun : s₀.run (steps ++ [st]) = (s₀.run steps).step st := by simp [run]
      rw [hrun] at h ⊢
      have mem : ∀ (l : List Ev) u, .received r u ∈ l ↔ u ∈ receivedOn r l := by
        intro l u
        unfold receivedOn
        rw [List.mem_filterMap]
        constructor
        · exact fun h => ⟨_, h, by simp⟩
        · rintro ⟨e, he, hu⟩
          cases e
          case received r' t' =>
            dsimp only at hu
            split at hu
            · next hr => cases hu; subst hr; exact he
            · cases hu
          all_goals cases hu
      have hlen := step_rcvs_length (s₀.run steps) st
      rcases received_step ⟨s₀, steps, hf, rfl⟩ st r with h' | ⟨⟨k, hx⟩, _⟩
      · rw [mem, h', ← mem] at h
        exact Nat.lt_of_lt_of_le (ih t h) hlen
      · obtain ⟨l, hl, _⟩ := (Reachable.rcvSlots ⟨s₀, steps, hf, rfl⟩).handle k _ r hx rfl
        exact Nat.lt_of_lt_of_le (rcv?_lt hl) hlen

/-- An execution that is not disturbed keeps the slots, and the links asked about are silent. -/
theorem Undisturbed.kept {s₀ : Session} (hf : s₀.Fresh) {steps : List Step} (hu : Undisturbed s₀ steps) :
    (s₀.run steps).Kept ∧ (∀ r, (s₀.run steps).Asking r → (s₀.run steps).Silent r) ∧
      ∀ k x, (s₀.run steps).links.get k = some x → k < 2 ^ 32 := by
  induction steps using List.reverseRecOn with
  | nil =>
    obtain ⟨_, _, _, _, _, rfl⟩ := hf
    refine ⟨?_, ?_, ?_⟩
    · rintro r ⟨t, ht, _⟩; cases ht
    · rintro r ⟨t, ht, _⟩; cases ht
    · intro k x hx
      rw [show (run _ []).links = Slab.empty from rfl, Slab.get_empty] at hx
      cases hx
  | append_singleton steps st ih =>
    have hrun : s₀.run (steps ++ [st]) = (s₀.run steps).step st := by simp [run]
    rw [hrun]
    obtain ⟨h1, h2, h3⟩ := ih fun pre st' post h => hu pre st' (post ++ [st]) (by simp [h])
    obtain ⟨hd, hfit⟩ := hu steps st [] rfl
    have hs : (s₀.run steps).Reachable := ⟨s₀, steps, hf, rfl⟩
    exact ⟨fun r ha he => owns_step hs hd h3 hfit h1 ha he, fun r ha => silent_asking hs h1 st h2 ha, hfit⟩

end Amqp.Rt
