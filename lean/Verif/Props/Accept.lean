import Verif.Lemmas.SessionAccept
import Verif.Spec.Examples
/-!
# Receiver links are used only when both services accepted them: C61
-/

namespace Amqp.Rt
open Session Examples

/-- **C61** The publish service is asked about a link only after the control service accepted it, in every execution. -/
theorem c61_control_first {s₀ : Session} (hf : s₀.Fresh) {steps : List Step} {r : Ref} {g : Attach}
    (h : .attached r g ∈ (s₀.run steps).todo) : At s₀ steps (ControlAccepts · r) := by
  induction steps using List.reverseRecOn generalizing g with
  | nil => obtain ⟨_, _, _, _, _, rfl⟩ := hf; cases h
  | append_singleton steps st ih =>
    have old : ∀ {g}, .attached r g ∈ (s₀.run steps).todo → At s₀ (steps ++ [st]) (ControlAccepts · r) := by
      intro g h
      obtain ⟨pre, st', post, rfl, hp⟩ := ih h
      exact ⟨pre, st', post ++ [st], by simp, hp⟩
    have hrun : s₀.run (steps ++ [st]) = (s₀.run steps).step st := by simp [run]
    rw [hrun] at h
    rcases step_todo (s₀.run steps) st with ⟨i, edit, e, t, rfl, ht, hto⟩ | ⟨hto, _⟩ | ⟨act, hto, _⟩
    · rw [hto, List.mem_append] at h
      rcases h with h | h
      · exact old (List.mem_of_mem_eraseIdx h)
      · unfold nextTodo at h
        split at h
        · split at h
          · next he =>
            rw [List.mem_singleton] at h
            cases h
            rw [Option.isNone_iff_eq_none] at he
            subst he
            exact ⟨steps, _, [], rfl, i, edit, _, _, rfl, ht⟩
          · cases h
        · cases h
    · rw [hto] at h; exact old h
    · rw [hto, List.mem_append, List.mem_singleton] at h
      rcases h with h | h
      · exact old h
      · cases h

/-- Undisturbed executions, up to any point. -/
theorem Undisturbed.prefix {s₀ : Session} {pre post : List Step} (h : Undisturbed s₀ (pre ++ post)) : Undisturbed s₀ pre :=
  fun p st q he => h p st (q ++ post) (by simp [he])

/-- **C61** While the services have not both answered for a link, it has taken in nothing.

Missing: executions in which the application closes or detaches a link being attached, or the control service answers for
a sender link the peer has detached meanwhile and whose slot has been given to another link (`c61_unaccepted_used`,
`c61_unaccepted_used_by_peer`). -/
theorem c61_waiting_partial {s₀ : Session} (hf : s₀.Fresh) {steps : List Step} (hu : Undisturbed s₀ steps) {r : Ref}
    (ha : (s₀.run steps).Asking r) : ¬ (s₀.run steps).Receives r ∧ receivedOn r (s₀.run steps).log = [] :=
  have h := (hu.kept hf).2.1 r ha
  ⟨h.closed, h.none⟩

/-- **C61** A link that is established, or has taken in anything, was accepted by the control service and later by the
publish service, unless it is one this side attached and the peer has answered for.

Missing: as for `c61_waiting_partial`. -/
theorem c61_accepted_partial {s₀ : Session} (hf : s₀.Fresh) {steps : List Step} (hu : Undisturbed s₀ steps) {r : Ref}
    (h : (s₀.run steps).Receives r ∨ receivedOn r (s₀.run steps).log ≠ []) :
    (∃ pre st post, steps = pre ++ st :: post ∧ At s₀ pre (ControlAccepts · r) ∧ (s₀.run pre).PublishAccepts r st) ∨
      At s₀ steps (PeerAnswers · r) := by
  induction steps using List.reverseRecOn with
  | nil =>
    obtain ⟨_, _, _, _, _, rfl⟩ := hf
    rcases h with ⟨k, hk⟩ | h
    · rw [show (run _ []).links = Slab.empty from rfl, Slab.get_empty] at hk; cases hk
    · exact absurd rfl h
  | append_singleton steps st ih =>
    have hrun : s₀.run (steps ++ [st]) = (s₀.run steps).step st := by simp [run]
    have hs : (s₀.run steps).Reachable := ⟨s₀, steps, hf, rfl⟩
    by_cases hb : (s₀.run steps).Receives r ∨ receivedOn r (s₀.run steps).log ≠ []
    · rcases ih hu.prefix hb with ⟨pre, st', post, rfl, hp⟩ | ⟨pre, st', post, rfl, hp⟩
      · exact .inl ⟨pre, st', post ++ [st], by simp, hp⟩
      · exact .inr ⟨pre, st', post ++ [st], by simp, hp⟩
    · rw [not_or, not_not] at hb
      rw [hrun] at h
      have hr : ((s₀.run steps).step st).Receives r := by
        rcases h with h | h
        · exact h
        · rcases received_step hs st r with he | ⟨he, _⟩
          · rw [he] at h; exact absurd hb.2 h
          · exact absurd he hb.1
      rcases receives_kept hs (hu.prefix.kept hf).1 hb.1 hr with h | h
      · exact .inr ⟨steps, st, [], rfl, h⟩
      · have ⟨_, _, _, _, ht⟩ := h
        exact .inl ⟨steps, st, [], rfl, c61_control_first hf (List.mem_of_getElem? ht), h⟩

/-- **C61** A link one of the services refuses never takes in anything, before or after.

Missing: as for `c61_waiting_partial`. -/
theorem c61_refused_partial {s₀ : Session} (hf : s₀.Fresh) {pre post : List Step} {i : Nat} {edit : Attach → Attach}
    {e : Error} (hu : Undisturbed s₀ (pre ++ .complete i edit (some e) :: post)) {r : Ref} {t : Todo}
    (ht : (s₀.run pre).todo[i]? = some t) (hr : t.asksAbout r = true) :
    let s := s₀.run (pre ++ .complete i edit (some e) :: post)
    ¬ s.Receives r ∧ receivedOn r s.log = [] := by
  suffices h : (s₀.run (pre ++ .complete i edit (some e) :: post)).Silent r ∧
      ¬ (s₀.run (pre ++ .complete i edit (some e) :: post)).Asking r from ⟨h.1.closed, h.1.none⟩
  induction post using List.reverseRecOn with
  | nil =>
    have hrun : s₀.run (pre ++ [.complete i edit (some e)]) = (s₀.run pre).step (.complete i edit (some e)) := by simp [run]
    have hs : (s₀.run pre).Reachable := ⟨s₀, pre, hf, rfl⟩
    have hk := hu.prefix.kept hf
    rw [hrun]
    refine ⟨(hk.2.1 r ⟨t, List.mem_of_getElem? ht, hr⟩).step hs hk.1 ?_, answered_gone hs ht hr ?_⟩
    · rintro ⟨_, _, _, h, _⟩; cases h
    · unfold nextTodo; split <;> rfl
  | append_singleton post st ih =>
    rw [show pre ++ .complete i edit (some e) :: (post ++ [st]) = (pre ++ .complete i edit (some e) :: post) ++ [st] by simp]
      at hu ⊢
    generalize pre ++ Step.complete i edit (some e) :: post = steps at hu ih ⊢
    obtain ⟨h1, h2⟩ := ih hu.prefix
    have hs : (s₀.run steps).Reachable := ⟨s₀, steps, hf, rfl⟩
    have hrun : s₀.run (steps ++ [st]) = (s₀.run steps).step st := by simp [run]
    rw [hrun]
    refine ⟨h1.step hs (hu.prefix.kept hf).1 ?_, fun ha => ?_⟩
    · rintro ⟨_, _, g, _, h⟩
      exact h2 ⟨_, List.mem_of_getElem? h, by simp [Todo.asksAbout]⟩
    · obtain ⟨a, b, g, rfl, _, hact, _⟩ := asks_new ha h2
      have : r = (s₀.run steps).rcvs.length := (onAttach_opens hact).1
      exact Nat.lt_irrefl _ (this ▸ h1.old)

/-- **C61** And a link both services have accepted is established, as long as the session has not failed.

Missing: as for `c61_waiting_partial`. -/
theorem c61_established_partial {s₀ : Session} (hf : s₀.Fresh) {steps : List Step} (hu : Undisturbed s₀ steps) {r : Ref}
    {st : Step} (ha : (s₀.run steps).PublishAccepts r st) (he : (s₀.run steps).error = none) :
    ((s₀.run steps).step st).Receives r := by
  obtain ⟨i, edit, g, rfl, ht⟩ := ha
  obtain ⟨l, x, hl, hx, src, rfl⟩ := (hu.kept hf).1 r ⟨_, List.mem_of_getElem? ht, by simp [Todo.asksAbout]⟩ he
  generalize s₀.run steps = s at *
  refine ⟨l.handle.toNat, ?_⟩
  simp only [step, ht, onComplete]
  show ((s.confirmReceiver r g).setLinkCredit r 50).links.get _ = _
  rw [setLinkCredit_links]
  simp only [confirmReceiver, hl, hx, post_links, setLink_links]
  rw [Slab.get_set _ _ _ _ (by simp [Slab.contains, hx]), if_pos rfl]

theorem undisturbed_nil (s₀ : Session) : Undisturbed s₀ [] := by
  intro pre st post h
  cases pre <;> cases h

theorem undisturbed_snoc {s₀ : Session} {steps : List Step} {st : Step} (h : Undisturbed s₀ steps)
    (hd : ¬ (s₀.run steps).Disturbs st) (hfit : ((s₀.run steps).step st).links.slots.length ≤ 2 ^ 32) :
    Undisturbed s₀ (steps ++ [st]) := by
  intro pre st' post he
  cases post using List.reverseRecOn with
  | nil =>
    obtain ⟨hp, he⟩ := List.append_inj' he rfl
    cases he
    subst hp
    refine ⟨hd, fun k x hx => ?_⟩
    unfold Slab.get at hx
    rcases Nat.lt_or_ge k ((s₀.run steps).step st).links.slots.length with h | h
    · omega
    · rw [List.getElem?_eq_none h] at hx; cases hx
  | append_singleton post st'' =>
    rw [← List.cons_append, ← List.append_assoc] at he
    obtain ⟨rfl, -⟩ := List.append_inj' he rfl
    exact h pre st' post rfl

/-- The peer attaches a link, both services accept it, and the peer sends a message on it. -/
def acceptOne : List Step := [.peer (.attach (anAttach "a" 5 .sender)), pass 0, pass 0]

example : Undisturbed (start 100) acceptOne := by
  have h1 := undisturbed_snoc (st := .peer (.attach (anAttach "a" 5 .sender))) (undisturbed_nil (start 100))
    (by rintro ⟨_, _, _, _, _, h⟩; exact h) (by decide)
  have h2 := undisturbed_snoc (st := pass 0) h1 (by rintro ⟨_, _, _, _, _, _, _, _, _, h, _⟩; cases h) (by decide)
  exact undisturbed_snoc (st := pass 0) h2 (by rintro ⟨_, _, _, _, _, _, _, _, _, h, _⟩; cases h) (by decide)

example : ((start 100).run acceptOne).Receives 0 ∧ ((start 100).run (acceptOne.take 2)).Asking 0 ∧
    ((start 100).run (acceptOne.take 2)).error = none :=
  ⟨⟨0, rfl⟩, ⟨_, List.mem_of_getElem? (i := 0) rfl, rfl⟩, rfl⟩

/-- Both services may refuse it. -/
example : ∃ t u, ((start 100).run (acceptOne.take 1)).todo[0]? = some t ∧ t.asksAbout 0 = true ∧
    ((start 100).run (acceptOne.take 2)).todo[0]? = some u ∧ u.asksAbout 0 = true :=
  ⟨_, _, rfl, rfl, rfl, rfl⟩

/-- **C61** (violated) The application closes a link that is being attached; the peer attaches another one, which gets the
slot; and when the publish service accepts the first, it is the second that is established, for which neither service has
answered. -/
theorem c61_unaccepted_used :
    let steps := [.peer (.attach (anAttach "a" 5 .sender)), pass 0, .closeReceiver 0 none,
      .peer (.attach (anAttach "b" 6 .sender)), pass 0]
    let s := (start 100).run steps
    s.Receives 1 ∧ ∃ a g, s.todo = [.ctl (.attachReceiver 1 a g)] :=
  ⟨⟨0, rfl⟩, _, _, rfl⟩

/-- **C61** (violated) The peer alone brings this about, with a sender link it detaches before the control service has
answered for it: nothing here but frames of the peer, and services that accept what they are asked about. -/
theorem c61_unaccepted_used_by_peer :
    let steps := [.peer (.attach (anAttach "x" 0 .receiver)), aDetach 0,
      .peer (.attach (anAttach "p" 1 .sender)), pass 2, pass 0, pass 0, aDetach 0, pass 1,
      .peer (.attach (anAttach "q" 2 .sender)), pass 0]
    let s := (start 100).run steps
    s.Receives 1 ∧ ∃ a g, s.todo = [.ctl (.attachReceiver 1 a g)] :=
  ⟨⟨0, rfl⟩, _, _, rfl⟩

end Amqp.Rt
