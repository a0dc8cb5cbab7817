import Verif.Model.EndSession
import Verif.Lemmas.ConnectionStep
/-! Sessions that are over, and sessions the connection has lost track of. -/

namespace Amqp.Rt
namespace Session

theorem Micro.ended_error {s s' : Session} (h : Micro s s') (hs : s.ended = s.error.isSome) : s'.ended = s'.error.isSome := by
  cases h
  case ended e => rfl
  case estSndLocal => exact hs
  case settle d st _ => rw [settle_ended, settle_error]; exact hs
  all_goals first | exact hs | (simp; exact hs) | simpa using hs

theorem Reachable.ended_error {s : Session} (h : s.Reachable) : s.ended = s.error.isSome := by
  obtain ⟨s₀, steps, ⟨id, isL, mfs, ch, b, rfl⟩, rfl⟩ := h
  exact (run_micros _ steps).invariant (P := fun s => s.ended = s.error.isSome) (fun _ _ m => Micro.ended_error m) rfl

/-- A step that ends no session leaves it as open or as closed as it was. -/
theorem Reachable.step_ended {s : Session} (h : s.Reachable) (st : Step) (hst : st.ends = false) : (s.step st).ended = s.ended := by
  obtain ⟨s₀, steps, hs, rfl⟩ := h
  have h' : Session.Reachable ((s₀.run steps).step st) := ⟨s₀, steps ++ [st], hs, by simp [Session.run]⟩
  rw [h'.ended_error, step_error _ st hst, ← Reachable.ended_error ⟨s₀, steps, hs, rfl⟩]

end Session

namespace Conn

/-- No entry of the session table is about the session. -/
def Unlisted (c : Conn) (s : Ref) : Prop := ∀ k st, c.sessions.get k = some st → st.ref? ≠ some s

theorem Unlisted.later {c : Conn} {s : Ref} {sl : Slab SesState} (h : c.Unlisted s) (hl : Later c.sessions sl) :
    ∀ k st, sl.get k = some st → st.ref? ≠ some s := by
  intro k st hk
  rcases hl.2 k with h1 | ⟨t, h1, h2⟩
  · rw [h1] at hk; exact h k st hk
  · rw [h2] at hk
    cases hk
    exact h k (.established t) h1

theorem objs_set (c : Conn) (s t : Ref) (x : Session) (l : List Session) (h : l = c.objs.set s x) :
    l[t]? = if s = t ∧ t < c.objs.length then some x else c.objs[t]? := by
  subst h
  rw [List.getElem?_set]
  by_cases h1 : s = t
  · subst h1
    by_cases h2 : s < c.objs.length
    · simp [h2]
    · simp [h2, List.getElem?_eq_none (Nat.le_of_not_lt h2)]
  · simp [h1]

/-- A session the table has no entry about is not ended by anything that happens to the connection. -/
theorem Unlisted.step {c : Conn} (hr : Reachable c) {s : Ref} {x : Session} (hu : c.Unlisted s) (hx : c.obj? s = some x)
    (he : x.ended = false) (st : CStep) :
    (c.step st).Unlisted s ∧ ∃ y, (c.step st).obj? s = some y ∧ y.ended = false := by
  have hlt : s < c.objs.length := (List.getElem?_eq_some_iff.1 hx).1
  cases step_shape hr.reg st with
  | quiet l h =>
    obtain ⟨h1, h2, _⟩ := h
    refine ⟨fun k st hk => hu k st (by rw [← h2]; exact hk), x, ?_, he⟩
    unfold obj?; rw [h1]; exact hx
  | session t y st' l ht ho hs _ _ hst =>
    refine ⟨hu.later hs, ?_⟩
    have := objs_set c t s _ _ ho
    by_cases hts : t = s
    · subst hts
      rw [if_pos ⟨rfl, hlt⟩] at this
      rw [hx] at ht
      cases ht
      refine ⟨_, this, ?_⟩
      rw [(hr.objsOk x (List.mem_of_getElem? hx)).1.step_ended st' hst]
      exact he
    · rw [if_neg (fun h => hts h.1)] at this
      exact ⟨x, this.trans hx, he⟩
  | ended ch f tok t y st' l₁ l₂ sl hm hreg ho _ hs hs' =>
    obtain ⟨st₀, h1, h2, _⟩ := hreg
    have hts : t ≠ s := by
      rintro rfl
      exact hu _ _ h1 h2
    have := objs_set c t s _ _ ho
    rw [if_neg (fun h => hts h.1)] at this
    refine ⟨fun k st hk => ?_, x, this.trans hx, he⟩
    rw [hs', Slab.get_remove] at hk
    split at hk
    · cases hk
    · exact hu.later hs k st hk
  | begun ch tok b isL l₁ l₂ _ ho hs =>
    refine ⟨fun k st hk => ?_, x, ?_, he⟩
    · rw [hs k] at hk
      split at hk
      · cases hk
        intro h
        injection h with h
        exact absurd hlt (h ▸ Nat.lt_irrefl _)
      · exact hu k st hk
    · unfold obj?; rw [ho, List.getElem?_append_left hlt]; exact hx
  | opening op l ho hs =>
    refine ⟨fun k st hk => ?_, x, ?_, he⟩
    · rw [hs, Slab.get_insert hr.reg.wf] at hk
      split at hk
      · cases hk; exact fun h => by cases h
      · exact hu k st hk
    · unfold obj?; rw [ho]; exact hx
  | failed e ho hs =>
    refine ⟨fun k st hk => ?_, x, ?_, he⟩
    · rw [hs] at hk
      simp [Slab.get, Slab.empty] at hk
    · rw [ho, setError_obj? hr.reg, if_neg, hx]
      rintro ⟨k, hk⟩
      exact hu k _ hk rfl

theorem Unlisted.run {c : Conn} (hr : Reachable c) {s : Ref} {x : Session} (hu : c.Unlisted s) (hx : c.obj? s = some x)
    (he : x.ended = false) (steps : List CStep) : ∃ y, (c.run steps).obj? s = some y ∧ y.ended = false := by
  induction steps generalizing c x with
  | nil => exact ⟨x, hx, he⟩
  | cons st steps ih =>
    obtain ⟨h1, y, h2, h3⟩ := hu.step hr hx he st
    exact ih (hr.step st) h1 h2 h3

end Conn
end Amqp.Rt
