import Verif.Model.Credit
import Verif.Lemmas.SessionInv
/-! Tasks that wait for credit. -/

namespace Amqp.Rt
open Session

/-- A link without credit has none after a small change, unless a flow frame that states a credit was applied to it. -/
theorem Micro.no_credit {s s' : Session} (h : Micro s s') {r : Ref} {l : Snd} (hl : s.snd? r = some l) (hc : l.linkCredit = 0) :
    ∃ l', s'.snd? r = some l' ∧ (l'.linkCredit = 0 ∨ ∃ evs, s'.log = s.log ++ evs ∧ appliedIn r evs = true) := by
  have hlt : r < s.snds.length := (List.getElem?_eq_some_iff.1 hl).1
  have hmr : s.meter r = some (l.deliveryCount, 0) := by simp [meter, hl, hc]
  have found : ∀ c, s'.meter r = some c → ∃ l', s'.snd? r = some l' ∧ l'.linkCredit = c.2 := by
    intro c hm
    obtain ⟨l', h1, h2⟩ := Option.map_eq_some_iff.1 hm
    exact ⟨l', h1, by rw [← h2]⟩
  cases h.credit with
  | quiet evs _ _ _ hm _ =>
    obtain ⟨l', h1, h2⟩ := found _ (by rw [hm r hlt, hmr])
    exact ⟨l', h1, .inl h2⟩
  | took t r' l₀ evs hs hc' _ _ _ hm =>
    have hne : r' ≠ r := by
      rintro rfl
      rw [hl] at hs
      cases hs
      exact hc' hc
    obtain ⟨l', h1, h2⟩ := found _ (by rw [hm r, if_neg hne, hmr])
    exact ⟨l', h1, .inl h2⟩
  | applied r' f _ hlog _ hm =>
    by_cases hr : r' = r
    · subst hr
      have hm' := hm r'
      rw [if_pos rfl, hl] at hm'
      obtain ⟨l', h1, h2⟩ := found _ hm'
      refine ⟨l', h1, ?_⟩
      by_cases hf : f.linkCredit.isSome
      · exact .inr ⟨_, hlog, by simp [appliedIn, hf]⟩
      · left
        rw [h2]
        cases hfl : f.linkCredit with
        | some c => rw [hfl] at hf; exact absurd rfl hf
        | none => simp only [Snd.flow, hfl]; exact hc
    · obtain ⟨l', h1, h2⟩ := found _ (by rw [hm r, if_neg hr, hmr])
      exact ⟨l', h1, .inl h2⟩

theorem appliedIn_append (r : Ref) (a b : List Ev) : appliedIn r (a ++ b) = (appliedIn r a || appliedIn r b) := by
  simp [appliedIn]

/-- Sender link objects stay. -/
theorem Micro.snd_stays {s s' : Session} (h : Micro s s') {r : Ref} {l : Snd} (hl : s.snd? r = some l) :
    ∃ l', s'.snd? r = some l' := by
  have hlt : r < s.snds.length := (List.getElem?_eq_some_iff.1 hl).1
  exact ⟨_, List.getElem?_eq_getElem (Nat.lt_of_lt_of_le hlt h.credit.length)⟩

theorem CreditView.log {s s' : Session} (h : CreditView s s') : ∃ evs, s'.log = s.log ++ evs := by
  cases h with
  | quiet evs h => exact ⟨_, h⟩
  | took _ _ _ _ _ _ h => exact ⟨_, h⟩
  | applied _ _ _ h => exact ⟨_, h⟩

theorem Micros.no_credit {s s' : Session} (h : Micros s s') {r : Ref} {l : Snd} (hl : s.snd? r = some l) (hc : l.linkCredit = 0) :
    ∃ l' evs, s'.snd? r = some l' ∧ s'.log = s.log ++ evs ∧ (l'.linkCredit = 0 ∨ appliedIn r evs = true) := by
  induction h with
  | refl => exact ⟨l, [], hl, by simp, .inl hc⟩
  | tail _ hm ih =>
    obtain ⟨l₁, evs, h1, h2, h3⟩ := ih
    rcases h3 with h3 | h3
    · obtain ⟨l', h4, h5⟩ := Micro.no_credit hm h1 h3
      rcases h5 with h5 | ⟨evs', h5, h6⟩
      · obtain ⟨evs', h7⟩ := (Micro.credit hm).log
        exact ⟨l', evs ++ evs', h4, by rw [h7, h2, List.append_assoc], .inl h5⟩
      · exact ⟨l', evs ++ evs', h4, by rw [h5, h2, List.append_assoc], .inr (by rw [appliedIn_append, h6, Bool.or_true])⟩
    · obtain ⟨l', h4⟩ := Micro.snd_stays hm h1
      obtain ⟨evs', h7⟩ := (Micro.credit hm).log
      exact ⟨l', evs ++ evs', h4, by rw [h7, h2, List.append_assoc], .inr (by rw [appliedIn_append, h3, Bool.true_or])⟩

namespace Senders

def Inv (w : Senders) : Prop := ∀ x ∈ w.asleep, ∃ l, w.sess.snd? x.1 = some l ∧ l.closed = false ∧ l.linkCredit = 0

theorem Inv.step {w : Senders} (h : w.Inv) (st : CreditStep) : (w.step st).Inv := by
  cases st with
  | sess st =>
    intro x hx
    obtain ⟨hx, hn⟩ := List.mem_filter.1 hx
    obtain ⟨l, h1, h2, h3⟩ := h x hx
    obtain ⟨l', evs, h4, h5, h6⟩ := (step_micros w.sess st).no_credit h1 h3
    have hs : (w.step (.sess st)).sess = w.sess.step st := rfl
    rw [hs]
    refine ⟨l', h4, ?_⟩
    simp only [notifiesCredit, h1, h4, h5, List.drop_left, h2, Bool.not_false, Bool.true_and, Bool.not_eq_true',
      Bool.or_eq_false_iff] at hn
    refine ⟨hn.1, ?_⟩
    rcases h6 with h6 | h6
    · exact h6
    · have := hn.2
      rw [h6, Bool.true_and] at this
      simpa using this
  | ready r task =>
    simp only [Senders.step]
    split
    · next l hl hr =>
      intro x hx
      rcases List.mem_cons.1 hx with rfl | hx
      · refine ⟨l, hl, ?_⟩
        simp only [readyNow, hl] at hr
        split at hr
        · cases hr
        · next hc =>
          split at hr
          · next h0 => exact ⟨by simpa using hc, h0⟩
          · cases hr
      · exact h x hx
    · exact fun x hx => h x ((List.mem_filter.1 hx).1)
  | cancel r task => exact fun x hx => h x ((List.mem_filter.1 hx).1)

theorem Reachable.inv {w : Senders} (h : w.Reachable) : w.Inv := by
  obtain ⟨s, steps, _, rfl⟩ := h
  suffices ∀ w : Senders, w.Inv → (w.run steps).Inv from this _ (fun x hx => by cases hx)
  induction steps with
  | nil => exact fun _ h => h
  | cons st steps ih => exact fun w h => ih _ (h.step st)

theorem Reachable.step {w : Senders} (h : w.Reachable) (st : CreditStep) : (w.step st).Reachable := by
  obtain ⟨s, steps, hs, rfl⟩ := h
  exact ⟨s, steps ++ [st], hs, by simp [run]⟩

theorem Reachable.sess {w : Senders} (h : w.Reachable) : w.sess.Reachable := by
  obtain ⟨s, steps, hs, rfl⟩ := h
  suffices ∀ w : Senders, w.sess.Reachable → (w.run steps).sess.Reachable from this _ ⟨s, [], hs, rfl⟩
  induction steps with
  | nil => exact fun _ h => h
  | cons st steps ih =>
    refine fun w h => ih _ ?_
    cases st with
    | sess st => obtain ⟨s, steps, hs, he⟩ := h; exact ⟨s, steps ++ [st], hs, by show w.sess.step st = _; rw [he]; simp [Session.run]⟩
    | ready r task => simp only [Senders.step]; split <;> exact h
    | cancel r task => exact h

end Senders
end Amqp.Rt
