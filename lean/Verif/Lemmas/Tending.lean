import Verif.Model.Tending
import Verif.Lemmas.DispatcherInv
/-! The task that polls the dispatcher. -/

namespace Amqp.Rt
namespace Disp

/-- What is left after a poll was polled in it, unless it was cut short. -/
theorem pendingFrom_spec (ready : Nat → Option Answer) (n idx : Nat) (d : Disp) (hn : d.futs.length ≤ n + idx) (seen : List Nat)
    (hb : ∀ j, j < idx → ∀ p, d.futs[j]? = some p → p.1 ∈ seen) :
    (∀ p ∈ (d.pollFrom ready n idx).futs, p.1 ∈ seen ++ d.pendingFrom ready n idx) ∨ (d.pollFrom ready n idx).error.isSome := by
  induction n generalizing d idx seen with
  | zero =>
    left
    intro p hp
    obtain ⟨j, hj, rfl⟩ := List.mem_iff_getElem.1 hp
    have hj' : j < d.futs.length := hj
    exact List.mem_append_left _ (hb j (by omega) _ (List.getElem?_eq_getElem hj))
  | succ n ih =>
    unfold Disp.pollFrom Disp.pendingFrom
    split
    · next hnone =>
      left
      intro p hp
      obtain ⟨j, hj, rfl⟩ := List.mem_iff_getElem.1 hp
      have := List.getElem?_eq_none_iff.1 hnone
      exact List.mem_append_left _ (hb j (by omega) _ (List.getElem?_eq_getElem hj))
    · next id k hk =>
      rw [hk]
      dsimp only
      split
      · next hr =>
        rw [hr]
        dsimp only
        have := ih (idx + 1) d (by omega) (seen ++ [id]) (by
          intro j hj p hp
          by_cases h : j = idx
          · subst h
            rw [hk] at hp
            cases hp
            simp
          · exact List.mem_append_left _ (hb j (by omega) p hp))
        simpa using this
      · next a ha =>
        rw [ha]
        dsimp only
        have hlen := swapRemove_length hk
        obtain ⟨h1, h2, h3⟩ := handle_ids { d with futs := swapRemove d.futs idx } id k a
        have go := ih idx ({ d with futs := swapRemove d.futs idx }.handle id k a) (by
              have : (Disp.handle { d with futs := swapRemove d.futs idx } id k a).futs.length = (swapRemove d.futs idx).length := by
                rw [← List.length_map (f := Prod.fst), h1, List.length_map]
              omega) seen (by
              intro j hj p hp
              have he : ((Disp.handle { d with futs := swapRemove d.futs idx } id k a).futs.map Prod.fst)[j]? = some p.1 := by
                rw [List.getElem?_map, hp]; rfl
              rw [h1, List.getElem?_map, swapRemove_before hk hj] at he
              obtain ⟨q, hq, hqe⟩ := Option.map_eq_some_iff.1 he
              rw [← hqe]
              exact hb j hj q hq)
        cases k with
        | protocolError e => exact .inr rfl
        | action | disconnected | notice => exact go

/-- Outside of polls, calls are only added. -/
theorem step_ids (d : Disp) (st : DStep) (hp : ∀ r, st ≠ .poll r) :
    ∃ n, (d.step st).calls = d.calls + n ∧
      (d.step st).futs.map Prod.fst = d.futs.map Prod.fst ++ (List.range n).map (d.calls + ·) ∧ (d.step st).error = d.error := by
  have adv : ∀ st : CStep, (∀ s i edit e, st ≠ .local s (.complete i edit e)) → ∃ n, (d.advance st).calls = d.calls + n ∧
      (d.advance st).futs.map Prod.fst = d.futs.map Prod.fst ++ (List.range n).map (d.calls + ·) ∧ (d.advance st).error = d.error := by
    intro st h
    obtain ⟨l, g⟩ := Conn.Grows.step d.conn st h
    rw [advance_grows g]
    refine ⟨l.length, rfl, ?_, rfl⟩
    dsimp only
    rw [List.map_append]
    congr 1
    apply List.ext_getElem <;> simp
  have same : ∃ n, d.calls = d.calls + n ∧ d.futs.map Prod.fst = d.futs.map Prod.fst ++ (List.range n).map (d.calls + ·) ∧
      d.error = d.error := ⟨0, rfl, by simp, rfl⟩
  cases st with
  | poll r => exact absurd rfl (hp r)
  | recv ch f => exact adv _ (by simp)
  | shutdown => exact adv _ (by simp)
  | own st =>
    simp only [step]
    split
    · next ho => exact adv _ (fun s i edit e h => by rw [h] at ho; simp [CStep.outside] at ho)
    · exact same
  | attached s i a =>
    simp only [step]
    split
    · rw [complete_eq]
      refine ⟨0, rfl, ?_, rfl⟩
      dsimp only
      rw [List.map_map]
      simp only [List.range_zero, List.map_nil, List.append_nil]
      congr 1
      exact funext fun p => shift_fst s i p
    · exact same

end Disp

namespace Tended

structure Inv (t : Tended) : Prop where
  ready : t.woken = true ∨ t.armed = true
  queue : t.woken = false → t.disp.conn.queue = []
  calls : t.woken = false → t.disp.error = none →
    ∀ id ∈ t.disp.futs.map Prod.fst, t.polled id = true ∧ t.answers id = none

theorem wake_woken {t : Tended} (h : t.woken = true ∨ t.armed = true) : t.wake.woken = true := by
  unfold wake
  split
  · rfl
  · next ha => rcases h with h | h
               · exact h
               · exact absurd h ha

theorem inv_of_woken {t : Tended} (h : t.woken = true) : t.Inv :=
  ⟨.inl h, fun h' => (by rw [h] at h'; cases h'), fun h' => (by rw [h] at h'; cases h')⟩

theorem Inv.act {t : Tended} (h : t.Inv) (st : DStep) (hp : ∀ r, st ≠ .poll r) : (t.act st).Inv := by
  unfold Tended.act
  dsimp only
  split
  · exact inv_of_woken (wake_woken (t := { t with disp := t.disp.step st }) h.ready)
  · next hn =>
    obtain ⟨n, h1, h2, h3⟩ := t.disp.step_ids st hp
    have hn0 : n = 0 := by
      have : ¬ t.disp.calls < (t.disp.step st).calls := fun h => hn (.inl h)
      omega
    subst hn0
    refine ⟨h.ready, fun hw => ?_, fun hw he => ?_⟩
    · have hq : ¬ t.disp.conn.queue.length < (t.disp.step st).conn.queue.length := fun h => hn (.inr h)
      rw [h.queue hw] at hq
      exact List.eq_nil_of_length_eq_zero (by simpa using hq)
    · have := h.calls hw (by rw [← h3]; exact he)
      dsimp only
      rw [h2]
      simpa using this

theorem Inv.answer {t : Tended} (h : t.Inv) (id : Nat) (a : Answer) : (t.answer id a).Inv := by
  unfold Tended.answer
  split
  · by_cases hw : (t.woken || t.polled id) = true
    · exact inv_of_woken hw
    · have hw' := Bool.or_eq_false_iff.1 (Bool.not_eq_true _ ▸ hw)
      refine ⟨?_, fun _ => h.queue hw'.1, fun _ he i hi => ?_⟩
      · rcases h.ready with h | h
        · rw [hw'.1] at h; cases h
        · exact .inr h
      · obtain ⟨h1, h2⟩ := h.calls hw'.1 he i hi
        have hne : i ≠ id := by
          rintro rfl
          rw [hw'.2] at h1; cases h1
        simp only [hne, if_false]
        exact ⟨h1, h2⟩
  · exact h

theorem Inv.poll {t : Tended} : t.poll.Inv := by
  unfold Tended.poll
  dsimp only
  split
  · next hq =>
    refine ⟨.inr rfl, fun _ => hq, fun _ he id hid => ?_⟩
    obtain ⟨l, h1, h2, h3, _, h5⟩ := Disp.pollFrom_spec t.answers _ 0 (t.disp.advance .poll) (Nat.le_refl _) (by intro j hj; omega)
    obtain ⟨p, hp, rfl⟩ := List.mem_map.1 hid
    constructor
    · rcases Disp.pendingFrom_spec t.answers _ 0 (t.disp.advance .poll) (Nat.le_refl _) [] (by intro j hj; omega) with h | h
      · have := h p hp
        rw [List.nil_append] at this
        simp [this]
      · rw [show (Disp.pollFrom t.answers (t.disp.advance .poll).futs.length 0 (t.disp.advance .poll)).error = none from he] at h
        cases h
    · rcases h5 with h5 | ⟨id', e, _, _, _, h6, _⟩
      · exact h5 p hp
      · rw [show (Disp.pollFrom t.answers (t.disp.advance .poll).futs.length 0 (t.disp.advance .poll)).error = none from he] at h6
        cases h6
  · exact inv_of_woken rfl

theorem Inv.step {t : Tended} (h : t.Inv) (st : TStep) : (t.step st).Inv := by
  cases st with
  | poll => exact Inv.poll
  | answer id a => exact h.answer id a
  | disp st =>
    cases st with
    | poll r => exact h
    | recv | own | attached | shutdown => exact h.act _ (by simp)

theorem Reachable.inv {t : Tended} (h : t.Reachable) : t.Inv := by
  obtain ⟨cfg, steps, rfl⟩ := h
  suffices ∀ t : Tended, t.Inv → (t.run steps).Inv from this _ (inv_of_woken rfl)
  induction steps with
  | nil => exact fun _ h => h
  | cons st steps ih => exact fun t h => ih _ (h.step st)

/-- The dispatcher is one of `Disp`. -/
theorem Reachable.disp {t : Tended} (h : t.Reachable) : t.disp.Reachable := by
  obtain ⟨cfg, steps, rfl⟩ := h
  suffices ∀ t : Tended, t.disp.Reachable → (t.run steps).disp.Reachable from this _ ⟨cfg, [], rfl⟩
  induction steps with
  | nil => exact fun _ h => h
  | cons st steps ih =>
    refine fun t h => ih _ ?_
    cases st with
    | poll =>
      have hs := h.step (.poll t.answers)
      simp only [step, poll]
      split
      · exact hs
      · unfold wake; split <;> exact hs
    | answer id a => simp only [step, answer]; split <;> exact h
    | disp st =>
      have : (t.act st).disp.Reachable := by
        simp only [act]
        split
        · unfold wake; split <;> exact h.step _
        · exact h.step _
      cases st with
      | poll r => exact h
      | recv | own | attached | shutdown => exact this

end Tended
end Amqp.Rt
