import Verif.Lemmas.PairCredit
import Verif.Lemmas.SessionWaitOk
/-!
# Which link a transfer of the peer is for
-/

namespace Amqp.Rt
open Session

/-- Frames that all announce more leave the message open. -/
theorem open_frames {ts₀ : List Transfer} (ho : (assemble ts₀).open_ = none) (t : Transfer) (rest : List Transfer)
    (hm : ∀ x ∈ t :: rest, x.head.more = true) :
    (assemble (ts₀ ++ t :: rest)).open_ = some { head := t.head, payload := ((t :: rest).map Transfer.payload).flatten } := by
  induction rest using List.reverseRecOn with
  | nil =>
    unfold assemble at ho ⊢
    rw [List.foldl_append, List.foldl_cons, List.foldl_nil]
    simp [Assembly.add, ho, hm t (by simp)]
  | append_singleton rest x ih =>
    have := ih fun y hy => hm y (by rcases List.mem_cons.mp hy with h | h <;> simp [h])
    rw [← List.cons_append, ← List.append_assoc]
    unfold assemble at this ⊢
    rw [List.foldl_append (l := ts₀ ++ t :: rest), List.foldl_cons, List.foldl_nil]
    generalize (ts₀ ++ t :: rest).foldl Assembly.add ⟨[], none⟩ = a at this
    unfold Assembly.add
    rw [this]
    simp [hm x (by simp)]

theorem handleFrame_led {s : Session} (hs : RcvSlots s)
    (hq : ∀ r l, s.rcv? r = some l → l.partialBody.isSome → l.queue ≠ []) (t : Transfer) :
    (s.handleFrame (.transfer t)).1.arrivals = s.arrivals ∨
    ∃ r k, s.error = none ∧ s.remoteHandles.get t.head.handle = some k ∧ s.links.get k = some (.rcv (.established r)) ∧
      ((s.handleFrame (.transfer t)).1.arrivals = s.arrivals ++ [.received r t] ∨
       (s.handleFrame (.transfer t)).1.arrivals = s.arrivals ++ [.declined r t]) := by
  unfold handleFrame
  split
  · exact .inl rfl
  · next he =>
    dsimp only
    split
    · exact .inl rfl
    · next k hh =>
      split
      case h_5 r hk =>
        right
        obtain ⟨l, hl, _⟩ := hs.handle _ _ r hk rfl
        refine ⟨r, k, ?_, hh, hk, ?_⟩
        · simpa using he
        · dsimp only
          rcases handleTransfer_arrivals t hl (hq r l hl) with ⟨h1, h2⟩ | ⟨h1, h2, h3⟩
          · exact .inl h1
          · exact .inr h1
      all_goals exact .inl rfl

/-- A transfer of the peer is ignored, or taken in or refused by the link its handle leads to. -/
theorem transfer_led {s : Session} (hs : s.Reachable) (t : Transfer) :
    (s.step (.peer (.transfer t))).arrivals = s.arrivals ∨
    ∃ r k, s.error = none ∧ s.remoteHandles.get t.head.handle = some k ∧ s.links.get k = some (.rcv (.established r)) ∧
      ((s.step (.peer (.transfer t))).arrivals = s.arrivals ++ [.received r t] ∨
       (s.step (.peer (.transfer t))).arrivals = s.arrivals ++ [.declined r t]) := by
  have hstep : s.step (.peer (.transfer t)) = finishFrame ((s.note (.peer (.transfer t))).handleFrame (.transfer t)) := rfl
  rw [hstep, finishFrame_arrivals']
  have h := handleFrame_led (s := s.note (.peer (.transfer t))) ⟨hs.rcvSlots.handle, hs.rcvSlots.unique⟩
    (fun r l hl => queue_of_opened hs hl) t
  simpa [arrivals, note, List.filter_append, Ev.arrival] using h

theorem declined_arrivals (r : Ref) (s : Session) : NothingDeclined r s.arrivals ↔ NothingDeclined r s.log := by
  unfold NothingDeclined arrivals
  simp [List.mem_filter, Ev.arrival]

/-- Steps other than transfers of the peer take in and refuse nothing. -/
theorem step_quiet {s : Session} (r : Ref) {st : Step} (h : ∀ t, st ≠ .peer (.transfer t)) :
    receivedOn r (s.step st).log = receivedOn r s.log ∧
    (NothingDeclined r s.log → NothingDeclined r (s.step st).log) := by
  have key : ∀ s' : Session, (s'.arrivals = s.arrivals ∨ ∃ r d t, s'.arrivals = s.arrivals ++ [.handed r d t]) →
      receivedOn r s'.log = receivedOn r s.log ∧ (NothingDeclined r s.log → NothingDeclined r s'.log) := by
    intro s' hs'
    rw [receivedOn_arrivals r s', receivedOn_arrivals r s, ← declined_arrivals r s, ← declined_arrivals r s']
    rcases hs' with hs' | ⟨r', d, t, hs'⟩
    · rw [hs']; exact ⟨rfl, id⟩
    · rw [hs']
      refine ⟨by simp [receivedOn], fun hn t' ht' => ?_⟩
      rcases List.mem_append.mp ht' with ht' | ht'
      · exact hn t' ht'
      · simp at ht'
  cases hm : st.moves with
  | false => exact key _ (.inl (step_arrivals s hm))
  | true =>
    cases st <;> first | (cases hm; done) | skip
    case take r' =>
      refine key _ ?_
      have := getDelivery_arrivals s r'
      show (s.getDelivery r').1.arrivals = _ ∨ _
      split at this
      · exact .inr ⟨_, _, _, this⟩
      · exact .inl (by simpa using this)
    case recv r' =>
      refine key _ ?_
      rcases pollRecv_arrivals s r' with h | ⟨d, t, h⟩
      · exact .inl h
      · exact .inr ⟨_, _, _, h⟩
    case peer f =>
      cases f <;> first | (cases hm; done) | skip
      exact absurd rfl (h _)

/-- A transfer of the peer for another link. -/
theorem transfer_other {s : Session} (hs : s.Reachable) (t : Transfer) {r : Ref}
    (h : s.error = none → ∀ k, s.remoteHandles.get t.head.handle = some k → s.links.get k ≠ some (.rcv (.established r))) :
    receivedOn r (s.step (.peer (.transfer t))).log = receivedOn r s.log ∧
    (NothingDeclined r s.log → NothingDeclined r (s.step (.peer (.transfer t))).log) := by
  rw [receivedOn_arrivals r s, receivedOn_arrivals r (s.step _), ← declined_arrivals r s, ← declined_arrivals r]
  rcases transfer_led hs t with h₁ | ⟨r', k, he, hk, hl, h₁⟩
  · rw [h₁]; exact ⟨rfl, id⟩
  · have hne : r' ≠ r := by rintro rfl; exact h he k hk hl
    rcases h₁ with h₁ | h₁ <;> rw [h₁]
    · refine ⟨by simp [receivedOn, hne], fun hn t' ht' => ?_⟩
      rcases List.mem_append.mp ht' with ht' | ht'
      · exact hn t' ht'
      · simp at ht'
    · refine ⟨by simp [receivedOn], fun hn t' ht' => ?_⟩
      rcases List.mem_append.mp ht' with ht' | ht'
      · exact hn t' ht'
      · simp at ht'; exact hne ht'.1.symm

theorem step_error_mono {s : Session} (st : Step) (h : s.error.isSome) : (s.step st).error.isSome :=
  (step_micros s st).invariant (P := fun s => s.error.isSome) (fun _ _ hm h => hm.error_mono h) h

end Amqp.Rt
