import Verif.Model.Router
import Verif.Lemmas.SessionOwn
import Verif.Lemmas.SessionTodo
/-!
# Steps of the router
-/

namespace Amqp.Rt
open Session

namespace Router

theorem foldl_release (rs : List Ref) (σ : Router) :
    rs.foldl release σ = { σ with handlers := rs.foldl Map.erase σ.handlers, log := σ.log ++ rs.map .released } := by
  induction rs generalizing σ with
  | nil => simp
  | cons r rs ih =>
    rw [List.foldl_cons, ih]
    simp [release, note]

/-- What a step does. -/
inductive View (σ : Router) : Router → Prop
  | same : View σ σ
  | others (st opened) (ha : σ.allowed st = true) :
      View σ { σ with sess := σ.sess.step st, calls := σ.calls ++ σ.sess.messages opened st }
  | routed (i r frame path n) (hc : σ.calls[i]? = some (.attached r frame)) (hp : frame.target.bind Target.address = some path)
      (hn : σ.route path = some n) :
      View σ { σ with
        log := σ.log ++ [.asked r frame], handlers := σ.handlers.insert r none, calls := σ.calls.set i (.creating r n) }
  | unrouted (i r frame e) (hc : σ.calls[i]? = some (.attached r frame))
      (hp : ∀ path, frame.target.bind Target.address = some path → σ.route path = none) :
      View σ { σ with
        log := σ.log ++ [.asked r frame], calls := σ.calls.set i .done, sess := σ.sess.finishAttach r (some e) }
  | failed (i r n e) (hc : σ.calls[i]? = some (.creating r n)) :
      View σ { σ with calls := σ.calls.set i .done, sess := σ.sess.finishAttach r (some e) }
  | made (i r n) (hc : σ.calls[i]? = some (.creating r n)) (hg : (σ.sess.getDelivery r).2 = none) :
      View σ { σ with
        log := σ.log ++ [.created r σ.srvs n], handlers := σ.handlers.insert r (some σ.srvs), srvs := σ.srvs + 1
        calls := σ.calls.set i .done, sess := σ.sess.finishAttach r none }
  | madeFetch (i r n d t) (hc : σ.calls[i]? = some (.creating r n)) (hg : (σ.sess.getDelivery r).2 = some (d, t)) :
      View σ { σ with
        log := σ.log ++ [.created r σ.srvs n, .fetched r d t], handlers := σ.handlers.insert r (some σ.srvs)
        srvs := σ.srvs + 1, calls := σ.calls.set i (.readying r σ.srvs d t true), sess := σ.sess.step (.take r) }
  | fetch (i r srv d t) (hc : σ.calls[i]? = some (.transfer r)) (hh : σ.handlers.get r = some (some srv))
      (hg : (σ.sess.getDelivery r).2 = some (d, t)) :
      View σ { σ with
        log := σ.log ++ [.fetched r d t], calls := σ.calls.set i (.readying r srv d t false), sess := σ.sess.step (.take r) }
  | idle (i r) (hc : σ.calls[i]? = some (.transfer r)) : View σ { σ with calls := σ.calls.set i .done }
  | released (i c rs) (hc : σ.calls[i]? = some c) (hr : c = .detachedAll rs ∨ ∃ r, c = .detached r ∧ rs = [r]) :
      View σ { σ with
        log := σ.log ++ rs.map .released, handlers := rs.foldl Map.erase σ.handlers, calls := σ.calls.set i .done }
  | unready (i r srv d t att e) (hc : σ.calls[i]? = some (.readying r srv d t att)) :
      View σ { σ with
        calls := σ.calls.set i .done
        sess := if att then ((σ.sess.step (.closeReceiver r e)).step (.dropDelivery d)).finishAttach r none
          else (σ.sess.step (.closeReceiver r e)).step (.dropDelivery d) }
  | invoked (i r srv d t att s) (hc : σ.calls[i]? = some (.readying r srv d t att))
      (hs : s = σ.sess ∨ s = σ.sess.step (.grant r 50)) :
      View σ { σ with
        log := σ.log ++ [.invoked r srv d t (σ.handlers.get r == some (some srv))]
        calls := σ.calls.set i (.serving r srv d t att), sess := s }
  | answered (i r srv d t att h) (hc : σ.calls[i]? = some (.serving r srv d t att)) :
      View σ { σ with
        log := σ.log ++ [.answered r srv d t h], calls := σ.calls.set i .done
        sess := if att then ((σ.sess.step (.settle d h.state)).step (.dropDelivery d)).finishAttach r none
          else (σ.sess.step (.settle d h.state)).step (.dropDelivery d) }
  | dropped (i c d) (hc : σ.calls[i]? = some c) (hd : c.holds = some d) :
      View σ { σ with calls := σ.calls.set i .done, sess := σ.sess.step (.dropDelivery d) }
  | cancelled (i c) (hc : σ.calls[i]? = some c) (hd : c.holds = none) : View σ { σ with calls := σ.calls.set i .done }

theorem step_view (σ : Router) (st : RStep) : View σ (σ.step st) := by
  cases st <;> unfold step <;> dsimp only
  case sess st opened =>
    split
    · next ha => exact .others st opened ha
    · exact .same
  case start i =>
    split
    · next c hc =>
      cases c <;> unfold start <;> dsimp only
      case attached r frame =>
        split
        · next path hp =>
          split
          · next n hn => exact .routed i r frame path n hc hp hn
          · next hn =>
            exact .unrouted i r frame _ hc fun p h => by rw [hp] at h; cases h; exact hn
        · next hp => exact .unrouted i r frame _ hc fun p h => by rw [hp] at h; cases h
      case transfer r =>
        split
        · next srv hh =>
          unfold Router.fetch
          split
          · next d t hg => exact .fetch i r srv d t hc hh hg
          · exact .idle i r hc
        · exact .idle i r hc
      case detached r => exact .released i _ [r] hc (.inr ⟨r, rfl, rfl⟩)
      case detachedAll rs =>
        rw [foldl_release]
        exact .released i _ rs hc (.inl rfl)
      all_goals exact .same
    · exact .same
  case created i e =>
    split
    · next c hc =>
      cases c <;> unfold Router.created <;> dsimp only
      case creating r n =>
        split
        · exact .failed i r n _ hc
        · unfold Router.fetch
          split
          · next d t hg =>
            have := View.madeFetch i r n d t hc hg
            simpa [onSess, note, setCall] using this
          · next hg => exact .made i r n hc hg
      all_goals exact .same
    · exact .same
  case readied i e =>
    split
    · next c hc =>
      cases c <;> unfold Router.readied <;> dsimp only
      case readying r srv d t att =>
        split
        · exact .unready i r srv d t att _ hc
        · split
          · split
            · exact .invoked i r srv d t att _ hc (.inr rfl)
            · exact .invoked i r srv d t att _ hc (.inl rfl)
          · exact .invoked i r srv d t att _ hc (.inl rfl)
      all_goals exact .same
    · exact .same
  case answered i h =>
    split
    · next c hc =>
      cases c <;> unfold Router.answered <;> dsimp only
      case serving r srv d t att => exact .answered i r srv d t att h hc
      all_goals exact .same
    · exact .same
  case cancelled i =>
    split
    · next c hc =>
      unfold Router.cancelled
      split
      · next d hd => exact .dropped i c d hc hd
      · next hd => exact .cancelled i c hc hd
    · exact .same

theorem Reachable.invariant {P : Router → Prop} {σ : Router} (h : Reachable σ) (h₀ : ∀ σ, σ.Fresh → P σ)
    (hP : ∀ σ σ', View σ σ' → P σ → P σ') : P σ := by
  obtain ⟨σ₀, steps, hf, rfl⟩ := h
  have key : ∀ (steps : List RStep) (σ : Router), P σ → P (σ.run steps) := by
    intro steps
    induction steps with
    | nil => exact fun σ h => h
    | cons a rest ih => exact fun σ h => ih (σ.step a) (hP _ _ (step_view σ a) h)
  exact key steps σ₀ (h₀ σ₀ hf)

theorem View.route {σ σ' : Router} (h : View σ σ') : σ'.route = σ.route := by cases h <;> rfl

/-! ## The session -/

theorem finishAttach_step (s : Session) (r : Ref) (e : Option Error) :
    s.finishAttach r e = s ∨ ∃ i resp, s.todo[i]? = some (.attached r resp) ∧
      s.finishAttach r e = s.step (.complete i (fun a => a) e) := by
  unfold finishAttach
  split
  · next i hi =>
    obtain ⟨hlt, hp, _⟩ := List.findIdx?_eq_some_iff_getElem.mp hi
    right
    cases ht : s.todo[i] with
    | ctl a => rw [ht] at hp; cases hp
    | attached r' resp =>
      rw [ht] at hp
      obtain rfl : r' = r := by simpa using hp
      exact ⟨i, resp, by rw [List.getElem?_eq_getElem hlt, ht], rfl⟩
  · exact .inl rfl

theorem _root_.Amqp.Rt.Session.Reachable.next {s : Session} (h : Session.Reachable s) (a : Step) :
    Session.Reachable (s.step a) := by
  obtain ⟨s₀, steps, hf, rfl⟩ := h
  exact ⟨s₀, steps ++ [a], hf, by simp [Session.run]⟩

theorem _root_.Amqp.Rt.Session.Reachable.finishAttach {s : Session} (h : Session.Reachable s) (r : Ref) (e : Option Error) :
    Session.Reachable (s.finishAttach r e) := by
  rcases finishAttach_step s r e with he | ⟨i, _, _, he⟩
  · rw [he]; exact h
  · rw [he]; exact h.next _

theorem View.reachable {σ σ' : Router} (h : View σ σ') (hs : Session.Reachable σ.sess) : Session.Reachable σ'.sess := by
  cases h
  case invoked hs' => rcases hs' with rfl | rfl; exacts [hs, hs.next (.grant _ _)]
  case unready => dsimp only; split; exacts [((hs.next _).next _).finishAttach _ _, (hs.next _).next _]
  case answered => dsimp only; split; exacts [((hs.next _).next _).finishAttach _ _, (hs.next _).next _]
  all_goals try dsimp only
  all_goals first | exact hs | exact hs.next _ | exact hs.finishAttach _ _

theorem Reachable.sess {σ : Router} (h : Reachable σ) : Session.Reachable σ.sess :=
  h.invariant (P := fun σ => Session.Reachable σ.sess) (fun _ hf => ⟨_, [], hf.1, rfl⟩) fun _ _ => View.reachable

/-! ## Calls -/

theorem countP_set {α : Type} {l : List α} {i : Nat} {c a : α} (p : α → Bool) (h : l[i]? = some c) :
    (l.set i a).countP p + (if p c then 1 else 0) = l.countP p + if p a then 1 else 0 := by
  induction l generalizing i with
  | nil => simp at h
  | cons x l ih =>
    cases i with
    | zero =>
      obtain rfl : x = c := by simpa using h
      rw [List.set_cons_zero, List.countP_cons, List.countP_cons]
      omega
    | succ i =>
      have := ih (i := i) (by simpa using h)
      rw [List.set_cons_succ, List.countP_cons, List.countP_cons]
      omega

theorem mem_set {α : Type} {l : List α} {i : Nat} {a x : α} (h : x ∈ l.set i a) : x ∈ l ∨ x = a :=
  List.mem_or_eq_of_mem_set h

/-- The calls the dispatcher makes have not begun. -/
def _root_.Amqp.Rt.RCall.Unstarted : RCall → Prop
  | .attached .. | .transfer _ | .detached _ | .detachedAll _ => True
  | _ => False

theorem messages_unstarted {s : Session} {opened : Bool} {st : Step} {c : RCall} (h : c ∈ s.messages opened st) :
    c.Unstarted := by
  unfold messages at h
  split at h
  · split at h
    · split at h
      · obtain rfl := List.mem_singleton.mp h; trivial
      · cases h
    · obtain rfl := List.mem_singleton.mp h; trivial
    · obtain rfl := List.mem_singleton.mp h; trivial
    · cases h
  · split at h
    · obtain rfl := List.mem_singleton.mp h; trivial
    · cases h
  · cases h

/-- Calls of a kind that have begun are not among the new ones. -/
theorem countP_messages {p : RCall → Bool} (hp : ∀ c, c.Unstarted → p c = false) (s : Session) (opened : Bool) (st : Step) :
    (s.messages opened st).countP p = 0 :=
  List.countP_eq_zero.mpr fun c hc => by simp [hp c (messages_unstarted hc)]

/-! ## Deliveries are taken, handled and answered once -/

def fetchedOf (d : Ref) : REv → Bool | .fetched _ d' _ => d' == d | _ => false
def invokedOf (d : Ref) : REv → Bool | .invoked _ _ d' _ _ => d' == d | _ => false
def answeredOf (d : Ref) : REv → Bool | .answered _ _ d' _ _ => d' == d | _ => false
def readyingOf (d : Ref) : RCall → Bool | .readying _ _ d' _ _ => d' == d | _ => false
def servingOf (d : Ref) : RCall → Bool | .serving _ _ d' _ _ => d' == d | _ => false

/-- Every delivery is in one place. -/
structure Counted (σ : Router) : Prop where
  fetched : ∀ d, σ.log.countP (fetchedOf d) ≤ 1
  readying : ∀ d, σ.calls.countP (readyingOf d) + σ.log.countP (invokedOf d) ≤ σ.log.countP (fetchedOf d)
  serving : ∀ d, σ.calls.countP (servingOf d) + σ.log.countP (answeredOf d) ≤ σ.log.countP (invokedOf d)
  handed : ∀ r d t, .fetched r d t ∈ σ.log → .handed r d t ∈ σ.sess.log

theorem getDelivery_some {s : Session} {r d : Ref} {t : Transfer} (h : (s.getDelivery r).2 = some (d, t)) :
    (d, t) ∈ queued s r ∧ .handed r d t ∈ (s.step (.take r)).log := by
  have hs : s.step (.take r) = (s.getDelivery r).1 := rfl
  rw [hs]
  unfold getDelivery at h ⊢
  split at h
  · cases h
  · next l hl =>
    split at h
    · next hc =>
      split at h
      · next d' t' q hq =>
        cases h
        refine ⟨?_, ?_⟩
        · rw [queued, hl]
          show (d, t) ∈ l.queue
          rw [hq]; exact List.mem_cons_self
        · rw [if_pos hc]; simp [hq]
      · cases h
    · cases h

theorem step_log_mem {s : Session} {e : Ev} (h : e ∈ s.log) (a : Step) : e ∈ (s.step a).log := by
  obtain ⟨evs, hl⟩ := run_log s [a]
  have : (s.step a).log = s.log ++ evs := hl
  rw [this]
  exact List.mem_append_left _ h

theorem finishAttach_log_mem {s : Session} {e : Ev} (h : e ∈ s.log) (r : Ref) (er : Option Error) :
    e ∈ (s.finishAttach r er).log := by
  rcases finishAttach_step s r er with he | ⟨i, _, _, he⟩
  · rw [he]; exact h
  · rw [he]; exact step_log_mem h _

/-- The session's log only grows. -/
theorem View.sess_log {σ σ' : Router} (h : View σ σ') {e : Ev} (he : e ∈ σ.sess.log) : e ∈ σ'.sess.log := by
  cases h
  case invoked hs' => rcases hs' with rfl | rfl; exacts [he, step_log_mem he _]
  case unready =>
    dsimp only; split
    exacts [finishAttach_log_mem (step_log_mem (step_log_mem he _) _) _ _, step_log_mem (step_log_mem he _) _]
  case answered =>
    dsimp only; split
    exacts [finishAttach_log_mem (step_log_mem (step_log_mem he _) _) _ _, step_log_mem (step_log_mem he _) _]
  all_goals try dsimp only
  all_goals first | exact he | exact step_log_mem he _ | exact finishAttach_log_mem he _ _

/-- The log only grows. -/
theorem View.log {σ σ' : Router} (h : View σ σ') : ∃ evs, σ'.log = σ.log ++ evs := by
  cases h <;> first | exact ⟨_, rfl⟩ | exact ⟨[], by simp⟩

theorem View.counted {σ σ' : Router} (h : View σ σ') (hr : Session.Reachable σ.sess) (hi : Counted σ) : Counted σ' := by
  -- a step that takes nothing
  have quiet : ∀ evs, σ'.log = σ.log ++ evs → (∀ r d t, .fetched r d t ∉ evs) →
      ∀ r d t, .fetched r d t ∈ σ'.log → .handed r d t ∈ σ'.sess.log := by
    intro evs hl hn r d t hm
    rw [hl] at hm
    rcases List.mem_append.mp hm with hm | hm
    · exact h.sess_log (hi.handed r d t hm)
    · exact absurd hm (hn r d t)
  -- a delivery that is taken was not taken before
  have fresh : ∀ r d t, (σ.sess.getDelivery r).2 = some (d, t) → σ.log.countP (fetchedOf d) = 0 := by
    intro r d t hg
    refine List.countP_eq_zero.mpr fun e he hp => ?_
    cases e <;> simp only [fetchedOf] at hp <;> try cases hp
    next r' d' t' =>
    obtain rfl : d' = d := by simpa using hp
    exact hr.ownDlv.queued_ne (getDelivery_some hg).1 (mem_handedOn.mpr (hi.handed _ _ _ he))
  have f₀ := hi.fetched
  have r₀ := hi.readying
  have s₀ := hi.serving
  have taken : ∀ r d t evs, (σ.sess.getDelivery r).2 = some (d, t) → σ'.log = σ.log ++ evs → σ'.sess = σ.sess.step (.take r) →
      (∀ r' d' t', .fetched r' d' t' ∈ evs → r' = r ∧ d' = d ∧ t' = t) →
      ∀ r d t, .fetched r d t ∈ σ'.log → .handed r d t ∈ σ'.sess.log := by
    intro r d t evs hg hl hs hn r' d' t' hm
    rw [hl] at hm
    rcases List.mem_append.mp hm with hm | hm
    · exact h.sess_log (hi.handed _ _ _ hm)
    · obtain ⟨rfl, rfl, rfl⟩ := hn _ _ _ hm
      rw [hs]
      exact (getDelivery_some hg).2
  -- a call ends or goes on without a delivery
  have plain : ∀ i c a evs, σ.calls[i]? = some c → σ'.calls = σ.calls.set i a →
      (∀ d, readyingOf d a = false ∧ servingOf d a = false) → σ'.log = σ.log ++ evs →
      (∀ e ∈ evs, ∀ d, fetchedOf d e = false ∧ invokedOf d e = false ∧ answeredOf d e = false) → Counted σ' := by
    intro i c a evs hc hcalls ha hl he
    have h₁ : ∀ p : REv → Bool, (∀ e ∈ evs, p e = false) → evs.countP p = 0 :=
      fun p hp => List.countP_eq_zero.mpr fun e he => by simp [hp e he]
    have e₁ : ∀ d, σ'.log.countP (fetchedOf d) = σ.log.countP (fetchedOf d) := fun d => by
      rw [hl, List.countP_append, h₁ _ fun e h => (he e h d).1, Nat.add_zero]
    have e₂ : ∀ d, σ'.log.countP (invokedOf d) = σ.log.countP (invokedOf d) := fun d => by
      rw [hl, List.countP_append, h₁ _ fun e h => (he e h d).2.1, Nat.add_zero]
    have e₃ : ∀ d, σ'.log.countP (answeredOf d) = σ.log.countP (answeredOf d) := fun d => by
      rw [hl, List.countP_append, h₁ _ fun e h => (he e h d).2.2, Nat.add_zero]
    refine ⟨fun d => by rw [e₁]; exact f₀ d, fun d => ?_, fun d => ?_, quiet evs hl fun r d t hm => ?_⟩
    · have := r₀ d
      have h₃ := countP_set (a := a) (readyingOf d) hc
      rw [(ha d).1] at h₃
      rw [e₁, e₂, hcalls]
      simp only [Bool.false_eq_true, if_false] at h₃
      omega
    · have := s₀ d
      have h₃ := countP_set (a := a) (servingOf d) hc
      rw [(ha d).2] at h₃
      rw [e₃, e₂, hcalls]
      simp only [Bool.false_eq_true, if_false] at h₃
      omega
    · have := (he _ hm d).1
      simp [fetchedOf] at this
  cases h
  case same => exact hi
  case others st opened ha =>
    have h₁ : ∀ d, (σ.sess.messages opened st).countP (readyingOf d) = 0 :=
      fun d => countP_messages (by intro c hc; cases c <;> first | rfl | exact hc.elim) _ _ _
    have h₂ : ∀ d, (σ.sess.messages opened st).countP (servingOf d) = 0 :=
      fun d => countP_messages (by intro c hc; cases c <;> first | rfl | exact hc.elim) _ _ _
    refine ⟨f₀, fun d => ?_, fun d => ?_, quiet [] (by simp) (by simp)⟩
    · have := r₀ d; simpa [List.countP_append, h₁ d] using this
    · have := s₀ d; simpa [List.countP_append, h₂ d] using this
  case madeFetch i r n d t hc hg =>
    refine ⟨fun d' => ?_, fun d' => ?_, fun d' => ?_, taken r d t _ hg rfl rfl (by simp)⟩
    · have := fresh r d t hg; have := f₀ d'
      simp only [List.countP_append, List.countP_cons, List.countP_nil, fetchedOf]
      by_cases hd : d = d'
      · subst hd; simp only [beq_self_eq_true, if_true, Bool.false_eq_true, if_false]; omega
      · simpa [hd] using this
    · have := r₀ d'; have := countP_set (a := .readying r σ.srvs d t true) (readyingOf d') hc
      simp only [List.countP_append, List.countP_cons, List.countP_nil, fetchedOf, invokedOf, readyingOf] at this ⊢
      simp at this ⊢
      omega
    · have := s₀ d'; have := countP_set (a := .readying r σ.srvs d t true) (servingOf d') hc
      simp only [List.countP_append, List.countP_cons, List.countP_nil, invokedOf, answeredOf, servingOf] at this ⊢
      simp at this ⊢
      omega
  case fetch i r srv d t hc hh hg =>
    refine ⟨fun d' => ?_, fun d' => ?_, fun d' => ?_, taken r d t _ hg rfl rfl (by simp)⟩
    · have := fresh r d t hg; have := f₀ d'
      simp only [List.countP_append, List.countP_cons, List.countP_nil, fetchedOf]
      by_cases hd : d = d'
      · subst hd; simp only [beq_self_eq_true, if_true, Bool.false_eq_true, if_false]; omega
      · simpa [hd] using this
    · have := r₀ d'; have := countP_set (a := .readying r srv d t false) (readyingOf d') hc
      simp only [List.countP_append, List.countP_cons, List.countP_nil, fetchedOf, invokedOf, readyingOf] at this ⊢
      simp at this ⊢
      omega
    · have := s₀ d'; have := countP_set (a := .readying r srv d t false) (servingOf d') hc
      simp only [List.countP_append, List.countP_cons, List.countP_nil, invokedOf, answeredOf, servingOf] at this ⊢
      simp at this ⊢
      omega
  case invoked i r srv d t att s hc hs =>
    refine ⟨fun d' => ?_, fun d' => ?_, fun d' => ?_, quiet _ rfl (by simp)⟩
    · have := f₀ d'; simpa [List.countP_append, fetchedOf] using this
    · have := r₀ d'; have := countP_set (a := .serving r srv d t att) (readyingOf d') hc
      simp only [List.countP_append, List.countP_cons, List.countP_nil, fetchedOf, invokedOf, readyingOf] at this ⊢
      simp at this ⊢
      omega
    · have := s₀ d'; have := countP_set (a := .serving r srv d t att) (servingOf d') hc
      simp only [List.countP_append, List.countP_cons, List.countP_nil, invokedOf, answeredOf, servingOf] at this ⊢
      simp at this ⊢
      omega
  case answered i r srv d t att h hc =>
    refine ⟨fun d' => ?_, fun d' => ?_, fun d' => ?_, quiet _ rfl (by simp)⟩
    · have := f₀ d'; simpa [List.countP_append, fetchedOf] using this
    · have := r₀ d'; have := countP_set (a := .done) (readyingOf d') hc
      simp only [List.countP_append, List.countP_cons, List.countP_nil, fetchedOf, invokedOf, readyingOf] at this ⊢
      simp at this ⊢
      omega
    · have := s₀ d'; have := countP_set (a := .done) (servingOf d') hc
      simp only [List.countP_append, List.countP_cons, List.countP_nil, invokedOf, answeredOf, servingOf] at this ⊢
      simp at this ⊢
      omega
  case routed i r frame path n hc hp hn => exact plain i _ _ _ hc rfl (fun _ => ⟨rfl, rfl⟩) rfl (by simp [fetchedOf, invokedOf, answeredOf])
  case unrouted i r frame e hc hp => exact plain i _ _ _ hc rfl (fun _ => ⟨rfl, rfl⟩) rfl (by simp [fetchedOf, invokedOf, answeredOf])
  case failed i r n e hc => exact plain i _ _ [] hc rfl (fun _ => ⟨rfl, rfl⟩) (by simp) (by simp)
  case made i r n hc hg => exact plain i _ _ _ hc rfl (fun _ => ⟨rfl, rfl⟩) rfl (by simp [fetchedOf, invokedOf, answeredOf])
  case idle i r hc => exact plain i _ _ [] hc rfl (fun _ => ⟨rfl, rfl⟩) (by simp) (by simp)
  case released i c rs hc hr' => exact plain i _ _ _ hc rfl (fun _ => ⟨rfl, rfl⟩) rfl (by simp [fetchedOf, invokedOf, answeredOf])
  case unready i r srv d t att e hc => exact plain i _ _ [] hc rfl (fun _ => ⟨rfl, rfl⟩) (by simp) (by simp)
  case dropped i c d hc hd => exact plain i _ _ [] hc rfl (fun _ => ⟨rfl, rfl⟩) (by simp) (by simp)
  case cancelled i c hc hd => exact plain i _ _ [] hc rfl (fun _ => ⟨rfl, rfl⟩) (by simp) (by simp)

theorem Reachable.counted {σ : Router} (h : Reachable σ) : Counted σ := by
  refine (h.invariant (P := fun σ => Session.Reachable σ.sess ∧ Counted σ) ?_ ?_).2
  · rintro σ ⟨hf, _, _, hc, hl⟩
    exact ⟨⟨_, [], hf, rfl⟩, by constructor <;> simp [hc, hl]⟩
  · exact fun _ _ h hi => ⟨h.reachable hi.1, h.counted hi.1 hi.2⟩

end Router
end Amqp.Rt
