import Verif.Lemmas.Router
import Verif.Props.Notices
/-!
# Links offered to the router
-/

namespace Amqp.Rt
open Session

namespace Router

def askingOf (r : Ref) : Todo → Bool | .ctl (.attachReceiver r' _ _) => r' == r | _ => false
def waitingOf (r : Ref) : Todo → Bool | .attached r' _ => r' == r | _ => false
def attachedOf (r : Ref) : RCall → Bool | .attached r' _ => r' == r | _ => false
def behalfOf (r : Ref) : RCall → Bool
  | .attached r' _ | .creating r' _ => r' == r
  | .readying r' _ _ _ att | .serving r' _ _ _ att => att && r' == r
  | _ => false
def askedOf (r : Ref) : REv → Bool | .asked r' _ => r' == r | _ => false

/-- Every link is offered once, and its attach waits for the router. -/
structure Offered (σ : Router) : Prop where
  once : ∀ r, σ.sess.todo.countP (askingOf r) + σ.calls.countP (attachedOf r) + σ.log.countP (askedOf r) ≤ 1
  old : ∀ r, σ.sess.rcvs.length ≤ r →
    σ.sess.todo.countP (askingOf r) + σ.calls.countP (attachedOf r) + σ.log.countP (askedOf r) = 0
  waits : ∀ r, σ.calls.countP (behalfOf r) ≤ σ.sess.todo.countP (waitingOf r)
  call : ∀ r frame, .attached r frame ∈ σ.calls → .peer (.attach frame) ∈ σ.sess.log
  ask : ∀ r frame, .asked r frame ∈ σ.log → .peer (.attach frame) ∈ σ.sess.log

theorem countP_eraseIdx {α : Type} {l : List α} {i : Nat} {c : α} (p : α → Bool) (h : l[i]? = some c) :
    (l.eraseIdx i).countP p + (if p c then 1 else 0) = l.countP p := by
  induction l generalizing i with
  | nil => simp at h
  | cons x l ih =>
    cases i with
    | zero =>
      obtain rfl : x = c := by simpa using h
      rw [List.eraseIdx_cons_zero, List.countP_cons]
    | succ i =>
      have := ih (i := i) (by simpa using h)
      rw [List.eraseIdx_cons_succ, List.countP_cons, List.countP_cons]
      omega

/-- How many calls wait for the router's answer about `r` after it has answered. -/
theorem finishAttach_waiting (s : Session) (r r' : Ref) (e : Option Error) :
    s.todo.countP (waitingOf r') ≤ (s.finishAttach r e).todo.countP (waitingOf r') + if r = r' then 1 else 0 := by
  rcases finishAttach_step s r e with he | ⟨i, resp, hi, he⟩
  · rw [he]; omega
  · rw [he]
    rcases step_todo s (.complete i (fun a => a) e) with ⟨i', edit, e', t, heq, ht, hto⟩ | ⟨_, h⟩ | ⟨_, _, h, _⟩
    · cases heq
      obtain rfl : t = .attached r resp := by simpa [hi] using ht.symm
      rw [hto, List.countP_append]
      have := countP_eraseIdx (waitingOf r') hi
      simp only [waitingOf, beq_iff_eq] at this
      omega
    · rw [h i _ e rfl] at hi; cases hi
    · exact absurd rfl (h i _ e)

theorem finishAttach_asking (s : Session) (r r' : Ref) (e : Option Error) :
    (s.finishAttach r e).todo.countP (askingOf r') = s.todo.countP (askingOf r') := by
  rcases finishAttach_step s r e with he | ⟨i, resp, hi, he⟩
  · rw [he]
  · rw [he]
    rcases step_todo s (.complete i (fun a => a) e) with ⟨i', edit, e', t, heq, ht, hto⟩ | ⟨_, h⟩ | ⟨_, _, h, _⟩
    · cases heq
      obtain rfl : t = .attached r resp := by simpa [hi] using ht.symm
      rw [hto, List.countP_append]
      have := countP_eraseIdx (askingOf r') hi
      simp only [askingOf, nextTodo, List.countP_nil, Bool.false_eq_true, if_false] at this ⊢
      omega
    · rw [h i _ e rfl] at hi; cases hi
    · exact absurd rfl (h i _ e)

theorem finishAttach_rcvs (s : Session) (r : Ref) (e : Option Error) :
    s.rcvs.length ≤ (s.finishAttach r e).rcvs.length := by
  rcases finishAttach_step s r e with he | ⟨i, resp, hi, he⟩
  · rw [he]; exact Nat.le_refl _
  · rw [he]; exact step_rcvs_length _ _

/-- The router's own steps leave the calls in flight alone. -/
theorem own_todo (s : Session) (r d : Ref) :
    (s.step (.take r)).todo = s.todo ∧ (∀ n, (s.step (.grant r n)).todo = s.todo) ∧
    (∀ e, (s.step (.closeReceiver r e)).todo = s.todo) ∧ (∀ st, (s.step (.settle d st)).todo = s.todo) ∧
    (s.step (.dropDelivery d)).todo = s.todo := by
  refine ⟨by simp [Session.step], by simp [Session.step], by simp [Session.step], fun st => ?_, ?_⟩
  · by_cases hf : s.free d <;> simp [Session.step, hf]
  · by_cases hf : s.free d <;> simp [Session.step, hf]

/-- New offers come with a call answered. -/
theorem messages_attached {s : Session} {opened : Bool} {st : Step} {r : Ref} {frame : Attach}
    (h : .attached r frame ∈ s.messages opened st) :
    ∃ i edit g, st = .complete i edit none ∧ s.todo[i]? = some (.ctl (.attachReceiver r frame g)) := by
  unfold messages at h
  split at h
  · split at h
    · split at h
      · cases List.mem_singleton.mp h
      · cases h
    · cases List.mem_singleton.mp h
    · cases List.mem_singleton.mp h
    · cases h
  · next i edit =>
    split at h
    · next r' f g ht =>
      cases List.mem_singleton.mp h
      exact ⟨i, edit, g, rfl, ht⟩
    · cases h
  · cases h

theorem messages_complete {s : Session} {opened : Bool} {i : Nat} {edit : Attach → Attach} {e : Option Error} {t : Todo}
    (ht : s.todo[i]? = some t) : s.messages opened (.complete i edit e) =
      match e, t with | none, .ctl (.attachReceiver r frame _) => [.attached r frame] | _, _ => [] := by
  unfold messages
  cases e with
  | some e => simp
  | none =>
    simp only [ht]
    cases t with
    | attached r resp => rfl
    | ctl a => cases a <;> rfl

theorem View.offered {σ σ' : Router} (h : View σ σ') (hr : Session.Reachable σ.sess) (hi : Offered σ) : Offered σ' := by
  have o₀ := hi.once
  have n₀ := hi.old
  have w₀ := hi.waits
  -- a call goes on or ends
  have plain : ∀ i c a evs, σ.calls[i]? = some c → σ'.calls = σ.calls.set i a → σ'.log = σ.log ++ evs →
      (∀ r, attachedOf r a = false) →
      (∀ r, evs.countP (askedOf r) ≤ if attachedOf r c then 1 else 0) →
      (∀ r frame, .asked r frame ∈ evs → .attached r frame ∈ σ.calls) →
      (∀ r, σ'.sess.todo.countP (askingOf r) = σ.sess.todo.countP (askingOf r)) →
      σ.sess.rcvs.length ≤ σ'.sess.rcvs.length →
      (∀ r, σ.sess.todo.countP (waitingOf r) + (if behalfOf r a then 1 else 0) ≤
        σ'.sess.todo.countP (waitingOf r) + (if behalfOf r c then 1 else 0)) → Offered σ' := by
    intro i c a evs hc hcalls hl ha he hev hask hlen hw
    have eq : ∀ r, σ'.calls.countP (attachedOf r) + σ'.log.countP (askedOf r) ≤
        σ.calls.countP (attachedOf r) + σ.log.countP (askedOf r) := by
      intro r
      have h₁ := countP_set (a := a) (attachedOf r) hc
      have h₂ := he r
      rw [hcalls, hl, List.countP_append]
      rw [ha r] at h₁
      simp only [Bool.false_eq_true, if_false] at h₁
      omega
    have ask' : ∀ r frame, .asked r frame ∈ σ'.log → .peer (.attach frame) ∈ σ.sess.log := by
      intro r frame hm
      rw [hl] at hm
      rcases List.mem_append.mp hm with hm | hm
      · exact hi.ask r frame hm
      · exact hi.call r frame (hev r frame hm)
    refine ⟨fun r => ?_, fun r hle => ?_, fun r => ?_, fun r frame hm => ?_,
      fun r frame hm => h.sess_log (ask' r frame hm)⟩
    · have := eq r; have := o₀ r; have := hask r; omega
    · have := eq r; have := n₀ r (Nat.le_trans hlen hle); have := hask r; omega
    · have := hw r; have := w₀ r
      have h₁ := countP_set (a := a) (behalfOf r) hc
      rw [hcalls]
      omega
    · rw [hcalls] at hm
      rcases mem_set hm with hm | hm
      · exact h.sess_log (hi.call r frame hm)
      · subst hm; have := ha r; simp [attachedOf] at this
  cases h
  case same => exact hi
  case others st opened ha =>
    have hlen := step_rcvs_length σ.sess st
    have unst : ∀ (p : RCall → Bool), (∀ r f, p (.attached r f) = false) → (∀ c, c.Unstarted → (∀ r f, c ≠ .attached r f) → p c = false) →
        (σ.sess.messages opened st).countP p = 0 := by
      intro p h₁ h₂
      refine List.countP_eq_zero.mpr fun c hc => ?_
      by_cases h : ∃ r f, c = .attached r f
      · obtain ⟨r, f, rfl⟩ := h; simp [h₁]
      · simp [h₂ c (messages_unstarted hc) fun r f he => h ⟨r, f, he⟩]
    have call' : ∀ r frame, .attached r frame ∈ σ.calls ++ σ.sess.messages opened st →
        .peer (.attach frame) ∈ (σ.sess.step st).log := by
      intro r frame hm
      rcases List.mem_append.mp hm with hm | hm
      · exact step_log_mem (hi.call r frame hm) _
      · obtain ⟨i, edit, g, rfl, ht⟩ := messages_attached hm
        exact step_log_mem ((c54_only_peer _ hr).2.1 r frame g (List.mem_of_getElem? ht)) _
    have ask' : ∀ r frame, .asked r frame ∈ σ.log → .peer (.attach frame) ∈ (σ.sess.step st).log :=
      fun r frame hm => step_log_mem (hi.ask r frame hm) _
    rcases step_todo σ.sess st with ⟨i, edit, e, t, rfl, ht, hto⟩ | ⟨hto, hn⟩ | ⟨act, hto, hn, hact⟩
    · -- a call was answered
      have hnot : ∀ r resp, t ≠ .attached r resp := by
        rintro r resp rfl
        rw [allowed, ht] at ha
        cases ha
      have hmsg := messages_complete (opened := opened) (edit := edit) (e := e) ht
      have cnt : ∀ r, (σ.sess.messages opened (.complete i edit e)).countP (attachedOf r) +
          (σ.sess.step (.complete i edit e)).todo.countP (askingOf r) ≤ σ.sess.todo.countP (askingOf r) ∧
          (σ.sess.messages opened (.complete i edit e)).countP (behalfOf r) + σ.sess.todo.countP (waitingOf r) ≤
            (σ.sess.step (.complete i edit e)).todo.countP (waitingOf r) := by
        intro r
        have h₁ := countP_eraseIdx (askingOf r) ht
        have h₂ := countP_eraseIdx (waitingOf r) ht
        rw [hto, hmsg, List.countP_append, List.countP_append]
        cases t with
        | attached r' resp => exact absurd rfl (hnot r' resp)
        | ctl a =>
          cases a
          case attachReceiver link f g =>
            cases hx : (link == r) <;> cases e <;>
              simp only [hx, nextTodo, askingOf, waitingOf, attachedOf, behalfOf, List.countP_nil, List.countP_cons,
                Option.isNone_none, Option.isNone_some, if_true, Bool.false_eq_true, if_false] at h₁ h₂ ⊢ <;> omega
          all_goals cases e <;>
            simp only [nextTodo, askingOf, waitingOf, List.countP_nil, Bool.false_eq_true, if_false] at h₁ h₂ ⊢ <;> omega
      refine ⟨fun r => ?_, fun r hle => ?_, fun r => ?_, call', ask'⟩
      · have := o₀ r; have := (cnt r).1; rw [List.countP_append]; try dsimp only
        omega
      · have := n₀ r (Nat.le_trans hlen hle); have := (cnt r).1; rw [List.countP_append]; try dsimp only
        omega
      · have := w₀ r; have := (cnt r).2; rw [List.countP_append]; try dsimp only
        omega
    · have none' : ∀ p : RCall → Bool, (∀ c, c.Unstarted → (∀ r f, c ≠ .attached r f) → p c = false) →
          (σ.sess.messages opened st).countP p = 0 := by
        intro p h₂
        refine List.countP_eq_zero.mpr fun c hc => ?_
        have : ∀ r f, c ≠ .attached r f := by
          rintro r f rfl
          obtain ⟨i, edit, g, rfl, ht⟩ := messages_attached hc
          rw [hn i edit none rfl] at ht; cases ht
        simp [h₂ c (messages_unstarted hc) this]
      have z₁ : ∀ r, (σ.sess.messages opened st).countP (attachedOf r) = 0 := fun r =>
        none' _ fun c hu hne => by cases c <;> first | rfl | exact absurd rfl (hne _ _)
      have z₂ : ∀ r, (σ.sess.messages opened st).countP (behalfOf r) = 0 := fun r =>
        none' _ fun c hu hne => by cases c <;> first | rfl | exact absurd rfl (hne _ _) | exact hu.elim
      refine ⟨fun r => ?_, fun r hle => ?_, fun r => ?_, call', ask'⟩
      · have := o₀ r; have := z₁ r; rw [List.countP_append, hto]; try dsimp only
        omega
      · have := n₀ r (Nat.le_trans hlen hle); have := z₁ r; rw [List.countP_append, hto]; try dsimp only
        omega
      · have := w₀ r; have := z₂ r; rw [List.countP_append, hto]; try dsimp only
        omega
    · have none' : ∀ p : RCall → Bool, (∀ c, c.Unstarted → (∀ r f, c ≠ .attached r f) → p c = false) →
          (σ.sess.messages opened st).countP p = 0 := by
        intro p h₂
        refine List.countP_eq_zero.mpr fun c hc => ?_
        have : ∀ r f, c ≠ .attached r f := by
          rintro r f rfl
          obtain ⟨i, edit, g, rfl, ht⟩ := messages_attached hc
          exact hn i edit none rfl
        simp [h₂ c (messages_unstarted hc) this]
      have z₁ : ∀ r, (σ.sess.messages opened st).countP (attachedOf r) = 0 := fun r =>
        none' _ fun c hu hne => by cases c <;> first | rfl | exact absurd rfl (hne _ _)
      have z₂ : ∀ r, (σ.sess.messages opened st).countP (behalfOf r) = 0 := fun r =>
        none' _ fun c hu hne => by cases c <;> first | rfl | exact absurd rfl (hne _ _) | exact hu.elim
      have one : ∀ r, [Todo.ctl act].countP (askingOf r) = 0 ∨
          ([Todo.ctl act].countP (askingOf r) = 1 ∧ @Eq Nat r σ.sess.rcvs.length ∧ (σ.sess.step st).rcvs.length = σ.sess.rcvs.length + 1) := by
        intro r
        cases hc : askingOf r (.ctl act)
        · exact .inl (by simp [hc])
        · right
          refine ⟨by simp [hc], ?_⟩
          cases act <;> simp only [askingOf] at hc <;> try cases hc
          next r' a g =>
          obtain rfl : r' = r := by simpa using hc
          exact hact _ a g rfl
      have wz : ∀ r, [Todo.ctl act].countP (waitingOf r) = 0 := fun r => rfl
      refine ⟨fun r => ?_, fun r hle => ?_, fun r => ?_, call', ask'⟩
      · have := o₀ r; have := z₁ r
        rw [List.countP_append, hto, List.countP_append]; try dsimp only
        rcases one r with h | ⟨h, hr', hl'⟩
        · omega
        · have := n₀ r (by omega); omega
      · have := n₀ r (Nat.le_trans hlen hle); have := z₁ r
        rw [List.countP_append, hto, List.countP_append]; dsimp only at hle ⊢
        rcases one r with h | ⟨h, hr', hl'⟩
        · omega
        · omega
      · have := w₀ r; have := z₂ r; have := wz r; rw [List.countP_append, hto, List.countP_append]; try dsimp only
        omega
  case routed i r frame path n hc hp hn =>
    refine plain i _ _ _ hc rfl rfl (fun _ => rfl) (fun r' => by simp [askedOf, attachedOf]) ?_ (fun _ => rfl)
      (Nat.le_refl _) (fun _ => Nat.le_refl _)
    intro r' f' hm
    cases List.mem_singleton.mp hm
    exact List.mem_of_getElem? hc
  case unrouted i r frame e hc hp =>
    refine plain i _ _ _ hc rfl rfl (fun _ => rfl) (fun r' => by simp [askedOf, attachedOf]) ?_
      (fun r' => finishAttach_asking _ _ _ _) (finishAttach_rcvs _ _ _) (fun r' => ?_)
    · intro r' f' hm
      cases List.mem_singleton.mp hm
      exact List.mem_of_getElem? hc
    · have := finishAttach_waiting σ.sess r r' (some e)
      simpa [behalfOf] using this
  case failed i r n e hc =>
    refine plain i _ _ [] hc rfl (by simp) (fun _ => rfl) (fun r' => by simp [attachedOf]) (by simp)
      (fun r' => finishAttach_asking _ _ _ _) (finishAttach_rcvs _ _ _) (fun r' => ?_)
    have := finishAttach_waiting σ.sess r r' (some e)
    simpa [behalfOf] using this
  case made i r n hc hg =>
    refine plain i _ _ _ hc rfl rfl (fun _ => rfl) (fun r' => by simp [askedOf, attachedOf]) (by simp)
      (fun r' => finishAttach_asking _ _ _ _) (finishAttach_rcvs _ _ _) (fun r' => ?_)
    have := finishAttach_waiting σ.sess r r' none
    simpa [behalfOf] using this
  case madeFetch i r n d t hc hg =>
    refine plain i _ _ _ hc rfl rfl (fun _ => rfl) (fun r' => by simp [askedOf, attachedOf]) (by simp)
      (fun r' => by dsimp only; rw [(own_todo σ.sess r d).1]) (step_rcvs_length _ _) (fun r' => ?_)
    dsimp only; rw [(own_todo σ.sess r d).1]; simp [behalfOf]
  case fetch i r srv d t hc hh hg =>
    refine plain i _ _ _ hc rfl rfl (fun _ => rfl) (fun r' => by simp [askedOf, attachedOf]) (by simp)
      (fun r' => by dsimp only; rw [(own_todo σ.sess r d).1]) (step_rcvs_length _ _) (fun r' => ?_)
    dsimp only; rw [(own_todo σ.sess r d).1]; simp [behalfOf]
  case idle i r hc =>
    exact plain i _ _ [] hc rfl (by simp) (fun _ => rfl) (fun r' => by simp [attachedOf]) (by simp) (fun _ => rfl)
      (Nat.le_refl _) (fun r' => by simp [behalfOf])
  case released i c rs hc hr' =>
    refine plain i _ _ _ hc rfl rfl (fun _ => rfl) (fun r' => ?_) (by simp) (fun _ => rfl) (Nat.le_refl _) (fun r' => ?_)
    · have : (rs.map REv.released).countP (askedOf r') = 0 :=
        List.countP_eq_zero.mpr fun e he => by obtain ⟨x, _, rfl⟩ := List.mem_map.mp he; simp [askedOf]
      rw [this]
      exact Nat.zero_le _
    · simp [behalfOf]
  case unready i r srv d t att e hc =>
    have h₁ := own_todo σ.sess r d
    have h₂ := own_todo (σ.sess.step (.closeReceiver r e)) r d
    have hlen := Nat.le_trans (step_rcvs_length σ.sess (.closeReceiver r e)) (step_rcvs_length _ (.dropDelivery d))
    refine plain i _ _ [] hc rfl (by simp) (fun _ => rfl) (fun r' => by simp [attachedOf]) (by simp) (fun r' => ?_) ?_ (fun r' => ?_)
    · cases att
      · simp only [Bool.false_eq_true, if_false]; rw [h₂.2.2.2.2, h₁.2.2.1]
      · simp only [if_true]; rw [finishAttach_asking, h₂.2.2.2.2, h₁.2.2.1]
    · cases att
      · exact hlen
      · exact Nat.le_trans hlen (finishAttach_rcvs _ _ _)
    · cases att
      · simp only [Bool.false_eq_true, if_false]; rw [h₂.2.2.2.2, h₁.2.2.1]; simp [behalfOf]
      · have := finishAttach_waiting ((σ.sess.step (.closeReceiver r e)).step (.dropDelivery d)) r r' none
        rw [h₂.2.2.2.2, h₁.2.2.1] at this
        simpa [behalfOf] using this
  case invoked i r srv d t att s hc hs =>
    have hto : s.todo = σ.sess.todo := by rcases hs with rfl | rfl; exacts [rfl, (own_todo σ.sess r d).2.1 50]
    have hlen : σ.sess.rcvs.length ≤ s.rcvs.length := by
      rcases hs with rfl | rfl; exacts [Nat.le_refl _, step_rcvs_length _ _]
    exact plain i _ _ _ hc rfl rfl (fun _ => rfl) (fun r' => by simp [askedOf, attachedOf]) (by simp)
      (fun r' => by dsimp only; rw [hto]) hlen (fun r' => by dsimp only; rw [hto]; simp [behalfOf])
  case answered i r srv d t att h hc =>
    have h₁ := own_todo σ.sess r d
    have h₂ := own_todo (σ.sess.step (.settle d h.state)) r d
    have hlen := Nat.le_trans (step_rcvs_length σ.sess (.settle d h.state)) (step_rcvs_length _ (.dropDelivery d))
    refine plain i _ _ _ hc rfl rfl (fun _ => rfl) (fun r' => by simp [askedOf, attachedOf]) (by simp) (fun r' => ?_) ?_ (fun r' => ?_)
    · cases att
      · simp only [Bool.false_eq_true, if_false]; rw [h₂.2.2.2.2, h₁.2.2.2.1]
      · simp only [if_true]; rw [finishAttach_asking, h₂.2.2.2.2, h₁.2.2.2.1]
    · cases att
      · exact hlen
      · exact Nat.le_trans hlen (finishAttach_rcvs _ _ _)
    · cases att
      · simp only [Bool.false_eq_true, if_false]; rw [h₂.2.2.2.2, h₁.2.2.2.1]; simp [behalfOf]
      · have := finishAttach_waiting ((σ.sess.step (.settle d h.state)).step (.dropDelivery d)) r r' none
        rw [h₂.2.2.2.2, h₁.2.2.2.1] at this
        simpa [behalfOf] using this
  case dropped i c d hc hd =>
    refine plain i _ _ [] hc rfl (by simp) (fun _ => rfl) (fun r' => ?_) (by simp)
      (fun r' => by dsimp only; rw [(own_todo σ.sess 0 d).2.2.2.2]) (step_rcvs_length _ _)
      (fun r' => by dsimp only; rw [(own_todo σ.sess 0 d).2.2.2.2]; simp [behalfOf])
    simp
  case cancelled i c hc hd =>
    refine plain i _ _ [] hc rfl (by simp) (fun _ => rfl) (fun r' => by simp) (by simp) (fun _ => rfl) (Nat.le_refl _)
      (fun r' => by simp [behalfOf])

theorem Reachable.offered {σ : Router} (h : Reachable σ) : Offered σ := by
  refine (h.invariant (P := fun σ => Session.Reachable σ.sess ∧ Offered σ) ?_ ?_).2
  · rintro σ ⟨hf, _, _, hc, hl⟩
    have ht : σ.sess.todo = [] := by obtain ⟨_, _, _, _, _, h⟩ := hf; rw [h]; rfl
    exact ⟨⟨_, [], hf, rfl⟩, by constructor <;> simp [hc, hl, ht]⟩
  · exact fun _ _ h hi => ⟨h.reachable hi.1, h.offered hi.1 hi.2⟩

end Router
end Amqp.Rt
