import Verif.Lemmas.SessionFault
import Verif.Lemmas.SessionError
import Verif.Props.Receiving
/-!
# What makes a session panic: C58
-/

namespace Amqp.Rt
open Session Examples

/-- The step makes `e` happen. -/
def Causes (s : Session) (st : Step) (e : Ev) : Prop := ∃ evs, (s.step st).log = s.log ++ evs ∧ e ∈ evs

/-- The handles in use fit the protocol's 32 bits. -/
def HandlesFit (s : Session) : Prop := ∀ k x, s.links.get k = some x → k < 2 ^ 32

/-- The step asks for receiver link `r` to be closed: the application does, or the control service refuses a call about
it. -/
inductive ClosesReceiver (s : Session) (r : Ref) : Step → Prop
  | close (e : Option Error) : ClosesReceiver s r (.closeReceiver r e)
  | attach {i edit e a g} (h : s.todo[i]? = some (.ctl (.attachReceiver r a g))) :
      ClosesReceiver s r (.complete i edit (some e))
  | attached {i edit e g} (h : s.todo[i]? = some (.attached r g)) : ClosesReceiver s r (.complete i edit (some e))
  | detach {i edit e d} (h : s.todo[i]? = some (.ctl (.detachReceiver r d))) :
      ClosesReceiver s r (.complete i edit (some e))

theorem causes_iff {s : Session} (hs : Reachable s) (hf : HandlesFit s) (st : Step) {e : Ev} (he : e.fault = true) :
    Causes s st e ↔ e ∈ s.stepFault st := by
  obtain ⟨evs, hl⟩ := s.step_log st
  have h := step_faults hs hf st
  have : evs.filter Ev.fault = s.stepFault st := by
    unfold faults at h
    rw [hl, List.filter_append] at h
    exact List.append_cancel_left h
  rw [← this, List.mem_filter, he]
  constructor
  · rintro ⟨evs', hl', hm⟩
    rw [hl] at hl'
    exact ⟨List.append_cancel_left hl' ▸ hm, rfl⟩
  · rintro ⟨hm, -⟩
    exact ⟨evs, hl, hm⟩

theorem peerFault_no_panic (s : Session) (f : Frame) : Ev.panic ∉ s.peerFault f := by
  unfold peerFault
  split
  · split
    · simp
    · split
      · split
        · split <;> simp
        · simp
      · simp
  · simp

/-- **C58** Handling a frame of the peer never panics, whatever the frame and whatever happened before. -/
theorem c58_peer {s : Session} (hs : Reachable s) (hf : HandlesFit s) (f : Frame) : ¬ Causes s (.peer f) .panic := by
  rw [causes_iff hs hf _ rfl]
  exact peerFault_no_panic s f

example : ∃ s : Session, Reachable s ∧ HandlesFit s ∧ ∃ r, s.links.get 0 = some (.rcv (.openingLocal r)) := by
  refine ⟨(start 0).run [.attachReceiver (anAttach "a" 0 .receiver)], reachable _ _ _, ?_, _, rfl⟩
  intro k x h
  match k, h with
  | 0, _ => decide
  | k + 1, h => cases h

theorem mem_if_panic {b : Bool} : Ev.panic ∈ (if b then [Ev.panic] else []) ↔ b = true := by cases b <;> simp
theorem mem_if_overflow {b : Bool} : Ev.overflow ∈ (if b then [Ev.overflow] else []) ↔ b = true := by cases b <;> simp
theorem not_mem_if_panic {b : Bool} : Ev.overflow ∉ (if b then [Ev.panic] else []) := by cases b <;> simp
theorem not_mem_if_overflow {b : Bool} : Ev.panic ∉ (if b then [Ev.overflow] else []) := by cases b <;> simp

theorem closePanics_iff (s : Session) (r : Ref) : s.closePanics r = true ↔
    ∃ l x, s.rcv? r = some l ∧ l.closed = false ∧ s.links.get l.handle.toNat = some (.rcv (.openingLocal x)) := by
  unfold closePanics
  cases hl : s.rcv? r with
  | none => simp
  | some l => simp [opensHere_iff]

theorem acceptPanics_iff (s : Session) (r : Ref) : s.acceptPanics r = true ↔
    ∃ l, s.snd? r = some l ∧ s.links.get l.id = none := by
  unfold acceptPanics
  cases hl : s.snd? r with
  | none => simp
  | some l => simp [Slab.contains]

/-- **C58** A session panics in two situations only: the control service accepts a sender link whose slot is gone
(session.rs:484), or a receiver link is detached by a handle under which the application's own attach of a receiver link
is still unanswered (session.rs:760). -/
theorem c58_panic {s : Session} (hs : Reachable s) (hf : HandlesFit s) (st : Step) :
    Causes s st .panic ↔
      (∃ i edit r a g l, st = .complete i edit none ∧ s.todo[i]? = some (.ctl (.attachSender r a g)) ∧
        s.snd? r = some l ∧ s.links.get l.id = none) ∨
      (∃ h e x, st = .detachReceiver h e ∧ s.links.get h.toNat = some (.rcv (.openingLocal x))) ∨
      (∃ r l x, ClosesReceiver s r st ∧ s.rcv? r = some l ∧ l.closed = false ∧
        s.links.get l.handle.toNat = some (.rcv (.openingLocal x))) := by
  rw [causes_iff hs hf _ rfl]
  constructor
  · intro h
    cases st
    case peer f => exact absurd h (peerFault_no_panic s f)
    case detachReceiver k e =>
      obtain ⟨x, hx⟩ := (opensHere_iff s k.toNat).mp (mem_if_panic.mp h)
      exact .inr (.inl ⟨k, e, x, rfl, hx⟩)
    case closeReceiver r e =>
      obtain ⟨l, x, h₁, h₂, h₃⟩ := (closePanics_iff s r).mp (mem_if_panic.mp h)
      exact .inr (.inr ⟨r, l, x, .close e, h₁, h₂, h₃⟩)
    case grant r n => exact absurd h not_mem_if_overflow
    case complete i edit e =>
      simp only [stepFault] at h
      cases ht : s.todo[i]? with
      | none => rw [ht] at h; simp at h
      | some t =>
        rw [ht] at h
        dsimp only at h
        unfold answerFault at h
        split at h
        · have h := mem_if_panic.mp h
          cases e with
          | none => simp at h
          | some e =>
            obtain ⟨l, x, h₁, h₂, h₃⟩ := (closePanics_iff s _).mp (by simpa using h)
            exact .inr (.inr ⟨_, l, x, .attach ht, h₁, h₂, h₃⟩)
        · have h := mem_if_panic.mp h
          cases e with
          | none => simp at h
          | some e =>
            obtain ⟨l, x, h₁, h₂, h₃⟩ := (closePanics_iff s _).mp (by simpa using h)
            exact .inr (.inr ⟨_, l, x, .detach ht, h₁, h₂, h₃⟩)
        · cases e with
          | none => exact absurd h not_mem_if_overflow
          | some e =>
            obtain ⟨l, x, h₁, h₂, h₃⟩ := (closePanics_iff s _).mp (mem_if_panic.mp h)
            exact .inr (.inr ⟨_, l, x, .attached ht, h₁, h₂, h₃⟩)
        · have h := mem_if_panic.mp h
          cases e with
          | none =>
            obtain ⟨l, h₁, h₂⟩ := (acceptPanics_iff s _).mp (by simpa using h)
            exact .inl ⟨i, edit, _, _, _, l, rfl, ht, h₁, h₂⟩
          | some e => simp at h
        · simp at h
    all_goals exact absurd h (by simp [stepFault])
  · rintro (⟨i, edit, r, a, g, l, rfl, ht, h₁, h₂⟩ | ⟨k, e, x, rfl, hx⟩ | ⟨r, l, x, hst, h₁, h₂, h₃⟩)
    · have := (acceptPanics_iff s r).mpr ⟨l, h₁, h₂⟩
      simp [stepFault, ht, answerFault, this]
    · have := (opensHere_iff s k.toNat).mpr ⟨x, hx⟩
      simp [stepFault, this]
    · have := (closePanics_iff s r).mpr ⟨l, x, h₁, h₂, h₃⟩
      cases hst with
      | close e => simp [stepFault, this]
      | attach ht => simp [stepFault, ht, answerFault, this]
      | attached ht => simp [stepFault, ht, answerFault, this]
      | detach ht => simp [stepFault, ht, answerFault, this]

/-- **C58** (violated) A peer brings a session to panic: it attaches a receiver and ends the session before the control
service has accepted the link. -/
theorem c58_end_then_accept :
    .panic ∈ ((start 100).run [.peer (.attach (anAttach "a" 3 .receiver)), .peer (.end_ { error := none }), pass 0]).log :=
  List.mem_of_getElem? (i := 3) rfl

/-- **C58** (violated) The same with a detach in place of the end of the session. -/
theorem c58_detach_then_accept :
    .panic ∈ ((start 100).run [.peer (.attach (anAttach "a" 3 .receiver)),
      .peer (.detach { handle := 0, closed := true, error := none }), pass 0]).log :=
  List.mem_of_getElem? (i := 2) rfl

/-- **C58** (violated) The same when the connection fails. -/
theorem c58_fail_then_accept :
    .panic ∈ ((start 100).run [.peer (.attach (anAttach "a" 3 .receiver)), .fail .disconnected, pass 0]).log :=
  List.mem_of_getElem? (i := 1) rfl

/-- **C58** (violated) Detaching a receiver link before the peer has answered its attach panics. -/
theorem c58_detach_opening :
    .panic ∈ ((start 100).run [.attachReceiver (anAttach "a" 0 .receiver), .detachReceiver 0 none]).log :=
  List.mem_of_getElem? (i := 1) rfl

/-! ## Overflows -/

/-- **C58** A counter overflows, which panics in a debug build and wraps in a release build, in two situations only: a link
is granted credit past 32 bits (by the application, or the 50 units on acceptance), or a last frame arrives on a link whose
delivery-count has reached its largest value. -/
theorem c58_overflow {s : Session} (hs : Reachable s) (hf : HandlesFit s) (st : Step) (h : Causes s st .overflow) :
    (∃ r n l, st = .grant r n ∧ s.rcv? r = some l ∧ 2 ^ 32 ≤ l.credit.toNat + n.toNat) ∨
    (∃ i edit r g l, st = .complete i edit none ∧ s.todo[i]? = some (.attached r g) ∧ s.rcv? r = some l ∧
      2 ^ 32 ≤ l.credit.toNat + 50) ∨
    (∃ t r l, st = .peer (.transfer t) ∧ t.head.more = false ∧ Addressed s t.head.handle r ∧ s.rcv? r = some l ∧
      l.credit ≠ 0 ∧ l.deliveryCount = 0xffffffff) := by
  rw [causes_iff hs hf _ rfl] at h
  have grant : ∀ r n, s.grantOverflows r n = true → ∃ l, s.rcv? r = some l ∧ 2 ^ 32 ≤ l.credit.toNat + n.toNat := by
    intro r n h
    unfold grantOverflows at h
    cases hl : s.rcv? r with
    | none => simp [hl] at h
    | some l => exact ⟨l, rfl, by simpa [hl] using h⟩
  cases st
  case peer f =>
    refine .inr (.inr ?_)
    simp only [stepFault] at h
    unfold peerFault at h
    split at h
    · next t =>
      cases he : s.error with
      | some e => simp [he] at h
      | none =>
        rw [if_neg (by simp [he])] at h
        cases hg : s.remoteHandles.get t.head.handle with
        | none => simp [hg] at h
        | some k =>
          rw [hg, Option.bind_some] at h
          split at h
          · next r hk =>
            split at h
            · next l hl =>
              have h := mem_if_overflow.mp h
              rw [Bool.and_eq_true] at h
              have hc := h.1
              unfold completes at hc
              simp only [Bool.and_eq_true, Bool.not_eq_true', bne_iff_ne, ne_eq] at hc
              refine ⟨t, r, l, rfl, hc.1.2, ⟨he, k, hf k _ hk, hg, hk⟩, hl, hc.1.1, ?_⟩
              simpa [countOverflows] using h.2
            · simp at h
          · simp at h
    · simp at h
  case grant r n =>
    obtain ⟨l, h₁, h₂⟩ := grant r n (mem_if_overflow.mp h)
    exact .inl ⟨r, n, l, rfl, h₁, h₂⟩
  case complete i edit e =>
    simp only [stepFault] at h
    cases ht : s.todo[i]? with
    | none => rw [ht] at h; simp at h
    | some t =>
      rw [ht] at h
      dsimp only at h
      unfold answerFault at h
      split at h
      · exact absurd h not_mem_if_panic
      · exact absurd h not_mem_if_panic
      · cases e with
        | none =>
          obtain ⟨l, h₁, h₂⟩ := grant _ 50 (mem_if_overflow.mp h)
          exact .inr (.inl ⟨i, edit, _, _, l, rfl, ht, h₁, h₂⟩)
        | some e => exact absurd h not_mem_if_panic
      · exact absurd h not_mem_if_panic
      · simp at h
  case closeReceiver => exact absurd h not_mem_if_panic
  case detachReceiver => exact absurd h not_mem_if_panic
  all_goals exact absurd h (by simp [stepFault])

/-- **C58** While the credit granted to a link, in all its life, stays below 2³², granting it overflows nothing. -/
theorem c58_grant {s : Session} (hs : Reachable s) (hf : HandlesFit s) (r : Ref) (n : UInt32)
    (hb : grantedOn r s.log + n.toNat < 2 ^ 32) : ¬ Causes s (.grant r n) .overflow := by
  intro h
  rcases c58_overflow hs hf _ h with ⟨r', n', l, he, hl, hc⟩ | ⟨_, _, _, _, _, he, _⟩ | ⟨_, _, _, he, _⟩
  · cases he
    have h₁ := creditLeft_bound s.log (fun pre t post h' => hs.creditGuard pre r t post h') (by omega)
    have h₂ := hs.creditKept r
    rw [hl] at h₂
    simp only [Option.map_some, Option.getD_some] at h₂
    rw [h₂] at h₁
    omega
  · cases he
  · cases he

example : ∃ s : Session, Reachable s ∧ (s.rcv? 0).isSome ∧ grantedOn 0 s.log + (10 : UInt32).toNat < 2 ^ 32 :=
  ⟨(start 100).run attachRcv, reachable _ _ _, rfl, by decide⟩

/-- The peer attaches a sender with the largest initial delivery-count, and both services accept the link. -/
def lastCount : List Step :=
  [.peer (.attach { anAttach "q" 5 .sender with initialDeliveryCount := some 0xffffffff }), pass 0, pass 0]

/-- **C58** (violated) One message overflows the delivery-count of a link if the peer has chosen its initial value so. -/
theorem c58_count_overflows : .overflow ∈ ((start 100).run (lastCount ++ transfers [aTransfer 5 (some 0) false [1]])).log :=
  List.mem_of_getElem? (i := 6) rfl

/-- **C58** (violated) Two grants overflow the credit of a link. -/
theorem c58_credit_overflows : .overflow ∈ ((start 100).run (attachRcv ++ [.grant 0 0xffffffff])).log :=
  List.mem_of_getElem? (i := 5) rfl

end Amqp.Rt
