import Verif.Lemmas.CreditWait
import Verif.Props.Connections
import Verif.Spec.Examples
/-!
# C85: a task that waits for credit has none
-/

namespace Amqp.Rt
open Session Examples

/-- **C85** Whatever the peer, the services and the application do, a task that waits in `SenderLink::ready` and has not been
woken must wait: its link is open and has no credit.  Any number of tasks may wait on a link. -/
theorem c85_asleep {w : Senders} (h : w.Reachable) {r : Ref} {k : Nat} (hm : (r, k) ∈ w.asleep) :
    ∃ l, w.sess.snd? r = some l ∧ l.closed = false ∧ l.linkCredit = 0 := h.inv (r, k) hm

/-- **C85** So a step that leaves the link closed, or with credit, wakes every task that waits on it. -/
theorem c85_woken {w : Senders} (h : w.Reachable) (st : Step) {r : Ref} {l : Snd} (hl : (w.sess.step st).snd? r = some l)
    (hr : l.closed = true ∨ l.linkCredit ≠ 0) (k : Nat) : (r, k) ∉ (w.step (.sess st)).asleep := by
  intro hm
  obtain ⟨l', h1, h2, h3⟩ := c85_asleep (h.step (.sess st)) hm
  have : (w.sess.step st).snd? r = some l' := h1
  rw [hl] at this
  cases this
  rcases hr with hr | hr
  · rw [h2] at hr; cases hr
  · exact hr h3

/-- **C85** `ready` answers `true` when the link is open and has credit, `false` when it is closed, and only then. -/
theorem c85_answer (s : Session) (r : Ref) (b : Bool) :
    s.readyNow r = some b ↔ ∃ l, s.snd? r = some l ∧
      (b = true ∧ l.closed = false ∧ l.linkCredit ≠ 0 ∨ b = false ∧ l.closed = true) := by
  unfold readyNow
  cases s.snd? r with
  | none => simp
  | some l =>
    cases hc : l.closed <;> by_cases h0 : l.linkCredit = 0 <;> cases b <;> simp [h0, hc]

/-- **C85** The failure of the connection wakes the tasks that wait on a link that is established, and they are told `false`.
Missing: links the control service has not accepted yet, for which it does not (`c85_unaccepted_sleeps`). -/
theorem c85_failure_partial {w : Senders} (h : w.Reachable) {r : Ref} (hr : w.sess.Sends r) (e : PErr) (k : Nat) :
    (r, k) ∉ (w.step (.sess (.fail e))).asleep ∧
      ∀ b, (w.step (.sess (.fail e))).sess.readyNow r = some b → b = false := by
  constructor
  · intro hm
    obtain ⟨l, h1, h2, _⟩ := c85_asleep (h.step (.sess (.fail e))) hm
    rw [(setError_snd w.sess e r hr l h1).2] at h2
    cases h2
  · intro b hb
    obtain ⟨l, h1, h2⟩ := (c85_answer _ _ _).1 hb
    rcases h2 with ⟨_, h2, _⟩ | ⟨h2, _⟩
    · rw [(setError_snd w.sess e r hr l h1).2] at h2
      cases h2
    · exact h2

/-- **C85** The tasks do not change what the session does: the steps of the session are all there is. -/
theorem c85_same_session (s : Session) (steps : List CreditStep) :
    ((Senders.new s).run steps).sess =
      s.run (steps.filterMap fun | .sess st => some st | _ => none) := by
  suffices ∀ w : Senders, (w.run steps).sess = w.sess.run (steps.filterMap fun | .sess st => some st | _ => none) from this _
  induction steps with
  | nil => exact fun _ => rfl
  | cons st steps ih =>
    intro w
    rw [Senders.run, List.foldl_cons, ← Senders.run, ih]
    cases st with
    | sess st => rfl
    | ready r k => simp only [Senders.step]; split <;> rfl
    | cancel r k => rfl

namespace Examples

/-- The peer asks for a link, and the application has task 3 wait for credit on it. -/
def awaiting : List CreditStep := [.sess (.peer (.attach (anAttach "a" 5 .receiver))), .ready 0 3]

def awaitingDemo (more : List CreditStep) : Senders := (Senders.new (start 10)).run (awaiting ++ more)

theorem awaitingDemo_reachable (more : List CreditStep) : (awaitingDemo more).Reachable :=
  ⟨_, _, ⟨0, true, 65535, 0, aBegin 10, rfl⟩, rfl⟩

end Examples

/-- **C85** Violated: a task that waits on a link the control service has not answered about sleeps on when the connection
fails, and when the answer comes.  The link stays open: `is_closed` is false for ever after. -/
theorem c85_unaccepted_sleeps : ∃ w : Senders, w.Reachable ∧ w.sess.error.isSome ∧ w.sess.todo.isEmpty ∧ w.asleep = [(0, 3)] ∧
    (w.sess.snd? 0).map Snd.closed = some false :=
  ⟨awaitingDemo [.sess (.fail .disconnected), .sess (.complete 0 id none)], awaitingDemo_reachable _,
    by decide +kernel, by decide +kernel, by decide +kernel, by decide +kernel⟩

/-- **C85** Violated: neither does it wake when the control service refuses the link, although the peer is told that it is
closed. -/
theorem c85_refused_sleeps (e : Error) : ∃ w : Senders, w.Reachable ∧ w.asleep = [(0, 3)] ∧ w.sess.links.values.isEmpty ∧
    w.sess.todo.isEmpty ∧ (w.sess.snd? 0).map Snd.closed = some false ∧
    w.sess.log.getLast? = some (.frame (.detach ⟨0, true, some e⟩)) :=
  ⟨awaitingDemo [.sess (.complete 0 id (some e))], awaitingDemo_reachable _, rfl, rfl, rfl, rfl, rfl⟩

/-- Two tasks wait; one flow frame wakes both, and the one that comes second, when the credit is used, waits again. -/
example :
    let w := awaitingDemo [.ready 0 4, .sess (.complete 0 id none),
      .sess (.peer (.flow (aFlow (some 5) (some 0) (some 1) (some 0) 10)))]
    let w' := w.run [.sess (.complete 0 id none)]
    w.asleep = [(0, 4), (0, 3)] ∧ w'.asleep = [] ∧ w'.sess.readyNow 0 = some true ∧
    (w'.run [.sess (.send (aSend 0 [1] true)), .ready 0 4]).asleep = [(0, 4)] ∧ w'.sess.Sends 0 := by
  refine ⟨by decide +kernel, by decide +kernel, by decide +kernel, by decide +kernel, 0, ?_⟩
  rfl

end Amqp.Rt
