import Verif.Lemmas.Tending
import Verif.Props.Dispatcher
/-!
# C84: nothing the control service is to see waits while the dispatcher sleeps

The task that polls the dispatcher runs when somebody who has its waker uses it.  The control queue has one and so have the
calls of the control service that were found unanswered.
-/

namespace Amqp.Rt
open Session Examples

/-- **C84** While the task sleeps the control queue is empty: whatever was to be shown to the control service has been. -/
theorem c84_queue_empty {t : Tended} (h : t.Reachable) (hs : t.woken = false) : t.disp.conn.queue = [] := h.inv.queue hs

/-- **C84** While the task sleeps no call of the control service is both answered and not acted upon, unless the dispatcher
has stopped with an error. -/
theorem c84_none_answered_partial {t : Tended} (h : t.Reachable) (hs : t.woken = false) (he : t.disp.error = none) {id : Nat}
    {k : Call} (hk : (id, k) ∈ t.disp.futs) : t.answers id = none :=
  (h.inv.calls hs he id (List.mem_map_of_mem hk)).2

/-- **C84** When a call is answered the task is woken, unless the dispatcher has stopped with an error. -/
theorem c84_answer_wakes_partial {t : Tended} (h : t.Reachable) (he : t.disp.error = none) {id : Nat} {k : Call}
    (hk : (id, k) ∈ t.disp.futs) (hn : t.answers id = none) (a : Answer) :
    (t.step (.answer id a)).woken = true ∧ (t.step (.answer id a)).answers id = some a := by
  have hlt := h.disp.inv.lt (id, k) hk
  simp only [Tended.step, Tended.answer, hlt, hn, Option.isNone_none, and_self, if_true, and_true]
  cases hw : t.woken with
  | true => rfl
  | false => rw [(h.inv.calls hw he id (List.mem_map_of_mem hk)).1]; rfl

/-- **C84** When a frame of the peer or an act of the application makes a call of the control service, or puts a frame into
the control queue, the task is woken. -/
theorem c84_call_wakes {t : Tended} (h : t.Reachable) (st : DStep) (hp : ∀ r, st ≠ .poll r)
    (hg : t.disp.calls < (t.disp.step st).calls ∨ t.disp.conn.queue.length < (t.disp.step st).conn.queue.length) :
    (t.step (.disp st)).woken = true := by
  have : (t.act st).woken = true := by
    simp only [Tended.act, hg, if_true]
    exact Tended.wake_woken (t := { t with disp := t.disp.step st }) h.inv.ready
  cases st with
  | poll r => exact absurd rfl (hp r)
  | recv | own | attached | shutdown => exact this

/-- **C84** When the task runs, every answer given so far takes effect, unless one of them was about a protocol error: then
the dispatcher stops with that error. -/
theorem c84_run_attends (t : Tended) {id : Nat} {k : Call} (hk : (id, k) ∈ t.disp.futs) (ha : (t.answers id).isSome) :
    id ∈ (t.step .poll).disp.answered ∨ (t.step .poll).disp.error.isSome := by
  have hd : (t.step .poll).disp = t.disp.step (.poll t.answers) := by
    simp only [Tended.step, Tended.poll, Tended.wake]
    split <;> rfl
  rw [hd]
  obtain ⟨l, h1, h2, _, h4⟩ := c71_poll t.disp t.answers
  rcases h4 with h4 | ⟨_, e, _, _, h5, _⟩
  · left
    have hin : id ∈ (t.disp.advance .poll).futs.map Prod.fst := by
      simp only [Disp.advance, List.map_append]
      exact List.mem_append_left _ (List.mem_map_of_mem hk)
    rcases List.mem_append.1 (h2.mem_iff.1 hin) with h | h
    · rw [h1]; exact List.mem_append_right _ h
    · obtain ⟨p, hp, rfl⟩ := List.mem_map.1 h
      rw [h4 p hp] at ha
      cases ha
  · right; rw [h5]; rfl

/-- **C84** The dispatcher is one of C71, polled when its task runs. -/
theorem c84_is_dispatcher {t : Tended} (h : t.Reachable) : t.disp.Reachable := h.disp

namespace Examples

def letPass : Answer := ⟨fun a => a, none⟩

/-- The peer attaches a receiver, states its credit and closes the connection; the service answers all three calls. -/
def shutting : List TStep :=
  [.poll, .disp (.recv 4 (.begin_ (aBegin 10))), .disp (.recv 4 (.attach (anAttach "a" 0 .receiver))), .poll, .answer 0 letPass,
   .poll, .disp (.recv 4 (.flow (aFlow (some 0) (some 0) (some 5) (some 0) 10))),
   .disp (.recv 4 (.flow (aFlow (some 0) (some 0) (some 6) (some 0) 10))), .disp (.recv 0 (.close ⟨none⟩))]

def shutDemo (more : List TStep) : Tended := (Tended.new aCfg).run (shutting ++ more)

end Examples

/-- **C84** Violated: after a poll that ends with a protocol error, calls that were answered wait while the task sleeps, and
the dispatcher's error waits with them.  `ctl_error_waker` is woken but no task is ever registered with it. -/
theorem c84_left_by_error : ∃ t : Tended, t.Reachable ∧ t.woken = false ∧ t.disp.error.isSome ∧
    ∃ id ∈ t.disp.futs.map Prod.fst, (t.answers id).isSome :=
  ⟨shutDemo [.answer 1 letPass, .answer 2 letPass, .answer 3 letPass, .poll], ⟨_, _, rfl⟩, by decide +kernel, by decide +kernel,
    2, by decide +kernel, by decide +kernel⟩

/-- **C84** Violated: a call whose future the poll did not reach has no waker, so that its answer wakes nobody. -/
theorem c84_answer_unheard : ∃ (t : Tended) (id : Nat) (a : Answer), t.Reachable ∧ t.woken = false ∧
    id ∈ t.disp.futs.map Prod.fst ∧ t.answers id = none ∧ (t.step (.answer id a)).woken = false :=
  ⟨shutDemo [.answer 1 letPass, .answer 3 letPass, .poll], 2, letPass, ⟨_, _, rfl⟩, by decide +kernel, by decide +kernel,
    rfl, by decide +kernel⟩

/-- A task that sleeps with a call outstanding, and is woken by its answer. -/
example : let t := (Tended.new aCfg).run (shutting.take 4)
    t.Reachable ∧ t.woken = false ∧ t.disp.error.isNone ∧ t.disp.futs.map Prod.fst = [0] ∧ t.answers 0 = none ∧
    (t.step (.answer 0 letPass)).woken = true :=
  ⟨⟨_, _, rfl⟩, by decide +kernel, by decide +kernel, by decide +kernel, rfl, by decide +kernel⟩

/-- A frame that makes a call. -/
example : let t := (Tended.new aCfg).run (shutting.take 2)
    t.woken = false ∧ t.disp.calls < (t.disp.step (.recv 4 (.attach (anAttach "a" 0 .receiver)))).calls := by
  decide +kernel

end Amqp.Rt
