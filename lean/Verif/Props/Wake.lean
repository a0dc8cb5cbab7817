import Verif.Lemmas.SessionSleep
import Verif.Spec.Examples
/-!
# C81: a task that sleeps on a receiver link has nothing to read
-/

namespace Amqp.Rt
open Session Examples

/-- The tasks do not change what the session does. -/
theorem c81_same_session (s : Session) (steps : List (Nat × Step)) :
    ((Readers.new s).run steps).sess = s.run (steps.map Prod.snd) := Readers.run_sess _ _

/-- **C81** Whatever the peer, the services and the application do, a task that waits in `ReceiverLink::recv` and has not
been woken has nothing to read: its link is open and holds no complete message.  And the link has its waker, so it is the
task that is woken next.  This is for links read by one task each, and for executions in which no link is dropped from
the table by something that is not about that link. -/
theorem c81_asleep_nothing_partial {s : Session} (hs : Fresh s) {steps : List (Nat × Step)} (h1 : OneReader steps)
    (h2 : ReadsHanded s steps) (h3 : NoOrphans s steps) {r : Ref} {k : Nat} (hm : (r, k) ∈ ((Readers.new s).run steps).asleep) :
    ((Readers.new s).run steps).waker r = some k ∧
      ∃ l, ((Readers.new s).run steps).sess.rcv? r = some l ∧ ¬ l.Readable := by
  have h := Readers.Inv.run (own := fun r k => (k, Step.recv r) ∈ steps) (fun r k k' a b => h1 k k' r a b) steps
    (w := Readers.new s) ⟨⟨s, [], hs, rfl⟩, fun x hx => by cases hx⟩ (fun k r h => h) h2 h3
  obtain ⟨_, hw, hi, _⟩ := h.2 _ hm
  exact ⟨hw, hi.not_readable⟩

/-- **C81** So a task sleeps only as long as it must: a step that brings the link something wakes it. -/
theorem c81_woken_partial {s : Session} (hs : Fresh s) {steps : List (Nat × Step)} {task : Nat} {st : Step}
    (h1 : OneReader (steps ++ [(task, st)])) (h2 : ReadsHanded s (steps ++ [(task, st)]))
    (h3 : NoOrphans s (steps ++ [(task, st)])) {r : Ref} {l : Rcv}
    (hl : ((s.run (steps.map Prod.snd)).step st).rcv? r = some l) (hr : l.Readable) (k : Nat) :
    (r, k) ∉ ((Readers.new s).run (steps ++ [(task, st)])).asleep := by
  intro hm
  obtain ⟨_, l', hl', hn⟩ := c81_asleep_nothing_partial hs h1 h2 h3 hm
  rw [c81_same_session] at hl'
  have : s.run ((steps ++ [(task, st)]).map Prod.snd) = (s.run (steps.map Prod.snd)).step st := by
    simp [Session.run, List.foldl_append]
  rw [this, hl] at hl'
  cases hl'
  exact hn hr

/-- A link the application asked for; the peer answers under its handle 7, and credit is granted. -/
def readOne : List Step :=
  [.attachReceiver (anAttach "a" 0 .receiver), .peer (.attach (anAttach "a" 7 .sender)), .grant 0 5]

/-- Steps made by one task. -/
def byTask (k : Nat) (steps : List Step) : List (Nat × Step) := steps.map fun st => (k, st)

def aMessage (id : UInt32) (more : Bool) : Transfer :=
  { head := { emptyTransfer with handle := 7, deliveryId := some id, deliveryTag := some [1], more }, body := some (.data [5]) }

/-- Task 3 waits for a message; the first half of one does not wake it, the second does. -/
example :
    let w := (Readers.new (start 10)).run (byTask 3 (readOne ++ [.recv 0]))
    let w' := w.run [(0, .peer (.transfer (aMessage 0 true)))]
    let w'' := w'.run [(0, .peer (.transfer (aMessage 0 false)))]
    w.asleep = [(0, 3)] ∧ w'.asleep = [(0, 3)] ∧ w''.asleep = [] := by decide +kernel

/-- The theorem speaks about that execution. -/
example : Fresh (start 10) ∧ OneReader (byTask 3 (readOne ++ [.recv 0])) ∧ ReadsHanded (start 10) (byTask 3 (readOne ++ [.recv 0])) ∧
    NoOrphans (start 10) (byTask 3 (readOne ++ [.recv 0])) := by
  refine ⟨⟨0, true, 65535, 0, aBegin 10, rfl⟩, ?_, ?_, ?_⟩
  · intro k k' r h h'
    obtain ⟨_, _, h⟩ := List.mem_map.mp h
    obtain ⟨_, _, h'⟩ := List.mem_map.mp h'
    injection h with h
    injection h' with h'
    rw [← h, ← h']
  · refine ⟨(fun r h => by cases h), (fun r h => by cases h), (fun r h => by cases h), ?_, trivial⟩
    rintro r h
    cases h
    refine ⟨by decide +kernel, ?_⟩
    intro k op hk
    have hl : ((((start 10).step (.attachReceiver (anAttach "a" 0 .receiver))).step
        (.peer (.attach (anAttach "a" 7 .sender)))).step (.grant 0 5)).links = ⟨[some (.rcv (.established 0))], []⟩ := by rfl
    replace hk : (((((start 10).step (.attachReceiver (anAttach "a" 0 .receiver))).step
        (.peer (.attach (anAttach "a" 7 .sender)))).step (.grant 0 5)).links).get k = _ := hk
    rw [hl] at hk
    match k with
    | 0 => cases hk
    | k + 1 => cases hk
  · refine ⟨?_, ?_, ?_, ?_, trivial⟩ <;>
      · rintro r ⟨k, _, ⟨_, _, h, _⟩ | ⟨_, _, _, _, _, _, _, h, _⟩ | ⟨r', _, _, h, _⟩⟩
        · cases h
        · cases h
        · exact absurd h (by simp [wakes])

/-- **C81** Violated: `Session::detach_receiver_link` drops the link from the table, which closes it without waking its
reader.  The reader has news and sleeps. -/
theorem c81_detach_sleeps :
    ∃ w : Readers, w = (Readers.new (start 10)).run (byTask 3 (readOne ++ [.recv 0, .detachReceiver 0 none])) ∧
      w.asleep = [(0, 3)] ∧ w.sess.Gone 0 ∧ ∃ l, w.sess.rcv? 0 = some l ∧ l.Readable := by
  refine ⟨_, rfl, by decide +kernel, ⟨by decide +kernel, ?_⟩, ?_⟩
  rotate_left
  · have h : (((Readers.new (start 10)).run (byTask 3 (readOne ++ [.recv 0, .detachReceiver 0 none]))).sess.rcv? 0).map Rcv.closed
        = some true := by decide +kernel
    obtain ⟨l, hl, hc⟩ := Option.map_eq_some_iff.mp h
    exact ⟨l, hl, .inl hc⟩
  intro k x hk
  have hl : ((Readers.new (start 10)).run (byTask 3 (readOne ++ [.recv 0, .detachReceiver 0 none]))).sess.links
      = ⟨[some (.rcv (.closing (some 1)))], []⟩ := by rfl
  rw [hl] at hk
  match k with
  | 0 => cases hk; exact fun h => by cases h
  | k + 1 => cases hk

/-- **C81** Such a reader sleeps for ever: the answer of the peer, the end of the session and the failure of the connection
do not wake it.  Only the application can, by polling the link or closing it. -/
theorem c81_sleeps_for_ever {w : Readers} (hs : w.sess.Reachable) {r : Ref} (hg : w.sess.Gone r) {k : Nat} (hm : (r, k) ∈ w.asleep)
    (steps : List (Nat × Step))
    (h1 : ∀ x ∈ steps, x.2 ≠ .recv r ∧ (∀ e, x.2 ≠ .closeReceiver r e) ∧ ∀ i edit e, x.2 ≠ .complete i edit (some e)) :
    (r, k) ∈ (w.run steps).asleep := by
  induction steps generalizing w with
  | nil => exact hm
  | cons x xs ih =>
    have hx := h1 x (.head _)
    have hnw := hg.not_woken hx.2.1 hx.2.2
    refine ih (w := w.step x.1 x.2) (by rw [Readers.step_sess]; exact Conn.Session_reachable_step hs _) (by rw [Readers.step_sess]; exact gone_step hs hg _)
      ?_ fun y hy => h1 y (.tail _ hy)
    have hf : (r, k) ∈ w.asleep.filter fun y => !(decide (y.1 ∈ w.sess.wakes x.2) && decide (w.waker y.1 = some y.2)) :=
      List.mem_filter.mpr ⟨hm, by simp [hnw]⟩
    by_cases hr : ∃ r', x.2 = .recv r'
    · obtain ⟨r', hr'⟩ := hr
      have hne : r ≠ r' := fun h => hx.1 (by rw [hr', h])
      rw [hr'] at hf ⊢
      unfold Readers.step
      dsimp only
      split
      · exact .tail _ hf
      · exact List.mem_filter.mpr ⟨hf, by simp [hne]⟩
    · rw [Readers.step_other fun r' h => hr ⟨r', h⟩]
      exact hf

/-- **C81** Two tasks on one link: the link remembers the last to poll, so the other sleeps on while there is a message. -/
theorem c81_two_readers :
    let w := (Readers.new (start 10)).run (byTask 0 readOne ++
      [(3, .recv 0), (4, .recv 0), (0, .peer (.transfer (aMessage 0 false)))])
    w.asleep = [(0, 3)] ∧ ∃ l, w.sess.rcv? 0 = some l ∧ l.Readable := by
  refine ⟨by decide +kernel, ?_⟩
  have h : (((Readers.new (start 10)).run (byTask 0 readOne ++
      [(3, .recv 0), (4, .recv 0), (0, .peer (.transfer (aMessage 0 false)))])).sess.rcv? 0).map
        (fun l => (l.queue.length, l.partialBody.isSome)) = some (1, false) := by decide +kernel
  obtain ⟨l, hl, hc⟩ := Option.map_eq_some_iff.mp h
  injection hc with hq hp
  refine ⟨l, hl, .inr ⟨?_, ?_⟩⟩
  · intro h; rw [h] at hq; simp at hq
  · rw [hp]; simp

end Amqp.Rt
