import Verif.Props.Serve
import Verif.Lemmas.Defaults
/-!
# C78: control services that answer at once

The default control service, and the one of `Client::start_default`, answer every call immediately and change nothing
(default.rs:64-73, client/connection.rs:64-73).
-/

namespace Amqp.Rt
open Session Examples Serve

/-- **C78** When every call is answered at once, a poll answers all of them, the first one first and then from the last to
the second, and none is left; this is the exact order, of which C71 says that it is not that of the calls.  Except: -/
theorem c78_order {ready : Nat → Option Answer} (hi : Instant ready) (d : Disp)
    (he : ∀ p ∈ (d.advance .poll).futs, p.2.isError = false) :
    (d.step (.poll ready)).answered = d.answered ++ backwards ((d.advance .poll).futs.map Prod.fst) ∧
    (d.step (.poll ready)).futs = [] ∧ (d.step (.poll ready)).error = d.error := by
  rcases Disp.pollFrom_instant hi _ (d.advance .poll) (Nat.le_refl _) with ⟨_, h2, h3, h4⟩ | ⟨l₁, id, e, l₂, h1, _⟩
  · exact ⟨h4, h2, h3⟩
  · have := he (id, .protocolError e) ((backwards_perm _).mem_iff.1 (by rw [h1]; simp))
    cases this

/-- **C78** at the first protocol error in that order the poll ends; the calls behind it are not answered, and the dispatcher
has the error. -/
theorem c78_until_error {ready : Nat → Option Answer} (hi : Instant ready) (d : Disp) {p : Nat × Call}
    (hp : p ∈ (d.advance .poll).futs) (he : p.2.isError = true) :
    ∃ l₁ id e l₂, backwards (d.advance .poll).futs = l₁ ++ (id, .protocolError e) :: l₂ ∧ (∀ p ∈ l₁, p.2.isError = false) ∧
      (d.step (.poll ready)).error = some e ∧
      (d.step (.poll ready)).answered = d.answered ++ l₁.map Prod.fst ++ [id] ∧
      (backwards (d.step (.poll ready)).futs).map Prod.fst = l₂.map Prod.fst := by
  rcases Disp.pollFrom_instant hi _ (d.advance .poll) (Nat.le_refl _) with ⟨h1, _⟩ | h
  · rw [h1 p hp] at he; cases he
  · exact h

/-- **C78** No control call closes the connection, whatever the services answer and whenever they do: as long as neither side
closes, the transport reports no error and the services are ready, no `Close` is sent, and the dispatcher does not stop
except for a frame it refuses. -/
theorem c78_not_closed (cfg : ConnCfg) (steps : List SStep) (hq : ∀ st ∈ steps, st.Quiet) :
    closesIn ((new cfg).run steps).disp.conn.log = [] ∧ ((new cfg).run steps).disp.error = none ∧
    (((new cfg).run steps).stopped = none ∨ ∃ e, ((new cfg).run steps).stopped = some (.refused e)) := by
  obtain ⟨h1, h2, h3⟩ := quiet_run cfg steps hq
  refine ⟨h3, h1.error, ?_⟩
  generalize ((new cfg).run steps).stopped = w at h2
  rcases w with _ | (e | e | e)
  · exact .inl rfl
  · cases h2
  · cases h2
  · exact .inr ⟨e, rfl⟩

/-- A peer that attaches a sender to a client with the default services, and sends it a message. -/
def uninvited : List SStep :=
  [.ready .ready .ready, .disp (.recv 4 (.begin_ (aBegin 10))), .disp (.recv 4 (.attach (anAttach "a" 0 .sender))), .disp (.poll passAll),
   .disp (.attached 0 0 ⟨fun a => a, none⟩), .disp (.recv 4 (.transfer (aTransfer 0 (some 0) false [1]))), .disp (.poll passAll), .ready .ready .ready]

/-- What is posted, by kind: 0 begin, 1 attach, 2 flow, 3 disposition, 4 anything else. -/
def kinds (c : Conn) : List Nat := c.wire.map fun p => match p.2 with
  | .begin_ _ => 0
  | .attach _ => 1
  | .flow _ => 2
  | .disposition _ => 3
  | _ => 4

/-- **C78** Violated: "Default handler closes connection on any control message" (client/connection.rs:61-63).  It does not: the
link is attached and given credit, the message is taken in, and nobody ever looks at it or settles it. -/
theorem c78_default_accepts : let σ := (new aCfg).run uninvited
    kinds σ.disp.conn = [0, 1, 2] ∧ closesIn σ.disp.conn.log = [] ∧ σ.stopped.isNone ∧
    (σ.disp.conn.obj? 0).map (fun x => x.rcvs.map fun l => (l.closed, l.credit, l.queue.length)) = some [(false, 49, 1)] := by
  refine ⟨by decide +kernel, List.eq_nil_of_length_eq_zero (by decide +kernel), by decide +kernel, by decide +kernel⟩

/-- The default services are instant, and that execution is quiet. -/
example : Instant passAll ∧ ∀ st ∈ uninvited, st.Quiet := by
  refine ⟨fun _ => rfl, ?_⟩
  intro st hst
  simp only [uninvited, List.mem_cons, List.not_mem_nil, or_false] at hst
  rcases hst with rfl | rfl | rfl | rfl | rfl | rfl | rfl | rfl
  · exact ⟨fun _ h => (nomatch h), fun _ h => (nomatch h)⟩
  all_goals first | trivial | exact ⟨fun _ h => (nomatch h), fun _ h => (nomatch h)⟩

/-- Four calls at once: the last three are answered in reverse. -/
example : (flowsDemo [1, 2, 3, 4]).answered = [0, 1, 4, 3, 2] := by decide +kernel

/-- A protocol error among three calls: what is behind it waits. -/
example : let d := (Disp.new aCfg).run ([.recv 4 (.begin_ (aBegin 10)), .recv 4 (.attach (anAttach "a" 0 .receiver)),
      .own (.stop (some .keepAliveTimeout)), .own (.stop none), .poll passAll])
    d.answered = [0, 2, 1] ∧ d.futs.length = 0 ∧ d.error.isSome := by decide +kernel

end Amqp.Rt
