import Verif.Props.Dispatcher
import Verif.Lemmas.Serve
/-!
# C77: how a connection is closed

A `Close` of the peer is answered, a failure of the application's services is reported.  Every `Close` posted has one of
three causes, so it can be counted; counting shows that the peer may get two of them, or none.
-/

namespace Amqp.Rt
open Session Examples Serve

/-- **C77** What the dispatcher does as a service, its parts can do: the results about the dispatcher (C71) and about
connections hold. -/
theorem c77_is_dispatcher {σ : Serve} (h : σ.Reachable) : σ.disp.Reachable ∧ σ.disp.conn.Reachable := ⟨h.disp, h.conn⟩

/-- **C77** A `Close` of the peer is answered at once by one `Close`, no matter what else is going on; nothing else is sent.
The connection has an error from then on, all sessions are gone, and the control service is told what the peer said. -/
theorem c77_peer_close_answered {σ : Serve} (h : σ.Reachable) (hs : σ.stopped = none) (ch : UInt16) (cl : Close) :
    let τ := σ.step (.disp (.recv ch (.close cl)))
    τ.disp.conn.wire = σ.disp.conn.wire ++ [(0, .close { error := none })] ∧
    τ.disp.conn.error = some (σ.disp.conn.error.getD (.closed cl.error)) ∧ τ.disp.conn.sessions = .empty ∧
    τ.disp.conn.log.getLast? = some (.called (.protocolError (.closed cl.error))) := by
  have hd : (σ.step (.disp (.recv ch (.close cl)))).disp.conn = σ.disp.conn.step (.recv ch (.close cl)) := by
    show (if σ.stopped.isSome then σ else σ.call ch (.close cl)).disp.conn = _
    rw [hs]; rfl
  obtain ⟨h1, h2, h3, _, h5⟩ := σ.disp.conn.peerClose h.conn.not_closing ch cl
  intro τ
  have hd : τ.disp.conn = _ := hd
  rw [hd]
  exact ⟨h1, h2, h3, h5⟩

/-- **C77** Each `Close` posted answers one of the peer's, or is the application's, or is the dispatcher's last word: as many
are posted as these are together. -/
theorem c77_close_count (cfg : ConnCfg) (steps : List SStep) :
    let σ := (new cfg).run steps
    (closesIn σ.disp.conn.log).length =
      (peerCloses σ.disp.conn.log).length + (steps.filter SStep.closes).length + Stopped.closes σ.stopped := by
  induction steps using List.reverseRecOn with
  | nil => rfl
  | append_singleton steps st ih =>
    have hr : ((new cfg).run steps).Reachable := ⟨cfg, steps, rfl⟩
    have := step_closes hr.conn.not_closing st
    dsimp only at *
    rw [run_snoc, List.filter_append, List.length_append]
    cases hc : st.closes with
    | true =>
      rw [List.filter_cons_of_pos hc, List.filter_nil, List.length_singleton]
      rw [hc, if_pos rfl] at this
      omega
    | false =>
      rw [List.filter_cons_of_neg (by simp [hc]), List.filter_nil, List.length_nil]
      rw [hc, if_neg (by simp)] at this
      omega

/-- **C77** If the publish service fails its readiness check, the peer is told so by a `Close` with the error of the service,
and the dispatcher stops; likewise for the control service. -/
theorem c77_error_reported (σ : Serve) (hs : σ.stopped = none) (he : σ.disp.error = none) (e : Error) (p c : Readiness)
    (h : p = .failed e ∨ c = .failed e ∧ ∀ e', p ≠ .failed e') :
    (σ.step (.ready p c)).disp.conn.wire = σ.disp.conn.wire ++ [(0, .close { error := some e })] ∧
    (σ.step (.ready p c)).stopped = some (.service e) := by
  rw [step_ready, hs, if_neg (by simp)]
  unfold ready
  rw [he]
  rcases h with rfl | ⟨rfl, h⟩
  · exact ⟨Conn.wire_close .., rfl⟩
  · cases p
    case failed e' => exact absurd rfl (h e')
    all_goals exact ⟨Conn.wire_close .., rfl⟩

/-- **C77** While nothing is wrong, being asked whether it is ready changes nothing. -/
theorem c77_ready_idle (σ : Serve) (he : σ.disp.error = none) (p c : Readiness) (hp : ∀ e, p ≠ .failed e) (hc : ∀ e, c ≠ .failed e) :
    σ.step (.ready p c) = σ := by
  rw [step_ready]
  split
  · rfl
  · unfold ready
    rw [he]
    cases p <;> first | exact absurd rfl (hp _) | (cases c <;> first | exact absurd rfl (hc _) | rfl)

/-- **C77** Once stopped, for good: the dispatcher takes no frame, and posts no `Close`; only the application still can. -/
theorem c77_stopped_for_good {σ : Serve} (h : σ.Reachable) {w : Stopped} (hs : σ.stopped = some w) (steps : List SStep) :
    (σ.run steps).stopped = some w ∧ ((∀ st ∈ steps, st.closes = false) →
      closesIn (σ.run steps).disp.conn.log = closesIn σ.disp.conn.log) := by
  refine ⟨run_stopped hs steps, fun hn => ?_⟩
  induction steps generalizing σ with
  | nil => rfl
  | cons st l ih =>
    show closesIn ((σ.step st).run l).disp.conn.log = _
    rw [ih (h.step st) (step_stopped hs st) fun s hm => hn s (List.mem_cons_of_mem _ hm),
      stopped_closes h.conn.not_closing hs (hn st List.mem_cons_self)]

/-! ## Violations -/

/-- The peer closes the connection, the control service is called and answers. -/
def closedByPeer : List SStep :=
  [.disp (.recv 4 (.begin_ (aBegin 10))), .disp (.recv 0 (.close { error := none })), .disp (.poll passAll)]

/-- **C77** Violated: the peer's `Close` is answered twice.  `handle_frame` answers it (connection.rs:369-370), and when the
control service has answered the call about it the next readiness check posts another (dispatcher.rs:69-73). -/
theorem c77_answered_twice : let σ := (new aCfg).run (closedByPeer ++ [.ready .ready .ready])
    σ.disp.conn.wire.map (fun p => match p.2 with | .close c => some c.error.isNone | _ => none) = [none, some true, some true] ∧
    (peerCloses σ.disp.conn.log).length = 1 := by decide +kernel

/-- A frame on a channel without session. -/
def stray : SStep := .disp (.recv 9 (.end_ { error := none }))

/-- **C77** Violated: a peer whose frame is refused is not told: the dispatcher stops without `Close` (dispatcher.rs:180-187),
and none follows, whatever happens, unless the application closes. -/
theorem c77_refusal_untold (steps : List SStep) (hn : ∀ st ∈ steps, st.closes = false) :
    (∃ e, ((new aCfg).run (stray :: steps)).stopped = some (.refused e)) ∧
    closesIn ((new aCfg).run (stray :: steps)).disp.conn.log = [] := by
  have hs : ∃ e, ((new aCfg).step stray).stopped = some (.refused e) := ⟨_, rfl⟩
  obtain ⟨e, hs⟩ := hs
  obtain ⟨h1, h2⟩ := c77_stopped_for_good (σ := (new aCfg).step stray) ⟨aCfg, [stray], rfl⟩ hs steps
  exact ⟨⟨e, h1⟩, (h2 hn).trans (by decide +kernel)⟩

/-- **C77** Violated: the peer is not told the reason.  The `Close` the dispatcher ends with has no error, whatever went
wrong: bytes that are not a frame, a timeout (dispatcher.rs:69-73, 264-281). -/
theorem c77_reason_withheld (σ : Serve) (hs : σ.stopped = none) (e : PErr) (he : σ.disp.error = some e) (p c : Readiness) :
    (σ.step (.ready p c)).disp.conn.wire = σ.disp.conn.wire ++ [(0, .close { error := none })] ∧
    (σ.step (.ready p c)).stopped = some (.control e) := by
  rw [step_ready, hs, if_neg (by simp)]
  unfold ready
  rw [he]
  exact ⟨Conn.wire_close .., rfl⟩

/-- It comes to that. -/
example : ∃ σ : Serve, σ.Reachable ∧ σ.stopped = none ∧ σ.disp.error = some .keepAliveTimeout :=
  ⟨(new aCfg).run [.disp (.own (.stop (some .keepAliveTimeout))), .disp (.poll passAll)], ⟨_, _, rfl⟩, rfl, rfl⟩

/-- **C77** Violated: the connection goes on talking after its `Close`: a `Begin` the peer sends after closing is not refused
but answered (connection.rs:375-383 does not look at the error), and the session is set up. -/
theorem c77_begin_after_close : let σ := (new aCfg).run [.disp (.recv 0 (.close { error := none })), .disp (.recv 4 (.begin_ (aBegin 10)))]
    σ.disp.conn.wire.map (fun p => match p.2 with | .close _ => 0 | .begin_ _ => 1 | _ => 2) = [0, 1] ∧
    σ.disp.conn.sessions.values.length = 1 := by decide +kernel

/-! ## Not vacuous -/

/-- A connection with a session, not stopped, without error: the peer may close it, and its services may fail. -/
example : let σ := (new aCfg).run [.disp (.recv 4 (.begin_ (aBegin 10))), .ready .ready .pending]
    σ.stopped.isNone ∧ σ.disp.error.isNone ∧ σ.disp.conn.sessions.values.length = 1 := by decide +kernel

/-- All three causes at once. -/
example : let σ := (new aCfg).run ([.disp (.own (.close none))] ++ closedByPeer ++ [.ready .ready .ready])
    (closesIn σ.disp.conn.log).length = 3 ∧ (peerCloses σ.disp.conn.log).length = 1 ∧ Stopped.closes σ.stopped = 1 := by decide +kernel

end Amqp.Rt
