import Verif.Props.Connections
/-!
# Connections: witnesses

Executions that show what the theorems of `Verif/Props/Connections.lean` are about, and those that violate a property.
-/

namespace Amqp.Rt
open Conn Examples

namespace Examples

def aCfg : ConnCfg := { localChannelMax := 100, remoteChannelMax := 100, remoteMaxFrameSize := 65535 }

/-- The state of a connection after the given steps. -/
def conn (steps : List CStep) : Conn := (Conn.new aCfg).run steps

theorem connReachable (steps : List CStep) : Conn.Reachable (conn steps) := ⟨aCfg, steps, rfl⟩

/-- The peer begins a session. -/
def peerBegins (ch : UInt16) : CStep := .recv ch (.begin_ (aBegin 10))

/-- The peer answers the `Begin` this side sent on channel `l`. -/
def peerAnswers (ch l : UInt16) : CStep := .recv ch (.begin_ { aBegin 10 with remoteChannel := some l })

/-- Steps of a session's application. -/
def on (s : Ref) (l : List Step) : List CStep := l.map (.local s)

/-- Frames for a channel. -/
def frames (ch : UInt16) (l : List Frame) : List CStep := l.map (.recv ch)

end Examples

/-! ## Non-vacuity -/

/-- Two sessions, one begun by either side; the peer speaks to the first on channel 4 and to the second on channel 7. -/
def twoSessions : Conn := conn [peerBegins 4, .openSession none none none, peerAnswers 7 1]

theorem forSession_attach (a : Attach) : ForSession (.attach a) := ⟨by simp, by simp, by simp⟩

example : Conn.Reachable twoSessions ∧ twoSessions.error = none := ⟨connReachable _, rfl⟩
example : speaking twoSessions.log 4 = some 0 ∧ speaking twoSessions.log 7 = some 1 ∧ speaking twoSessions.log 5 = none :=
  ⟨rfl, rfl, rfl⟩
example : begunHere twoSessions.log = [1] := rfl
example : (aBegin 10).remoteChannel = none ∧ (conn [.openSession none none none]).sessions.get 0 = some (.opening 0) :=
  ⟨rfl, rfl⟩
example : twoSessions.objs.map (·.id) = [0, 1] ∧ twoSessions.objs.map (·.remoteChannelId) = [4, 7] := ⟨rfl, rfl⟩
/-- A link attached on channel 4 is one of the first session's. -/
example : (twoSessions.run (frames 4 [.attach (anAttach "a" 0 .sender)])).objs.map (·.rcvs.length) = [1, 0] := rfl
/-- The peer ends the first session: its channel is free again. -/
example : speaking (twoSessions.run (frames 4 [.end_ { error := none }])).log 4 = none := rfl
example : (twoSessions.step (.fail .disconnected)).objs.map (·.error) = [some .disconnected, some .disconnected] := rfl
example : (twoSessions.run [.fail .disconnected, .fail .connectionDropped]).error = some .disconnected := rfl
/-- With a limit of one channel, the second `open_session` fails. -/
example : ((Conn.new { aCfg with localChannelMax := 1 }).run
    [.openSession none none none, .openSession none none none]).log.getLast? = some (.openFailed 1 .tooManyChannels) := rfl

/-- The application closes a link and then ends the session; two control frames are queued, and handed on when the dispatcher
is polled. -/
def controlDemo : Conn := conn ([peerBegins 0] ++ on 0 [.attachSender (anAttach "a" 0 .sender)] ++
  frames 0 [.attach (anAttach "a" 7 .receiver)] ++ on 0 [.closeSender 0 none, .endSession])

example : queuedCtl controlDemo.log = [(0, .localDetachSender { handle := 0, closed := true, error := none } 0),
    (0, .localSessionEnded [])] := rfl
example : handedCtl controlDemo.log = [] := rfl
example : handedCtl (controlDemo.run [.poll, .poll]).log = queuedCtl controlDemo.log := rfl

/-! ## Violations -/

/-- **C35** is violated by a peer that begins a channel it has already begun: both sessions are live and share their remote
channel.  Frames reach the second only. -/
theorem c35_remote_channel_shared : ∃ c, Conn.Reachable c ∧ c.error = none ∧ ∃ x y, c.Registered 0 0 x ∧ c.Registered 1 1 y ∧
    x.remoteChannelId = y.remoteChannelId ∧ x.error = none ∧ y.error = none ∧ speaking c.log x.remoteChannelId = some 1 :=
  ⟨conn [peerBegins 5, peerBegins 5], connReachable _, rfl, _, _, ⟨_, rfl, rfl, rfl⟩, ⟨_, rfl, rfl, rfl⟩, rfl, rfl, rfl, rfl⟩

theorem begins_many (n : Nat) :
    let c := conn (List.replicate n (peerBegins 0))
    c.error = none ∧ c.sessions.free = [] ∧ c.sessions.slots.length = n ∧ c.objs.length = n ∧
      ∀ k, k < n → c.sessions.get k = some (.established k) := by
  induction n with
  | zero => exact ⟨rfl, rfl, rfl, rfl, fun k h => absurd h (Nat.not_lt_zero k)⟩
  | succ n ih =>
    obtain ⟨h0, h1, h2, h3, h4⟩ := ih
    have e : conn (List.replicate (n + 1) (peerBegins 0)) =
        ((conn (List.replicate n (peerBegins 0))).note (.peer 0 (.begin_ (aBegin 10)))).registerRemote 0 (aBegin 10) := by
      unfold conn
      rw [List.replicate_succ', Conn.run, List.foldl_append]
      rfl
    have hw := (connReachable (List.replicate n (peerBegins 0))).reg.wf
    generalize conn (List.replicate n (peerBegins 0)) = c at *
    rw [e]
    have hs : ((c.note (.peer 0 (.begin_ (aBegin 10)))).registerRemote 0 (aBegin 10)).sessions =
        c.sessions.insert (.established c.objs.length) := rfl
    have hv : c.sessions.vacantKey = n := by unfold Slab.vacantKey; rw [h1, ← h2]; rfl
    refine ⟨h0, ?_, ?_, ?_, fun k hk => ?_⟩
    · rw [hs]; unfold Slab.insert; rw [h1]
    · rw [hs]; unfold Slab.insert; rw [h1]; simp [h2]
    · show (c.objs ++ [_]).length = n + 1
      simp [h3]
    · rw [hs, Slab.get_insert hw, hv, h3]
      by_cases hn : n = k
      · simp [hn]
      · simp only [hn, if_false]; exact h4 k (by omega)

/-- **C35** is violated by a peer that begins 65537 sessions: keys of the slab are not limited, and two of the sessions, both
live, send on the same channel. -/
theorem c35_local_channel_shared : ∃ c, Conn.Reachable c ∧ c.error = none ∧ ∃ s t x y, s ≠ t ∧ c.Registered 0 s x ∧
    c.Registered 65536 t y ∧ UInt16.ofNat x.id = UInt16.ofNat y.id := by
  have hr := connReachable (List.replicate 65537 (peerBegins 0))
  obtain ⟨h0, _, _, _, h4⟩ := begins_many 65537
  generalize conn (List.replicate 65537 (peerBegins 0)) = c at *
  have h1 := h4 0 (by omega)
  have h2 := h4 65536 (by omega)
  obtain ⟨x, hx, hxi⟩ := hr.reg.slab _ _ _ h1 rfl
  obtain ⟨y, hy, hyi⟩ := hr.reg.slab _ _ _ h2 rfl
  refine ⟨c, hr, h0, 0, 65536, x, y, by decide, ⟨_, h1, rfl, hx⟩, ⟨_, h2, rfl, hy⟩, ?_⟩
  rw [hxi, hyi]
  decide

/-- The peer begins channels 1 and 0; the application ends the first session, which asks for the entry of the slab that has
the number of its remote channel to be closed: that is the second session's. -/
def crossedDemo : Conn := conn ([peerBegins 1, peerBegins 0] ++ on 0 [.endSession])

/-- **C35** is violated when a session is ended whose remote channel is another session's local channel: that other session,
of which nobody asked anything, is treated as ending.  Frames for it are dropped. -/
theorem c35_end_closes_another : ∃ c, Conn.Reachable c ∧ c.error = none ∧ ∃ x, speaking c.log 0 = some 1 ∧
    c.obj? 1 = some x ∧ x.error = none ∧ x.ending = false ∧
    ∀ f, ForSession f → (∀ e, f ≠ .end_ e) → (c.step (.recv 0 f)).obj? 1 = some x := by
  refine ⟨crossedDemo, connReachable _, rfl, _, rfl, rfl, rfl, rfl, fun f hf hne => ?_⟩
  rw [recv_forSession hf, if_neg (by decide)]
  cases f
  case end_ e => exact absurd rfl (hne e)
  all_goals rfl

/-- The peer confirms the end of the first session of `crossedDemo`. -/
def crossedEnd : Conn := crossedDemo.run (frames 1 [.end_ { error := none }])

/-- … and the answer to the first session's own `End` is taken for the peer's wish to end: a second `End` goes out on the
same channel. -/
theorem c35_end_sent_twice : ∃ c, Conn.Reachable c ∧ (c.log.filterMap fun
    | .ses 0 (.frame (.end_ e)) => some e
    | _ => none) = [{ error := none }, { error := none }] :=
  ⟨crossedEnd, (connReachable _).run _, rfl⟩

/-- **C36** is violated by a peer whose `channel-max` is below ours: with room for channel 0 only, a session is begun on
channel 1. -/
theorem c36_peer_limit_ignored : ∃ cfg steps, ∃ ch ∈ begunHere ((Conn.new cfg).run steps).log, cfg.remoteChannelMax < ch :=
  ⟨{ aCfg with remoteChannelMax := 0 }, [.openSession none none none, .openSession none none none], 1,
    List.mem_of_getElem? (i := 1) rfl, by decide⟩

/-- **C36** In fact nothing depends on the peer's `channel-max`. -/
theorem c36_peer_limit_unused (cfg : ConnCfg) (m : UInt16) : Conn.new { cfg with remoteChannelMax := m } = Conn.new cfg := rfl

/-- **C37** is violated by a `Begin` that arrives after the failure: a session is made and registered, and answered. -/
theorem c37_begin_after_failure : ∃ c, Conn.Reachable c ∧ c.error = some .disconnected ∧
    c.sessions.values.length = 0 ∧ (c.step (peerBegins 3)).sessions.values.length = 1 ∧
    (c.step (peerBegins 3)).objs.map (·.error) = [none] ∧
    ∃ f, (c.step (peerBegins 3)).log.getLast? = some (.frame 0 (.begin_ f)) :=
  ⟨conn [.fail .disconnected], connReachable _, rfl, rfl, rfl, rfl, _, rfl⟩

/-- A session of the peer with a sender link, on which a send waits for credit; the application ends the session and the
connection fails. -/
def closingDemo : Conn := conn ([peerBegins 0] ++ on 0 [.attachSender (anAttach "a" 0 .sender)] ++
  frames 0 [.attach (anAttach "a" 7 .receiver)] ++ on 0 [.send (aSend 0 [1] false), .endSession] ++
  [.fail .disconnected])

/-- **C37** is violated for sessions being ended: they are not told of the failure.  The session has no error, the link
neither, and the send waits still; the connection does not know the session any more. -/
theorem c37_closing_not_told : ∃ c, Conn.Reachable c ∧ c.error = some .disconnected ∧ c.sessions.values.length = 0 ∧
    ∃ x l, c.obj? 0 = some x ∧ x.error = none ∧ x.snd? 0 = some l ∧ l.error = none ∧ l.closed = false ∧
      x.sends.map (·.st) = [.credit [1] none] :=
  ⟨closingDemo, connReachable _, rfl, rfl, _, _, rfl, rfl, rfl, rfl, rfl, rfl⟩

/-- **C37** is violated for receiver links: they are closed but have no error, so the application's stream just ends. -/
theorem c37_receiver_not_told : ∃ c, Conn.Reachable c ∧ ∃ x y l, c.obj? 0 = some x ∧
    (∃ k, x.links.get k = some (.rcv (.established 0))) ∧ (c.step (.fail .disconnected)).obj? 0 = some y ∧
    y.rcv? 0 = some l ∧ l.closed = true ∧ l.error = none :=
  ⟨conn ([peerBegins 0] ++ on 0 [.attachReceiver (anAttach "a" 0 .receiver)] ++ frames 0 [.attach (anAttach "a" 7 .sender)]),
    connReachable _, _, _, _, rfl, ⟨0, rfl⟩, rfl, rfl, rfl, rfl⟩

/-- **C37** is violated for sessions being opened: the future's channel is just dropped, which reads as `Disconnected`
whatever the error was. -/
theorem c37_opening_other_error : ∃ c, Conn.Reachable c ∧
    (c.step .forceClose).error = some .connectionDropped ∧
    (c.step .forceClose).log = c.log ++ [.ioClosed, .failed .connectionDropped, .openDropped 0] :=
  ⟨conn [.openSession none none none], connReachable _, rfl, rfl⟩

/-- A control frame is queued (the application closes a link), then the peer attaches another link, then the dispatcher is
polled. -/
def overtakingDemo : Conn := conn ([peerBegins 0] ++ on 0 [.attachSender (anAttach "a" 0 .sender)] ++
  frames 0 [.attach (anAttach "a" 7 .receiver)] ++ on 0 [.closeSender 0 none] ++
  frames 0 [.attach (anAttach "b" 8 .receiver)] ++ [.poll])

/-- **C40** is about queued control frames only: those for frames of the peer are not queued, and overtake. -/
theorem c40_direct_overtakes : ∃ c, Conn.Reachable c ∧ ∃ a b d, (c.log.filterMap fun
    | .called k => some k
    | _ => none) = [.action 0 (.ctl (.attachSender 1 a b)), .queued 0 (.localDetachSender d 0)] ∧
    ∃ l l', c.log = l ++ [.ses 0 (.control (.localDetachSender d 0))] ++ l' ∧ .peer 0 (.attach a) ∈ l' :=
  ⟨overtakingDemo, connReachable _, _, _, _, rfl, overtakingDemo.log.take 8, overtakingDemo.log.drop 9, rfl,
    List.mem_of_getElem? (i := 0) rfl⟩

end Amqp.Rt
