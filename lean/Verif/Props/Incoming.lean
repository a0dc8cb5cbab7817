import Verif.Lemmas.Incoming
import Verif.Props.EndToEnd
import Verif.Props.HandshakeWitnesses
/-!
# C83: a server sets up a connection in order
-/

namespace Amqp.Rt
open Session
open Hs (Opened Prog Meet server Cfg Service ServerPath stream openFrame)

/-- **C83** What the task has done is told by where it is: it asks for the publish service when the handshake has succeeded,
for the control service when the publish service has been made, and starts the dispatcher when both have been, each once;
whatever fails, the transport is dropped, and nothing follows. -/
theorem c83_in_order (p : Prog Opened) (steps : List IStep) {a : Incoming} (ha : a = (Incoming.start p).run steps) :
    a.log = a.task.story ∧ a.task.Result a.conn.shake.prog := by
  subst ha
  exact ⟨(Incoming.inv p steps).story, (Incoming.inv p steps).result⟩

/-- **C83** So the application is asked for a service only after a whole conversation as the standard has it. -/
theorem c83_only_after_handshake (cfg : Cfg) (id : Str) (svc : Service) (steps : List IStep) {a : Incoming}
    (ha : a = (Incoming.start (server cfg id svc)).run steps)
    (hl : TEv.publishAsked ∈ a.log ∨ TEv.controlAsked ∈ a.log ∨ TEv.started ∈ a.log) :
    ∃ o : Opened, a.conn.shake.prog = .done (.ok o) ∧ ServerPath cfg id svc.mechanisms o.remote a.conn.shake.log ∧
      o.conn = .new (cfg.connCfg o.remote) := by
  have hi := Incoming.inv (server cfg id svc) steps
  rw [← ha] at hi
  obtain ⟨hs, he⟩ := hi.shake
  have hr := hi.result
  rw [hi.story] at hl
  have : ∃ o, a.conn.shake.prog = .done (.ok o) := by
    cases ht : a.task with
    | shaking => rw [ht] at hl; simp [Task.story] at hl
    | publish | control | serving => rw [ht] at hr; exact hr
    | failed e =>
      rw [ht] at hl hr
      cases e with
      | handshake e => simp [Task.story] at hl
      | publish | control => exact hr
  obtain ⟨o, ho⟩ := this
  rw [he] at ho ⊢
  have := Hs.c39_only_by_the_book cfg id svc hs o ho
  exact ⟨o, ho, this.1, this.2.1⟩

/-- **C83** The application has the connection from the end of the handshake on, and need not wait for its own services: what
it does takes effect at once. -/
theorem c83_application_free (a : Incoming) (ht : ∀ e, a.task ≠ .failed e) {c : Conn} {r : Reader} (hu : a.conn.up = some (c, r))
    {st : CStep} (ho : st.own = true) : (a.step (.own st)).conn.up = some (c.step st, r) := by
  have : (a.step (.own st)).conn = a.conn.own st := by
    unfold Incoming.step
    cases h : a.task with
    | failed e => exact absurd h (ht e)
    | shaking | publish | control | serving => rfl
  rw [this]
  simp [End.own, hu, ho]

/-- **C83** No frame is handled before both services are there: until then the connection is the one the handshake made,
changed only by the application's own calls, and its codec has not read.  What has arrived waits, in order: the buffer holds
the end of what has arrived. -/
theorem c83_nothing_handled_before (p : Prog Opened) (steps : List IStep) {a : Incoming}
    (ha : a = (Incoming.start p).run steps) (ht : a.task = .publish ∨ a.task = .control) :
    ∃ (o : Opened) (own : List CStep) (unread : Bytes), a.conn.shake.prog = .done (.ok o) ∧ (∀ st ∈ own, st.own = true) ∧
      a.conn.up = some (own.foldl Conn.step o.conn, { max := o.codecMax, buf := unread }) ∧ unread <:+ arrivedBytes steps := by
  have hi := Incoming.inv p steps
  rw [← ha] at hi
  have hok : ∃ o, a.conn.shake.prog = .done (.ok o) := by
    have := hi.result
    rcases ht with h | h <;> rw [h] at this <;> exact this
  obtain ⟨o', ho'⟩ := hok
  have hup : a.conn.up ≠ none := fun h => hi.up.1 h o' ho'
  obtain ⟨⟨c, r⟩, e⟩ := Option.ne_none_iff_exists'.1 hup
  obtain ⟨o, sts, h1, h2, h3, h4⟩ := hi.quiet (by rcases ht with h | h <;> rw [h] <;> simp) c r e
  exact ⟨o, sts, r.buf, h1, h2, by rw [e, h3, ← h4], hi.unread ht c r e⟩

/-- **C83** As long as it has not failed, a server run by this task and its client do what a server and a client do that
go from the handshake to the dispatcher at once: the wait for the services is a delay and nothing else. -/
theorem c83_refines (p q : Prog Opened) (steps : List VStep) {v : Visit} (hv : v = (Visit.start p q).run steps)
    (h : ∀ e, v.server.task ≠ .failed e) :
    ∃ xs, ((∀ st ∈ steps, st.Fit) → ∀ x ∈ xs, XStep.Fit x) ∧
      (Duplex.start p q).run xs = ⟨v.client, v.server.conn, v.toServer, v.toClient⟩ := by
  subst hv
  have := Visit.run_ends steps h
  rw [Visit.start_ends] at this
  exact this

/-- **C83** So, for example, what the server's application takes from a receiver link is what the client's has sent, in that
order, however long the services took. -/
theorem c83_to_server {p q : Prog Opened} {oc os : Opened} (hm : Meet p q oc os) (steps : List VStep)
    (h : ∀ st ∈ steps, st.Fit) {v : Visit} (hv : v = (Visit.start p q).run steps) (hn : ∀ e, v.server.task ≠ .failed e)
    {c c' : Conn} {r r' : Reader} (hc : v.client.up = some (c, r)) (hs : v.server.conn.up = some (c', r'))
    (hl : c.Legible r'.max) (hl' : c'.Legible r.max) (hu : (Net.mk c c' 0 0).Undisturbed)
    {i j : Ref} {x y : Session} (hx : c.obj? i = some x) (hy : c'.obj? j = some y) (hj : Joined x y)
    {ra rb : Ref} {hdl : UInt32} (hr : SoleSender x hdl ra)
    (ht : receivedOn rb y.log <+: transfersOn hdl (arrived y.log)) :
    (handedOn rb y.log).length ≤ (sentOn ra x).length ∧
    ∀ (k : Nat) d t, (handedOn rb y.log)[k]? = some (d, t) → ∃ q, (sentOn ra x)[k]? = some q ∧ SameMessage q t.asArrival := by
  obtain ⟨xs, hf, he⟩ := c83_refines p q steps hv hn
  exact c76_to_server hm xs (hf h) (φ := ⟨v.client, v.server.conn, v.toServer, v.toClient⟩) he.symm hc hs hl hl' hu hx hy hj hr ht

/-! ## Violated -/

theorem opened_run {k : ProtocolId → Prog Opened} {b buf : Bytes} {l : List Hs.Ev} {o : Opened}
    (h : (Prog.recvProto k).run .frameHeader b = (l, .done (.ok o), .frameHeader, buf)) :
    (Incoming.start (.recvProto k)).run [.bytes b] =
      ⟨⟨⟨l, .done (.ok o), .frameHeader, buf⟩, some (o.conn, { max := o.codecMax, buf })⟩, .publish, [.publishAsked]⟩ := by
  have h0 : Incoming.start (.recvProto k) = ⟨⟨⟨[], .recvProto k, .frameHeader, []⟩, none⟩, .shaking, []⟩ := by
    have : Hs.Run.start (.recvProto k) = ⟨[], .recvProto k, .frameHeader, []⟩ := by
      have hd : protocolIdDecode [] = (.pending, []) := rfl
      simp only [Hs.Run.start, Prog.run, hd]
    simp only [Incoming.start, End.start, this, End.settle, Incoming.settle]
  rw [Incoming.run, List.foldl_cons, List.foldl_nil, h0]
  simp only [Incoming.step, End.take, Hs.Run.step, List.nil_append, h, End.settle, Incoming.settle]

/-- What a client of this server says. -/
def talk : Bytes :=
  stream [.proto .amqpSasl, .sasl (.saslInit Hs.anInit), .proto .amqp, openFrame 0 Hs.anOpen]

def talkOpened : Opened := { conn := .new (Hs.aCfg.connCfg Hs.anOpen), codecMax := Hs.aCfg.maxSize, remote := Hs.anOpen }

/-- What the server says to it. -/
def said : List Hs.Item :=
  [.proto .amqpSasl, .sasl (.saslMechanisms { saslServerMechanisms := (Hs.answering .ok).mechanisms }),
    .sasl (.saslOutcome { code := .ok, additionalData := none }), .proto .amqp, openFrame 0 (Hs.aCfg.toOpen (Hs.str "x"))]

theorem talk_run : ∃ l, (server Hs.aCfg (Hs.str "x") (Hs.answering .ok)).run .frameHeader talk =
    (l, .done (.ok talkOpened), .frameHeader, []) ∧ l.filterMap (fun e => match e with | .sent x => some x | .got _ => none) = said := by
  have := Hs.server_sasl_run Hs.aCfg (Hs.str "x") (Hs.answering .ok) Hs.anInit .ok 0 Hs.anOpen [] rfl rfl rfl Hs.anInit_wf Hs.anOpen_wf
  rw [List.append_nil] at this
  exact ⟨_, this, rfl⟩

/-- The task gets there: after this conversation it waits for the publish service. -/
theorem talk_opens : ∃ a, (Incoming.start (server Hs.aCfg (Hs.str "x") (Hs.answering .ok))).run [.bytes talk] = a ∧
    a.task = .publish ∧ a.conn.shake.sent = said ∧ a.conn.up = some (talkOpened.conn, { max := talkOpened.codecMax, buf := [] }) := by
  obtain ⟨l, h, hl⟩ := talk_run
  exact ⟨_, opened_run h, rfl, hl, rfl⟩

/-- **C83** Violated: an application that fails to make a service leaves the peer with a connection that was opened and is
dropped without a `Close`.  The failure sends nothing, and nothing is sent after it. -/
theorem c83_failure_untold (a : Incoming) (h : a.task = .publish) (steps : List IStep) :
    ((a.step (.publish false)).run steps).conn = a.conn ∧ ((a.step (.publish true)).step (.control false)).conn = a.conn ∧
      (((a.step (.publish true)).step (.control false)).run steps).conn = a.conn := by
  have h1 : (a.step (.publish false)).task = .failed .publish := by simp only [Incoming.step, h]
  have h2 : ((a.step (.publish true)).step (.control false)).task = .failed .control := by simp only [Incoming.step, h]
  rw [Incoming.run_failed h1, Incoming.run_failed h2]
  simp only [Incoming.step, h, and_self]

/-- **C83** Violated, on an example: the last thing this server has sent is its open. -/
theorem c83_open_then_dropped (steps : List IStep) :
    ∃ a, (Incoming.start (server Hs.aCfg (Hs.str "x") (Hs.answering .ok))).run (.bytes talk :: .publish false :: steps) = a ∧
      a.task = .failed .publish ∧ a.conn.bytes = stream said := by
  obtain ⟨a, h, ht, hs, hu⟩ := talk_opens
  have hr : (Incoming.start (server Hs.aCfg (Hs.str "x") (Hs.answering .ok))).run (.bytes talk :: .publish false :: steps) =
      (a.step (.publish false)).run steps := by rw [← h]; rfl
  have h1 : (a.step (.publish false)).task = .failed .publish := by simp only [Incoming.step, ht]
  have hb : talkOpened.conn.bytes = [] := rfl
  refine ⟨_, hr, ?_, ?_⟩
  · rw [Incoming.run_failed h1, h1]
  · rw [(c83_failure_untold a ht steps).1, End.bytes, hs, hu]
    simp only [hb, List.append_nil]
    rfl

/-- **C83** Violated: `handshake_timeout` does not cover the services.  Once the handshake has a result it has no effect, so
a connection whose service is never made is kept for ever. -/
theorem c83_never_given_up (n : Nat) :
    ∃ a, (Incoming.start (server Hs.aCfg (Hs.str "x") (Hs.answering .ok))).run (.bytes talk :: List.replicate n .timer) = a ∧
      a.task = .publish ∧ a.log = [.publishAsked] := by
  obtain ⟨a, h, ht, _, _⟩ := talk_opens
  have hs : a.step .timer = a := by simp only [Incoming.step, ht]
  have hr : (Incoming.start (server Hs.aCfg (Hs.str "x") (Hs.answering .ok))).run (.bytes talk :: List.replicate n .timer) = a := by
    have : (Incoming.start (server Hs.aCfg (Hs.str "x") (Hs.answering .ok))).run (.bytes talk :: List.replicate n .timer) =
        a.run (List.replicate n .timer) := by rw [← h]; rfl
    rw [this]
    induction n with
    | zero => rfl
    | succ n ih =>
      rw [List.replicate_succ, Incoming.run, List.foldl_cons, hs]
      refine ih ?_
      rw [← h]; rfl
  refine ⟨a, hr, ht, ?_⟩
  have := (c83_in_order _ _ h.symm).1
  rw [this, ht]
  rfl

/-- The dispatcher does start. -/
example : ∃ a, (Incoming.start (server Hs.aCfg (Hs.str "x") (Hs.answering .ok))).run
      [.bytes talk, .publish true, .control true] = a ∧ a.task = .serving := by
  obtain ⟨a, h, ht, _, _⟩ := talk_opens
  refine ⟨(a.step (.publish true)).step (.control true), ?_, ?_⟩
  · rw [← h]; rfl
  · simp only [Incoming.step, ht]

end Amqp.Rt
