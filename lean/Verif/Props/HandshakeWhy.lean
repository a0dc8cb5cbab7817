import Verif.Lemmas.HandshakeWhy
import Verif.Props.Handshake
import Verif.Props.HandshakeWitnesses
/-!
# C82: a failed handshake says why it failed
-/

namespace Amqp.Hs

syntax "ends" : tactic
macro_rules
  | `(tactic| ends) => `(tactic| repeat' first
      | refine And.intro ?_ ?_
      | refine fun _ => ?_
      | split
      | simp only [Prog.AtEnd])

/-- Everything received belonged there. -/
def AllGood (ex : List Item → Item → Prop) (l : List Ev) : Prop :=
  ∀ pre y post, l = pre ++ .got y :: post → ex (received pre) y

theorem AllGood.of_goodFrom {ex : List Item → Item → Prop} {l : List Ev} (h : goodFrom ex [] l) : AllGood ex l := by
  rintro pre y post rfl
  simpa using goodFrom_split h

theorem server_why (cfg : Cfg) (id : Str) (svc : Service) :
    (server cfg id svc).AtEnd (goodFrom serverAccepts []) (fun l r => ∀ e, r = .error e →
      (e = .service ∧ svc.Declines ∧ goodFrom serverAccepts [] l) ∨
      ∃ pre y, l = pre ++ [.got y] ∧ ¬ serverAccepts (received pre) y ∧ e = serverComplaint y) [] := by
  simp only [server, serverSasl, serverOpen, serverAck, serverChallenge, serverSuccess, initOutcome, respOutcome, Prog.AtEnd]
  ends
  all_goals first
    | (simp_all [goodFrom, serverAccepts, openFrame]; done)
    | skip
  all_goals rename_i hx
  all_goals cases hx
  all_goals first
    | (refine .inr ⟨_, _, rfl, ?_, rfl⟩; simp_all [received, serverAccepts, openFrame]; done)
    | (refine .inr ⟨_, _, rfl, ?_, rfl⟩; simp_all [received, serverAccepts, openFrame]
       intro ch o hf; rename_i hn; exact hn o (by rw [hf]))
    | (refine .inl ⟨rfl, ?_, ?_⟩
       · try simp_all
         first
           | exact .plain ‹_›
           | exact .sasl ‹_›
           | exact .ack _ ‹_›
           | exact .init _ ‹_›
           | exact .outcome _ _ ‹_›
           | exact .response _ _ _ _ ‹_› ‹_›
           | exact .lastOutcome _ _ _ _ _ ‹_› ‹_›
       · simp_all [goodFrom, serverAccepts, openFrame]
         try exact open_frame ‹_›)

/-- **C82** When the handshake of a server fails, then either everything that came belonged there, and it was cut short by
the end of the stream, the timeout or bytes that are no header or frame, and the error says which, or its service declined;
or the last thing that happened is that an item came that did not belong there, and the error names that item. -/
theorem c82_server_says_why (cfg : Cfg) (id : Str) (svc : Service) (steps : List Step) (e : Err)
    (h : ((Run.start (server cfg id svc)).exec steps).prog = .done (.error e)) :
    (AllGood serverAccepts ((Run.start (server cfg id svc)).exec steps).log ∧ (Cut steps e ∨ (e = .service ∧ svc.Declines))) ∨
      ∃ pre y, ((Run.start (server cfg id svc)).exec steps).log = pre ++ [.got y] ∧ ¬ serverAccepts (received pre) y ∧
        e = serverComplaint y := by
  rcases exec_atEnd (server_why cfg id svc) steps h with h | ⟨e', he, hc, hg⟩
  · rcases h e rfl with ⟨h1, h2, h3⟩ | h
    · exact .inl ⟨.of_goodFrom h3, .inr ⟨h1, h2⟩⟩
    · exact .inr h
  · cases he
    exact .inl ⟨.of_goodFrom hg, .inl hc⟩

/-- **C82** So when an item comes that does not belong there, the server fails at once, and the error is about that item. -/
theorem c82_server_names_item (cfg : Cfg) (id : Str) (svc : Service) (steps : List Step) (pre post : List Ev) (y : Item)
    (h : ((Run.start (server cfg id svc)).exec steps).log = pre ++ .got y :: post) (hy : ¬ serverAccepts (received pre) y) :
    ((Run.start (server cfg id svc)).exec steps).prog = .done (.error (serverComplaint y)) := by
  obtain ⟨hp, e, he⟩ := c39_unexpected_aborts cfg id svc steps pre post y h hy
  subst hp
  rcases c82_server_says_why cfg id svc steps e he with ⟨hg, _⟩ | ⟨pre', y', hl, _, hc⟩
  · exact absurd (hg pre y [] h) hy
  · rw [h] at hl
    have := (List.append_inj' hl rfl).2
    cases this
    rw [he, hc]

theorem client_why (cfg : Cfg) (auth : Auth) (id : Str) (host : Option Str) :
    (clientSasl cfg auth id host).AtEnd (goodFrom clientAccepts []) (fun l r => ∀ e, r = .error e →
      ∃ pre y, l = pre ++ [.got y] ∧ ¬ clientAccepts (received pre) y ∧ e = clientComplaint .amqpSasl (received pre) y) [] := by
  simp only [clientSasl, clientPlain, Prog.AtEnd]
  ends
  all_goals first
    | (simp_all [goodFrom, clientAccepts, clientExpects]; done)
    | skip
  all_goals rename_i hx
  all_goals cases hx
  all_goals refine ⟨_, _, rfl, ?_, ?_⟩ <;> simp_all [received, clientAccepts, clientExpects, clientComplaint]

/-- **C82** The same for a client that authenticates: there is no service to decline. -/
theorem c82_client_says_why (cfg : Cfg) (auth : Auth) (id : Str) (host : Option Str) (steps : List Step) (e : Err)
    (h : ((Run.start (clientSasl cfg auth id host)).exec steps).prog = .done (.error e)) :
    (AllGood clientAccepts ((Run.start (clientSasl cfg auth id host)).exec steps).log ∧ Cut steps e) ∨
      ∃ pre y, ((Run.start (clientSasl cfg auth id host)).exec steps).log = pre ++ [.got y] ∧ ¬ clientAccepts (received pre) y ∧
        e = clientComplaint .amqpSasl (received pre) y := by
  rcases exec_atEnd (client_why cfg auth id host) steps h with h | ⟨e', he, hc, hg⟩
  · exact .inr (h e rfl)
  · cases he
    exact .inl ⟨.of_goodFrom hg, hc⟩

theorem c82_client_names_item (cfg : Cfg) (auth : Auth) (id : Str) (host : Option Str) (steps : List Step) (pre post : List Ev)
    (y : Item) (h : ((Run.start (clientSasl cfg auth id host)).exec steps).log = pre ++ .got y :: post)
    (hy : ¬ clientAccepts (received pre) y) :
    ((Run.start (clientSasl cfg auth id host)).exec steps).prog =
      .done (.error (clientComplaint .amqpSasl (received pre) y)) := by
  obtain ⟨hp, e, he⟩ := c38_unexpected_aborts_partial cfg auth id host steps pre post y h hy
  subst hp
  rcases c82_client_says_why cfg auth id host steps e he with ⟨hg, _⟩ | ⟨pre', y', hl, _, hc⟩
  · exact absurd (hg pre y [] h) hy
  · rw [h] at hl
    have hi := List.append_inj' hl rfl
    cases hi.2
    rw [he, hc, hi.1]

/-- What a client without authentication must receive: the AMQP header and an open. -/
def plainAccepts : List Item → Item → Prop
  | [], y => y = .proto .amqp
  | [_], y => ∃ f o, y = .amqp f ∧ f.performative = .open_ o
  | _, _ => False

theorem plain_why (cfg : Cfg) (id : Str) (host : Option Str) :
    (clientPlain cfg id host).AtEnd (goodFrom plainAccepts []) (fun l r => ∀ e, r = .error e →
      ∃ pre y, l = pre ++ [.got y] ∧ ¬ plainAccepts (received pre) y ∧ e = clientComplaint .amqp (received pre) y) [] := by
  simp only [clientPlain, Prog.AtEnd]
  ends
  all_goals first
    | (simp_all [goodFrom, plainAccepts]; done)
    | skip
  all_goals rename_i hx
  all_goals cases hx
  all_goals refine ⟨_, _, rfl, ?_, ?_⟩ <;> simp_all [received, plainAccepts, clientComplaint]

/-- **C82** And for a client that does not authenticate. -/
theorem c82_plain_says_why (cfg : Cfg) (id : Str) (host : Option Str) (steps : List Step) (e : Err)
    (h : ((Run.start (clientPlain cfg id host)).exec steps).prog = .done (.error e)) :
    (AllGood plainAccepts ((Run.start (clientPlain cfg id host)).exec steps).log ∧ Cut steps e) ∨
      ∃ pre y, ((Run.start (clientPlain cfg id host)).exec steps).log = pre ++ [.got y] ∧ ¬ plainAccepts (received pre) y ∧
        e = clientComplaint .amqp (received pre) y := by
  rcases exec_atEnd (plain_why cfg id host) steps h with h | ⟨e', he, hc, hg⟩
  · exact .inr (h e rfl)
  · cases he
    exact .inl ⟨.of_goodFrom hg, hc⟩

/-- A server that is offered TLS. -/
example : ((Run.start (server aCfg (str "x") (answering .ok))).exec [.bytes (Item.proto .amqpTls).encode]).prog =
    .done (.error (.unexpectedProto .amqp .amqpTls)) := by
  have := exec_chunks (server aCfg (str "x") (answering .ok)) [(Item.proto .amqpTls).encode]
  rw [List.map_cons, List.map_nil] at this
  rw [this, List.flatten_singleton, Run.of, ← List.append_nil (Item.encode _), server, run_proto' _ rfl, run_done]

/-- **C82** Violated: a client that is sent another SASL frame instead of the outcome reports that it was disconnected,
although the stream is open and the frame is the reason. -/
theorem c82_client_misreports (cfg : Cfg) (auth : Auth) (id : Str) (host : Option Str) (b b' : SaslFrameBody)
    (h : wf (SaslFrame.mk b)) (h' : wf (SaslFrame.mk b')) (hb : ∀ o, b' ≠ .saslOutcome o) (chunks : List Bytes)
    (hc : chunks.flatten = stream [.proto .amqpSasl, .sasl b, .sasl b']) :
    ((Run.start (clientSasl cfg auth id host)).exec (chunks.map .bytes)).prog = .done (.error .disconnected) ∧
      Step.eof ∉ chunks.map Step.bytes := by
  refine ⟨?_, by simp⟩
  have hs : stream [.proto .amqpSasl, .sasl b, .sasl b'] =
      (Item.proto .amqpSasl).encode ++ ((Item.sasl b).encode ++ ((Item.sasl b').encode ++ [])) := by
    simp [stream]
  have hn : ∀ (k : SaslOutcome → Prog Opened),
      (match b' with | .saslOutcome o => k o | _ => .done (.error .disconnected)) = .done (.error .disconnected) := by
    intro k
    split
    · exact absurd rfl (hb _)
    · rfl
  have h2 : ((clientSasl cfg auth id host).run .frameHeader (stream [.proto .amqpSasl, .sasl b, .sasl b'])).2.1 =
      .done (.error .disconnected) := by
    rw [hs, clientSasl, run_send, run_proto, if_neg (by simp), run_sasl _ _ h, run_send, run_sasl' h' _ (hn _), run_done]
  rw [exec_chunks, hc]
  simp only [Run.of, h2]

/-- There is such a frame. -/
example : wf (SaslFrame.mk (.saslInit anInit)) ∧ ∀ o, SaslFrameBody.saslInit anInit ≠ .saslOutcome o :=
  ⟨anInit_wf, fun _ h => by cases h⟩

end Amqp.Hs
