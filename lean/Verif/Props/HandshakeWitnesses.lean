import Verif.Props.Handshake
/-! Where the handshake does not do what is claimed, and that the theorems about it are not vacuous: C38, C39. -/

namespace Amqp.Hs

/-! ## A conversation -/

/-- The whole SASL conversation, seen from the server, with the answers left open. -/
theorem server_sasl_run (cfg : Cfg) (id : Str) (svc : Service) (i : SaslInit) (code : SaslCode) (ch : UInt16)
    (remote : Open) (rest : Bytes) (hs : svc.sasl = true) (hp : svc.onInit i = .outcome code true)
    (ha : svc.ack remote = true) (hi : wf (SaslFrame.mk (.saslInit i))) (hf : wf (AmqpFrame.mk ch (.open_ remote))) :
    (server cfg id svc).run .frameHeader
        (stream [.proto .amqpSasl, .sasl (.saslInit i), .proto .amqp, openFrame ch remote] ++ rest) =
      ([.got (.proto .amqpSasl), .sent (.proto .amqpSasl),
        .sent (.sasl (.saslMechanisms { saslServerMechanisms := svc.mechanisms })),
        .got (.sasl (.saslInit i)), .sent (.sasl (.saslOutcome { code, additionalData := none })),
        .got (.proto .amqp), .sent (.proto .amqp), .got (openFrame ch remote), .sent (openFrame 0 (cfg.toOpen id))],
        .done (.ok { conn := .new (cfg.connCfg remote), codecMax := cfg.maxSize, remote }), .frameHeader, rest) := by
  simp only [stream, List.flatMap_cons, List.flatMap_nil, List.append_assoc, List.append_nil]
  rw [server, run_proto' _ rfl, run_send, if_pos hs, serverSasl, run_send,
    run_sasl' hi (initOutcome cfg id svc code true) (by simp only [hp]), initOutcome, run_send, if_pos rfl,
    serverSuccess, run_proto' _ rfl, run_send, serverOpen, run_open hf (.inl rfl) (serverAck cfg id svc remote) rfl, serverAck, if_pos ha, run_send,
    run_done]
  rfl

def str (s : String) : Str := ⟨ascii s⟩

def aCfg : Cfg :=
  { maxFrameSize := 65535, channelMax := 1024, idleTimeOut := 120000, hostname := none, offeredCapabilities := none,
    desiredCapabilities := none, maxSize := 0 }

def anAuth : Auth := { authzId := str "a", authnId := str "b", password := str "c" }

/-- A service that answers every init with `code` and goes on, as in
`init.outcome(code).await?.open().await?.ack(())`. -/
def answering (code : SaslCode) : Service :=
  { plain := true, sasl := true, mechanisms := ⟨[sym "PLAIN"]⟩, onInit := fun _ => .outcome code true,
    ack := fun _ => true }

def anInit : SaslInit := { mechanism := sym "PLAIN", initialResponse := some anAuth.response, hostname := none }

theorem anInit_wf : wf (SaslFrame.mk (.saslInit anInit)) := by
  refine ⟨⟨⟨by decide, by decide⟩, ?_, trivial, by decide⟩, by decide⟩
  show List.length _ < _
  decide

def anOpen : Open := aCfg.toOpen (str "x")

theorem anOpen_wf : wf (AmqpFrame.mk 0 (.open_ anOpen)) := by
  refine ⟨⟨⟨by decide, by decide⟩, trivial, trivial, trivial, trivial, trivial, trivial, trivial, trivial, trivial,
    by decide⟩, by decide⟩

theorem outcome_wf (code : SaslCode) : wf (SaslFrame.mk (.saslOutcome { code, additionalData := none })) := by
  cases code <;> exact ⟨⟨trivial, trivial, by decide⟩, by decide⟩

/-! ## C39, violated -/

/-- **C39** (violated) A server whose service answered the client with a failure code opens the connection all the same:
`outcome` returns a `SaslSuccess` for every code. -/
theorem c39_refused_but_opened (code : SaslCode) :
    ∃ (cfg : Cfg) (id : Str) (svc : Service) (steps : List Step) (o : Opened),
      ((Run.start (server cfg id svc)).exec steps).prog = .done (.ok o) ∧
      .sent (.sasl (.saslOutcome { code, additionalData := none })) ∈ ((Run.start (server cfg id svc)).exec steps).log := by
  have h := server_sasl_run aCfg (str "s") (answering code) anInit code 0 anOpen [] rfl rfl rfl anInit_wf anOpen_wf
  refine ⟨aCfg, str "s", answering code, [stream [.proto .amqpSasl, .sasl (.saslInit anInit), .proto .amqp,
    openFrame 0 anOpen] ++ []].map Step.bytes,
    { conn := .new (aCfg.connCfg anOpen), codecMax := aCfg.maxSize, remote := anOpen }, ?_⟩
  rw [exec_chunks, List.flatten_singleton, Run.of, h]
  exact ⟨rfl, by simp⟩

/-- The conversations of `c39_only_by_the_book` exist. -/
example : ∃ (cfg : Cfg) (id : Str) (svc : Service) (steps : List Step) (o : Opened),
    ((Run.start (server cfg id svc)).exec steps).prog = .done (.ok o) :=
  let ⟨cfg, id, svc, steps, o, h, _⟩ := c39_refused_but_opened .ok
  ⟨cfg, id, svc, steps, o, h⟩

/-- The claim for all services is therefore false. -/
theorem c39_not_ok_not_opened_fails :
    ¬ ∀ (cfg : Cfg) (id : Str) (svc : Service) (steps : List Step) (o : Opened) (out : SaslOutcome),
      ((Run.start (server cfg id svc)).exec steps).prog = .done (.ok o) →
      .sent (.sasl (.saslOutcome out)) ∈ ((Run.start (server cfg id svc)).exec steps).log → out.code = .ok := by
  intro h
  obtain ⟨cfg, id, svc, steps, o, h1, h2⟩ := c39_refused_but_opened .auth
  exact absurd (h cfg id svc steps o _ h1 h2) (by simp)

theorem amqp_word : beNat [0x41, 0x4d, 0x51, 0x50] = 1095586128 := by decide
/-- Four bytes of an AMQP header, as a frame size. -/
theorem header_as_size (more : Bytes) (hm : more.length + 8 < 1095586128) : codecDecode SaslFrame.decode 0 .frameHeader ((Item.proto .amqp).encode ++ more) =
    (.pending, .frame (1095586128 - 4), [0, 1, 0, 0] ++ more) := by
  rw [codecDecode, if_neg (by simp [Item.encode, protocolIdEncode])]
  have h1 : ((Item.proto .amqp).encode ++ more).take 4 = [0x41, 0x4d, 0x51, 0x50] := rfl
  have h2 : ((Item.proto .amqp).encode ++ more).length = more.length + 8 := by rw [List.length_append, Nat.add_comm]; rfl
  have h3 : ((Item.proto .amqp).encode ++ more).drop 4 = [0, 1, 0, 0] ++ more := rfl
  rw [h1, amqp_word, h2, h3]
  dsimp only
  rw [if_neg (by simp), if_neg (by omega), if_pos hm]

/-- **C39** (violated) After a challenge the server cannot be reached by the book.  A client that answered the challenge
and got its outcome sends its AMQP header and waits for the server's; `SaslResponse::outcome` takes the header for the
start of a SASL frame of 1095586128 bytes and waits for the rest of it. -/
theorem c39_challenge_stalls (cfg : Cfg) (id : Str) (svc : Service) (i : SaslInit) (b : Bytes)
    (k : SaslResponse → RespPlan) (r : SaslResponse) (code : SaslCode) (goOn : Bool) (more : Bytes) (chunks : List Bytes)
    (hs : svc.sasl = true) (hp : svc.onInit i = .challenge b k) (hk : k r = .outcome code goOn)
    (hi : wf (SaslFrame.mk (.saslInit i))) (hr : wf (SaslFrame.mk (.saslResponse r)))
    (hm : more.length + 8 < 1095586128)
    (hb : chunks.flatten = stream [.proto .amqpSasl, .sasl (.saslInit i), .sasl (.saslResponse r), .proto .amqp] ++ more) :
    ((Run.start (server cfg id svc)).exec (chunks.map .bytes)).Waiting ∧
      ((Run.start (server cfg id svc)).exec (chunks.map .bytes)).sent =
        [.proto .amqpSasl, .sasl (.saslMechanisms { saslServerMechanisms := svc.mechanisms }),
          .sasl (.saslChallenge { challenge := b }), .sasl (.saslOutcome { code, additionalData := none })] := by
  rw [exec_chunks, hb]
  have h : ∃ (kk : SaslFrameBody → Prog Opened) (st : DecodeState) (buf : Bytes), (server cfg id svc).run .frameHeader
      (stream [.proto .amqpSasl, .sasl (.saslInit i), .sasl (.saslResponse r), .proto .amqp] ++ more) =
      ([.got (.proto .amqpSasl), .sent (.proto .amqpSasl),
        .sent (.sasl (.saslMechanisms { saslServerMechanisms := svc.mechanisms })), .got (.sasl (.saslInit i)),
        .sent (.sasl (.saslChallenge { challenge := b })), .got (.sasl (.saslResponse r)),
        .sent (.sasl (.saslOutcome { code, additionalData := none }))], .recvSasl kk, st, buf) := by
    simp only [stream, List.flatMap_cons, List.flatMap_nil, List.append_assoc, List.append_nil]
    rw [server, run_proto' _ rfl, run_send, if_pos hs, serverSasl, run_send,
      run_sasl' hi (serverChallenge cfg id svc b k) (by simp only [hp]), serverChallenge, run_send,
      run_sasl' hr (respOutcome cfg id svc code goOn) (by simp only [hk]), respOutcome, run_send, Prog.run]
    rw [header_as_size more hm]
    exact ⟨_, _, _, rfl⟩
  obtain ⟨kk, st, buf, h⟩ := h
  simp only [Run.of, Run.Waiting, Run.sent, h]
  exact ⟨fun x hx => by simp at hx, rfl⟩

/-! ## C38, violated -/

theorem run_sasl_nil (k : SaslFrameBody → Prog ρ) :
    (Prog.recvSasl k).run .frameHeader [] = ([], .recvSasl k, .frameHeader, []) := by
  have h : codecDecode SaslFrame.decode 0 .frameHeader [] = (.pending, .frameHeader, []) := rfl
  rw [Prog.run, h]

/-- **C38** (violated) The client does not look at what it takes for the server's mechanisms.  It answers any SASL
frame, even a refusal, with its credentials, in the clear, whether or not the server offered PLAIN. -/
theorem c38_credentials_for_any_frame (cfg : Cfg) (auth : Auth) (id : Str) (host : Option Str) (b : SaslFrameBody)
    (h : wf (SaslFrame.mk b)) (chunks : List Bytes) (hb : chunks.flatten = stream [.proto .amqpSasl, .sasl b]) :
    ((Run.start (clientSasl cfg auth id host)).exec (chunks.map .bytes)).sent =
      [.proto .amqpSasl, plainInit cfg auth] := by
  rw [exec_chunks, hb]
  have : (stream [Item.proto .amqpSasl, .sasl b]) = (Item.proto .amqpSasl).encode ++ ((Item.sasl b).encode ++ []) := by
    simp [stream]
  have h2 : ((clientSasl cfg auth id host).run .frameHeader (stream [Item.proto .amqpSasl, .sasl b])).1 =
      [.sent (.proto .amqpSasl), .got (.proto .amqpSasl), .got (.sasl b), .sent (plainInit cfg auth)] := by
    rw [this, clientSasl, run_send, run_proto, if_neg (by simp), run_sasl _ _ h, run_send, run_sasl_nil, plainInit_eq]
  simp only [Run.sent, Run.of, h2, List.filterMap_cons, List.filterMap_nil]

/-- **C38** (violated) So a server that refused the client before the client said anything, and then said ok, gets a
connection: the refusal did not abort the attempt. -/
theorem c38_refusal_ignored : ∃ (cfg : Cfg) (auth : Auth) (id : Str) (host : Option Str) (steps : List Step) (o : Opened),
    ((Run.start (clientSasl cfg auth id host)).exec steps).prog = .done (.ok o) ∧
    .got (.sasl (.saslOutcome { code := .auth, additionalData := none })) ∈
      ((Run.start (clientSasl cfg auth id host)).exec steps).log := by
  refine ⟨aCfg, anAuth, str "x", none, [(stream [.proto .amqpSasl,
    .sasl (.saslOutcome { code := .auth, additionalData := none }),
    .sasl (.saslOutcome { code := .ok, additionalData := none }), .proto .amqp, openFrame 0 anOpen])].map Step.bytes,
    { conn := .new (aCfg.connCfg anOpen), codecMax := aCfg.maxFrameSize.toNat, remote := anOpen }, ?_⟩
  rw [exec_chunks, List.flatten_singleton]
  simp only [stream, List.flatMap_cons, List.flatMap_nil, List.append_nil, Run.of]
  rw [clientSasl, run_send, run_proto, if_neg (by simp), run_sasl _ _ (outcome_wf .auth), run_send,
    run_sasl' (outcome_wf .ok) (clientPlain aCfg (str "x") none) (if_neg (by simp)), clientPlain, run_send, run_proto,
    if_neg (by simp), run_send, ← List.append_nil (openFrame _ _).encode,
    run_open anOpen_wf (.inr (by decide)) _ rfl, run_done]
  exact ⟨rfl, by simp⟩

/-- The conversation of `c38_success_only_by_the_book_partial` exists. -/
example : ∃ (cfg : Cfg) (auth : Auth) (id : Str) (host : Option Str) (steps : List Step) (o : Opened),
    ((Run.start (clientSasl cfg auth id host)).exec steps).prog = .done (.ok o) :=
  let ⟨cfg, auth, id, host, steps, o, h, _⟩ := c38_refusal_ignored
  ⟨cfg, auth, id, host, steps, o, h⟩

/-- A client that is told `auth` fails, and has not started AMQP. -/
example : ∃ steps, ((Run.start (clientSasl aCfg anAuth (str "x") none)).exec steps).prog = .done (.error (.sasl .auth)) := by
  refine ⟨[(stream [.proto .amqpSasl, .sasl (.saslOutcome { code := .ok, additionalData := none }),
    .sasl (.saslOutcome { code := .auth, additionalData := none })])].map Step.bytes, ?_⟩
  rw [exec_chunks, List.flatten_singleton]
  simp only [stream, List.flatMap_cons, List.flatMap_nil, Run.of]
  rw [clientSasl, run_send, run_proto, if_neg (by simp), run_sasl _ _ (outcome_wf .ok), run_send,
    run_sasl' (outcome_wf .auth) _ (if_pos (by simp)), run_done]

end Amqp.Hs
