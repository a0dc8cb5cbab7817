import Verif.Props.HandshakeWitnesses
/-! A client and a server of this library talking to each other: C49. -/

namespace Amqp.Hs

/-- What was sent, as bytes. -/
def out (l : List Ev) : Bytes := stream (l.filterMap fun e => match e with
  | .sent x => some x
  | .got _ => none)

theorem out_sent (x : Item) (l : List Ev) : out (.sent x :: l) = x.encode ++ out l := by simp [out, stream]

theorem out_got (x : Item) (l : List Ev) : out (.got x :: l) = out l := by simp [out, stream]

theorem out_nil : out [] = [] := rfl

theorem stream_sent (p : Prog ρ) (b : Bytes) : stream (Run.of p b).sent = out (p.run .frameHeader b).1 := rfl

section
variable (cfg : Cfg) (auth : Auth) (id : Str) (host : Option Str)

/-- The client's own open. -/
def ownOpen : Open := { cfg.toOpen id with hostname := host.or cfg.hostname }

theorem clientPlain_eq : clientPlain cfg id host =
    .send (.proto .amqp) (.recvProto fun proto =>
      if proto ≠ .amqp then .done (.error (.unexpectedProto .amqp proto))
      else .send (openFrame 0 (ownOpen cfg id host)) (.recvAmqp cfg.maxFrameSize.toNat fun frame =>
        match frame.performative with
        | .open_ remote => .done (.ok { conn := .new (cfg.connCfg remote), codecMax := cfg.maxFrameSize.toNat, remote })
        | _ => .done (.error (.expectOpenFrame frame)))) := by
  cases host <;> rfl

theorem client_out0 (t : Bytes) : ∃ t', out ((clientSasl cfg auth id host).run .frameHeader t).1 =
    (Item.proto .amqpSasl).encode ++ t' := by
  rw [clientSasl, run_send, out_sent]
  exact ⟨_, rfl⟩

theorem client_out1 {m : SaslFrameBody} (hm : wf (SaslFrame.mk m)) (t : Bytes) :
    ∃ t', out ((clientSasl cfg auth id host).run .frameHeader
      ((Item.proto .amqpSasl).encode ++ ((Item.sasl m).encode ++ t))).1 =
    (Item.proto .amqpSasl).encode ++ ((plainInit cfg auth).encode ++ t') := by
  rw [clientSasl, run_send, run_proto, if_neg (by simp), run_sasl _ _ hm, run_send, out_sent, out_got, out_got, out_sent,
    plainInit_eq]
  exact ⟨_, rfl⟩

theorem client_out2 {m : SaslFrameBody} (hm : wf (SaslFrame.mk m)) (t : Bytes) :
    ∃ t', out ((clientSasl cfg auth id host).run .frameHeader
      ((Item.proto .amqpSasl).encode ++ ((Item.sasl m).encode ++
        ((Item.sasl (.saslOutcome ⟨.ok, none⟩)).encode ++ t)))).1 =
    (Item.proto .amqpSasl).encode ++ ((plainInit cfg auth).encode ++ ((Item.proto .amqp).encode ++ t')) := by
  rw [clientSasl, run_send, run_proto, if_neg (by simp), run_sasl _ _ hm, run_send,
    run_sasl' (outcome_wf .ok) (clientPlain cfg id host) (if_neg (by simp)), clientPlain_eq, run_send,
    out_sent, out_got, out_got, out_sent, out_got, out_sent, plainInit_eq]
  exact ⟨_, rfl⟩

theorem client_out3 {m : SaslFrameBody} (hm : wf (SaslFrame.mk m)) (t : Bytes) :
    ∃ t', out ((clientSasl cfg auth id host).run .frameHeader
      ((Item.proto .amqpSasl).encode ++ ((Item.sasl m).encode ++
        ((Item.sasl (.saslOutcome ⟨.ok, none⟩)).encode ++ ((Item.proto .amqp).encode ++ t))))).1 =
    (Item.proto .amqpSasl).encode ++ ((plainInit cfg auth).encode ++ ((Item.proto .amqp).encode ++
      ((openFrame 0 (ownOpen cfg id host)).encode ++ t'))) := by
  rw [clientSasl, run_send, run_proto, if_neg (by simp), run_sasl _ _ hm, run_send,
    run_sasl' (outcome_wf .ok) (clientPlain cfg id host) (if_neg (by simp)), clientPlain_eq, run_send, run_proto,
    if_neg (by simp), run_send,
    out_sent, out_got, out_got, out_sent, out_got, out_sent, out_got, out_sent, plainInit_eq]
  exact ⟨_, rfl⟩

theorem client_run {m : SaslFrameBody} (hm : wf (SaslFrame.mk m)) {ch : UInt16} {remote : Open}
    (hf : wf (AmqpFrame.mk ch (.open_ remote)))
    (ha : admits cfg.maxFrameSize.toNat (AmqpFrame.mk ch (.open_ remote)).encode.length) (t : Bytes) :
    (clientSasl cfg auth id host).run .frameHeader
      ((Item.proto .amqpSasl).encode ++ ((Item.sasl m).encode ++
        ((Item.sasl (.saslOutcome ⟨.ok, none⟩)).encode ++ ((Item.proto .amqp).encode ++
          ((openFrame ch remote).encode ++ t))))) =
    ([.sent (.proto .amqpSasl), .got (.proto .amqpSasl), .got (.sasl m), .sent (plainInit cfg auth),
      .got (.sasl (.saslOutcome ⟨.ok, none⟩)), .sent (.proto .amqp), .got (.proto .amqp),
      .sent (openFrame 0 (ownOpen cfg id host)), .got (openFrame ch remote)],
      .done (.ok ⟨.new (cfg.connCfg remote), cfg.maxFrameSize.toNat, remote⟩), .frameHeader, t) := by
  rw [clientSasl, run_send, run_proto, if_neg (by simp), run_sasl _ _ hm, run_send,
    run_sasl' (outcome_wf .ok) (clientPlain cfg id host) (if_neg (by simp)), clientPlain_eq, run_send, run_proto,
    if_neg (by simp), run_send, run_open hf ha _ rfl, run_done, plainInit_eq]

variable (svc : Service)

theorem server_out1 (hs : svc.sasl = true) (t : Bytes) :
    ∃ t', out ((server cfg id svc).run .frameHeader ((Item.proto .amqpSasl).encode ++ t)).1 =
    (Item.proto .amqpSasl).encode ++ ((Item.sasl (.saslMechanisms ⟨svc.mechanisms⟩)).encode ++ t') := by
  rw [server, run_proto' _ rfl, run_send, if_pos hs, serverSasl, run_send, out_got, out_sent, out_sent]
  exact ⟨_, rfl⟩

theorem server_out2 (hs : svc.sasl = true) {i : SaslInit} {code : SaslCode} (hp : svc.onInit i = .outcome code true)
    (hi : wf (SaslFrame.mk (.saslInit i))) (t : Bytes) :
    ∃ t', out ((server cfg id svc).run .frameHeader
      ((Item.proto .amqpSasl).encode ++ ((Item.sasl (.saslInit i)).encode ++ t))).1 =
    (Item.proto .amqpSasl).encode ++ ((Item.sasl (.saslMechanisms ⟨svc.mechanisms⟩)).encode ++
      ((Item.sasl (.saslOutcome ⟨code, none⟩)).encode ++ t')) := by
  rw [server, run_proto' _ rfl, run_send, if_pos hs, serverSasl, run_send,
    run_sasl' hi (initOutcome cfg id svc code true) (by simp only [hp]), initOutcome, run_send,
    out_got, out_sent, out_sent, out_got, out_sent]
  exact ⟨_, rfl⟩

theorem server_out3 (hs : svc.sasl = true) {i : SaslInit} {code : SaslCode} (hp : svc.onInit i = .outcome code true)
    (hi : wf (SaslFrame.mk (.saslInit i))) (t : Bytes) :
    ∃ t', out ((server cfg id svc).run .frameHeader
      ((Item.proto .amqpSasl).encode ++ ((Item.sasl (.saslInit i)).encode ++ ((Item.proto .amqp).encode ++ t)))).1 =
    (Item.proto .amqpSasl).encode ++ ((Item.sasl (.saslMechanisms ⟨svc.mechanisms⟩)).encode ++
      ((Item.sasl (.saslOutcome ⟨code, none⟩)).encode ++ ((Item.proto .amqp).encode ++ t'))) := by
  rw [server, run_proto' _ rfl, run_send, if_pos hs, serverSasl, run_send,
    run_sasl' hi (initOutcome cfg id svc code true) (by simp only [hp]), initOutcome, run_send, if_pos rfl,
    serverSuccess, run_proto' _ rfl, run_send,
    out_got, out_sent, out_sent, out_got, out_sent, out_got, out_sent]
  exact ⟨_, rfl⟩

end

/-- **C49** A SASL client and a server of this library whose service accepts the client: whatever way the bytes each of
them sent are cut, once all of them have arrived both have a connection, made from their own configuration and the
other's open. -/
theorem c49_both_open (ccfg scfg : Cfg) (auth : Auth) (cid sid : Str) (host : Option Str) (svc : Service)
    (hs : svc.sasl = true)
    (hp : svc.onInit ⟨⟨[0x50, 0x4c, 0x41, 0x49, 0x4e]⟩,
      some (auth.authzId.bytes ++ 0 :: auth.authnId.bytes ++ 0 :: auth.password.bytes), ccfg.hostname⟩ = .outcome .ok true)
    (ha : svc.ack (ownOpen ccfg cid host) = true)
    (hm : wf (SaslFrame.mk (.saslMechanisms ⟨svc.mechanisms⟩)))
    (hi : wf (SaslFrame.mk (.saslInit ⟨⟨[0x50, 0x4c, 0x41, 0x49, 0x4e]⟩,
      some (auth.authzId.bytes ++ 0 :: auth.authnId.bytes ++ 0 :: auth.password.bytes), ccfg.hostname⟩)))
    (hc : wf (AmqpFrame.mk 0 (.open_ (ownOpen ccfg cid host)))) (hso : wf (AmqpFrame.mk 0 (.open_ (scfg.toOpen sid))))
    (hmax : admits ccfg.maxFrameSize.toNat (AmqpFrame.mk 0 (.open_ (scfg.toOpen sid))).encode.length)
    (cin sin : List Bytes) (c s : Run Opened)
    (hcr : c = (Run.start (clientSasl ccfg auth cid host)).exec (cin.map .bytes))
    (hsr : s = (Run.start (server scfg sid svc)).exec (sin.map .bytes))
    (hcin : cin.flatten = stream s.sent) (hsin : sin.flatten = stream c.sent) :
    c.prog = .done (.ok ⟨.new (ccfg.connCfg (scfg.toOpen sid)), ccfg.maxFrameSize.toNat, scfg.toOpen sid⟩) ∧
    s.prog = .done (.ok ⟨.new (scfg.connCfg (ownOpen ccfg cid host)), scfg.maxSize, ownOpen ccfg cid host⟩) ∧
    c.buf = [] ∧ s.buf = [] := by
  rw [exec_chunks] at hcr hsr
  generalize cin.flatten = bc at *
  generalize sin.flatten = bs at *
  subst hcr hsr
  rw [stream_sent] at hcin hsin
  have hpi : plainInit ccfg auth = .sasl (.saslInit ⟨⟨[0x50, 0x4c, 0x41, 0x49, 0x4e]⟩,
      some (auth.authzId.bytes ++ 0 :: auth.authnId.bytes ++ 0 :: auth.password.bytes), ccfg.hostname⟩) := rfl
  generalize hin : SaslInit.mk ⟨[0x50, 0x4c, 0x41, 0x49, 0x4e]⟩
      (some (auth.authzId.bytes ++ 0 :: auth.authnId.bytes ++ 0 :: auth.password.bytes)) ccfg.hostname = i at *
  -- the conversation, one message at a time
  obtain ⟨t1, e1⟩ := client_out0 ccfg auth cid host bc
  have e1 := hsin.trans e1
  obtain ⟨t2, e2⟩ := server_out1 scfg sid svc hs t1
  have e2 := hcin.trans ((congrArg (fun b => out ((server scfg sid svc).run .frameHeader b).1) e1).trans e2)
  obtain ⟨t3, e3⟩ := client_out1 ccfg auth cid host hm t2
  have e3 := hsin.trans ((congrArg (fun b => out ((clientSasl ccfg auth cid host).run .frameHeader b).1) e2).trans e3)
  rw [hpi] at e3
  obtain ⟨t4, e4⟩ := server_out2 scfg sid svc hs hp hi t3
  have e4 := hcin.trans ((congrArg (fun b => out ((server scfg sid svc).run .frameHeader b).1) e3).trans e4)
  obtain ⟨t5, e5⟩ := client_out2 ccfg auth cid host hm t4
  have e5 := hsin.trans ((congrArg (fun b => out ((clientSasl ccfg auth cid host).run .frameHeader b).1) e4).trans e5)
  rw [hpi] at e5
  obtain ⟨t6, e6⟩ := server_out3 scfg sid svc hs hp hi t5
  have e6 := hcin.trans ((congrArg (fun b => out ((server scfg sid svc).run .frameHeader b).1) e5).trans e6)
  obtain ⟨t7, e7⟩ := client_out3 ccfg auth cid host hm t6
  have e7 := hsin.trans ((congrArg (fun b => out ((clientSasl ccfg auth cid host).run .frameHeader b).1) e6).trans e7)
  rw [hpi] at e7
  -- both ends
  have r7 := server_sasl_run scfg sid svc i .ok 0 (ownOpen ccfg cid host) t7 hs hp ha hi hc
  simp only [stream, List.flatMap_cons, List.flatMap_nil, List.append_assoc, List.append_nil] at r7
  rw [e7, r7] at hcin
  simp only [out_got, out_sent, out_nil] at hcin
  have r8 := client_run ccfg auth cid host hm hso hmax []
  simp only [List.append_nil] at r8 hcin
  rw [hcin, r8] at hsin
  simp only [out_got, out_sent, out_nil, List.append_nil] at hsin
  rw [hpi] at hsin
  have r9 := server_sasl_run scfg sid svc i .ok 0 (ownOpen ccfg cid host) [] hs hp ha hi hc
  simp only [stream, List.flatMap_cons, List.flatMap_nil, List.append_nil] at r9
  simp only [Run.of]
  rw [hcin, r8, hsin, r9]
  exact ⟨rfl, rfl, rfl, rfl⟩

/-- Such a pair of runs exists. -/
example : ∃ (cin sin : List Bytes) (c s : Run Opened),
    c = (Run.start (clientSasl aCfg anAuth (str "x") none)).exec (cin.map .bytes) ∧
    s = (Run.start (server aCfg (str "x") (answering .ok))).exec (sin.map .bytes) ∧
    cin.flatten = stream s.sent ∧ sin.flatten = stream c.sent ∧ wf (SaslFrame.mk (.saslMechanisms ⟨(answering .ok).mechanisms⟩)) := by
  have hm : wf (SaslFrame.mk (.saslMechanisms ⟨(answering .ok).mechanisms⟩)) := by
    refine ⟨⟨⟨fun x hx => ?_, by decide⟩, by decide⟩, by decide⟩
    simp only [answering, List.mem_singleton] at hx
    subst hx
    exact ⟨by decide, by decide⟩
  have h1 := client_run aCfg anAuth (str "x") none hm anOpen_wf (.inr (by decide)) []
  have h2 := server_sasl_run aCfg (str "x") (answering .ok) anInit .ok 0 anOpen [] rfl rfl rfl anInit_wf anOpen_wf
  refine ⟨[stream [.proto .amqpSasl, .sasl (.saslMechanisms ⟨(answering .ok).mechanisms⟩),
      .sasl (.saslOutcome ⟨.ok, none⟩), .proto .amqp, openFrame 0 anOpen]],
    [stream [.proto .amqpSasl, .sasl (.saslInit anInit), .proto .amqp, openFrame 0 anOpen]], _, _, rfl, rfl, ?_, ?_, hm⟩
  · rw [exec_chunks, List.flatten_singleton, List.flatten_singleton, stream_sent, ← List.append_nil (stream [_, _, _, _]), h2]
    rfl
  · rw [exec_chunks, List.flatten_singleton, List.flatten_singleton, stream_sent]
    simp only [List.append_nil] at h1
    simp only [stream, List.flatMap_cons, List.flatMap_nil, List.append_nil]
    rw [h1]
    rfl

end Amqp.Hs
