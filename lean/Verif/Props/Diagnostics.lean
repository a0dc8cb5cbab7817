import Verif.Model.Diagnostics
import Verif.Props.HandshakeWhy
/-!
# C94: whom a failed connection is blamed on
-/

namespace Amqp.Hs

/-- Where an outcome can end the handshake: after the SASL header and one SASL frame. -/
theorem sasl_at (cfg : Cfg) (auth : Auth) (id : Str) (host : Option Str) :
    (clientSasl cfg auth id host).AtEnd (goodFrom clientAccepts []) (fun l r => ∀ code, r = .error (.sasl code) →
      ∃ pre o, l = pre ++ [.got (.sasl (.saslOutcome o))] ∧ (∃ b, received pre = [.proto .amqpSasl, .sasl b]) ∧
        o.code = code ∧ code ≠ .ok) [] := by
  simp only [clientSasl, clientPlain, Prog.AtEnd]
  ends
  all_goals first
    | (simp_all [goodFrom, clientAccepts, clientExpects]; done)
    | skip
  all_goals rename_i hx
  all_goals cases hx
  all_goals refine ⟨_, _, rfl, ?_, ?_⟩ <;> simp_all [received]

/-- **C94** A connection that fails is put down to the client exactly if the server answered its credentials with an outcome
that says `auth` or `sys-perm`. -/
theorem c94_client_blamed (cfg : Cfg) (auth : Auth) (id : Str) (host : Option Str) (steps : List Step) :
    (∃ e, ((Run.start (clientSasl cfg auth id host)).exec steps).prog = .done (.error e) ∧ e.typ = .clientError) ↔
      ∃ pre o b post, ((Run.start (clientSasl cfg auth id host)).exec steps).log = pre ++ .got (.sasl (.saslOutcome o)) :: post ∧
        received pre = [.proto .amqpSasl, .sasl b] ∧ (o.code = .auth ∨ o.code = .sysPerm) := by
  constructor
  · rintro ⟨e, h, ht⟩
    obtain ⟨code, rfl, hcode⟩ : ∃ code, e = .sasl code ∧ (code = .auth ∨ code = .sysPerm) := by
      unfold Err.typ at ht
      split at ht
      · exact ⟨_, rfl, .inl rfl⟩
      · exact ⟨_, rfl, .inr rfl⟩
      · cases ht
    rcases exec_atEnd (sasl_at cfg auth id host) steps h with h | ⟨e', he, hc, -⟩
    · obtain ⟨pre, o, hl, ⟨b, hr⟩, ho, -⟩ := h code rfl
      exact ⟨pre, o, b, [], hl, hr, by rw [ho]; exact hcode⟩
    · cases he
      cases hc
  · rintro ⟨pre, o, b, post, hl, hr, ho⟩
    have hn : ¬ clientAccepts (received pre) (.sasl (.saslOutcome o)) := by
      rw [hr]
      rintro ⟨o', ho', hok⟩
      cases ho'
      rcases ho with ho | ho <;> rw [ho] at hok <;> cases hok
    refine ⟨_, c82_client_names_item cfg auth id host steps pre post _ hl hn, ?_⟩
    simp only [clientComplaint]
    rcases ho with ho | ho <;> rw [ho] <;> rfl

/-- **C94** A client that does not authenticate is never blamed. -/
theorem c94_plain_never (cfg : Cfg) (id : Str) (host : Option Str) (steps : List Step) (e : Err)
    (h : ((Run.start (clientPlain cfg id host)).exec steps).prog = .done (.error e)) : e.typ = .serviceError := by
  have hs : (clientPlain cfg id host).AtEnd (goodFrom plainAccepts []) (fun _ r => ∀ code, r ≠ .error (.sasl code)) [] := by
    simp only [clientPlain, Prog.AtEnd]
    ends
    all_goals first
      | (simp_all [goodFrom, plainAccepts]; done)
      | skip
  rcases exec_atEnd hs steps h with h | ⟨e', he, hc, -⟩
  · unfold Err.typ
    split
    · exact absurd rfl (h _)
    · exact absurd rfl (h _)
    · rfl
  · cases he
    cases hc <;> rfl

/-- **C94** The signature of a timeout is given only if the time was up, and that of SASL only if the server sent an outcome
other than `ok`. -/
theorem c94_signature (cfg : Cfg) (auth : Auth) (id : Str) (host : Option Str) (steps : List Step) (e : Err)
    (h : ((Run.start (clientSasl cfg auth id host)).exec steps).prog = .done (.error e)) :
    (e.signature = "amqp-client-HandshakeTimeout" → Step.timeout ∈ steps) ∧
      (e.signature = "amqp-client-Sasl" → ∃ pre o, ((Run.start (clientSasl cfg auth id host)).exec steps).log =
        pre ++ [.got (.sasl (.saslOutcome o))] ∧ o.code ≠ .ok) := by
  constructor
  · intro hs
    obtain rfl : e = .timeout := by cases e <;> first | rfl | (simp [Err.signature] at hs)
    rcases c82_client_says_why cfg auth id host steps _ h with ⟨-, hc⟩ | ⟨pre, y, -, -, hc⟩
    · cases hc
      assumption
    · unfold clientComplaint at hc
      split at hc <;> cases hc
  · intro hs
    obtain ⟨code, rfl⟩ : ∃ code, e = .sasl code := by
      cases e <;> first | exact ⟨_, rfl⟩ | (simp [Err.signature] at hs)
    rcases exec_atEnd (sasl_at cfg auth id host) steps h with h | ⟨e', he, hc, -⟩
    · obtain ⟨pre, o, hl, -, ho, hk⟩ := h code rfl
      exact ⟨pre, o, hl, by rw [ho]; exact hk⟩
    · cases he
      cases hc

/-- **C94** Signatures tell the errors apart: each belongs to one kind of error and to all errors of that kind. -/
theorem c94_told_apart (e : Err) :
    (e.signature = "amqp-client-HandshakeTimeout" ↔ e = .timeout) ∧
      (e.signature = "amqp-client-Disconnected" ↔ e = .disconnected) ∧
      (e.signature = "amqp-client-Sasl" ↔ ∃ c, e = .sasl c) ∧
      (e.signature = "amqp-client-Codec" ↔ ∃ c, e = .codec c) ∧
      (e.signature = "amqp-client-ExpectOpenFrame" ↔ ∃ f, e = .expectOpenFrame f) ∧
      (e.signature = "amqp-client-ProtocolNegotiation" ↔ (∃ p, e = .proto p) ∨ ∃ p q, e = .unexpectedProto p q) := by
  cases e <;> simp [Err.signature]

/-- **C94** Violated: `sys-perm` says that the server has a permanent system error (AMQP 1.0 §5.3.3.6); the client is blamed
for it, though not for `sys` and `sys-temp`. -/
theorem c94_sys_perm : (Err.sasl .sysPerm).typ = .clientError ∧ (Err.sasl .sys).typ = .serviceError ∧
    (Err.sasl .sysTemp).typ = .serviceError := ⟨rfl, rfl, rfl⟩

/-- There is a run in which the client is blamed. -/
example : ∃ steps e, ((Run.start (clientSasl aCfg anAuth (str "x") none)).exec steps).prog = .done (.error e) ∧
    e.typ = .clientError := by
  refine ⟨[(stream [.proto .amqpSasl, .sasl (.saslOutcome { code := .ok, additionalData := none }),
    .sasl (.saslOutcome { code := .auth, additionalData := none })])].map Step.bytes, .sasl .auth, ?_, rfl⟩
  rw [exec_chunks, List.flatten_singleton]
  simp only [stream, List.flatMap_cons, List.flatMap_nil, Run.of]
  rw [clientSasl, run_send, run_proto, if_neg (by simp), run_sasl _ _ (outcome_wf .ok), run_send,
    run_sasl' (outcome_wf .auth) _ (if_pos (by simp)), run_done]

end Amqp.Hs
