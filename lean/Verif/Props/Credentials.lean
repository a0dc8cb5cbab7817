import Verif.Props.HandshakeDuplex
import Verif.Lemmas.Claims
/-!
# C90: the credentials of a client

What a client that authenticates with PLAIN sends, and how RFC 4616 reads it.
-/

namespace Amqp.Hs

/-- RFC 4616 §2: `message = [authzid] UTF8NUL authcid UTF8NUL passwd`, where none of the three contains NUL. -/
structure PlainMessage (b authzid authcid passwd : Bytes) : Prop where
  shape : b = authzid ++ 0 :: authcid ++ 0 :: passwd
  authzid : 0 ∉ authzid
  authcid : 0 ∉ authcid
  passwd : 0 ∉ passwd

/-- None of the three parts contains NUL. -/
structure Auth.NoNul (a : Auth) : Prop where
  authzId : 0 ∉ a.authzId.bytes
  authnId : 0 ∉ a.authnId.bytes
  password : 0 ∉ a.password.bytes

theorem split_unique {x y s t : Bytes} (hx : (0 : UInt8) ∉ x) (hy : (0 : UInt8) ∉ y) (h : x ++ 0 :: s = y ++ 0 :: t) :
    x = y ∧ s = t := by
  induction x generalizing y with
  | nil =>
    cases y with
    | nil => exact ⟨rfl, by simpa using h⟩
    | cons b y => simp at h; exact absurd (h.1 ▸ List.mem_cons_self) hy
  | cons a x ih =>
    cases y with
    | nil => simp at h; exact absurd (h.1 ▸ List.mem_cons_self) hx
    | cons b y =>
      simp only [List.cons_append, List.cons.injEq] at h
      obtain ⟨rfl, rfl⟩ := ih (fun m => hx (List.mem_cons_of_mem _ m)) (fun m => hy (List.mem_cons_of_mem _ m)) h.2
      exact ⟨by rw [h.1], rfl⟩

/-- **C90** There is one way to read a PLAIN message. -/
theorem c90_one_reading {b z n p z' n' p' : Bytes} (h : PlainMessage b z n p) (h' : PlainMessage b z' n' p') :
    z = z' ∧ n = n' ∧ p = p' := by
  have e := h.shape.symm.trans h'.shape
  simp only [List.append_assoc, List.cons_append] at e
  obtain ⟨h1, e⟩ := split_unique h.authzid h'.authzid e
  obtain ⟨h2, h3⟩ := split_unique h.authcid h'.authcid e
  exact ⟨h1, h2, h3⟩

/-- **C90** Credentials without NUL are presented as RFC 4616 has it, and read as what they are. -/
theorem c90_presented (a : Auth) (h : a.NoNul) (z n p : Bytes) :
    PlainMessage a.response z n p ↔ z = a.authzId.bytes ∧ n = a.authnId.bytes ∧ p = a.password.bytes := by
  have hm : PlainMessage a.response a.authzId.bytes a.authnId.bytes a.password.bytes :=
    ⟨by simp [Auth.response], h.authzId, h.authnId, h.password⟩
  constructor
  · exact fun h' => c90_one_reading h' hm
  · rintro ⟨rfl, rfl, rfl⟩
    exact hm

/-- **C90** Different credentials are presented differently. -/
theorem c90_told_apart (a b : Auth) (ha : a.NoNul) (hb : b.NoNul) (h : a.response = b.response) : a = b := by
  obtain ⟨h1, h2, h3⟩ := (c90_presented b hb _ _ _).mp (h ▸ (c90_presented a ha _ _ _).mpr ⟨rfl, rfl, rfl⟩)
  cases a with | mk z n p => cases b with | mk z' n' p' =>
  cases z; cases n; cases p; cases z'; cases n'; cases p'
  simp only at h1 h2 h3
  rw [h1, h2, h3]

/-- **C90** Violated without that condition, which the client does not check: a NUL in the user name moves the boundary to
the password.  Whoever chooses the user name `u NUL w` for password `p` presents the same bytes as the user `u` with
password `w NUL p`; and one in the authorization identity makes the user name someone else's. -/
theorem c90_confused (z u w p : Bytes) :
    (Auth.mk ⟨z⟩ ⟨u ++ 0 :: w⟩ ⟨p⟩).response = (Auth.mk ⟨z⟩ ⟨u⟩ ⟨w ++ 0 :: p⟩).response ∧
    (Auth.mk ⟨z ++ 0 :: u⟩ ⟨w⟩ ⟨p⟩).response = (Auth.mk ⟨z⟩ ⟨u⟩ ⟨w ++ 0 :: p⟩).response := by
  constructor <;> simp [Auth.response]

/-- **C90** Such a message has no reading at all under RFC 4616: a strict server refuses it. -/
theorem c90_unreadable (a : Auth) (h : ¬ a.NoNul) (z n p : Bytes) : ¬ PlainMessage a.response z n p := by
  intro hm
  have count : a.response.count 0 = 2 := by
    rw [hm.shape]
    simp [List.count_append, List.count_eq_zero.mpr hm.authzid, List.count_eq_zero.mpr hm.authcid,
      List.count_eq_zero.mpr hm.passwd]
  simp only [Auth.response, List.count_append, List.count_cons, List.count_nil] at count
  simp only [beq_self_eq_true, if_true] at count
  exact h ⟨List.count_eq_zero.mp (by omega), List.count_eq_zero.mp (by omega), List.count_eq_zero.mp (by omega)⟩

/-- **C90** In every execution of a client's handshake, whatever the server sends: the only SASL frame the client sends is
the PLAIN init with its credentials, once, after the server has answered the SASL header with the same. -/
theorem c90_sent (cfg : Cfg) (auth : Auth) (id : Str) (host : Option Str) (steps : List Step)
    (pre post : List Ev) (f : SaslFrameBody)
    (h : ((Run.start (clientSasl cfg auth id host)).exec steps).log = pre ++ .sent (.sasl f) :: post) :
    f = .saslInit { mechanism := sym "PLAIN", initialResponse := some auth.response, hostname := cfg.hostname } ∧
    .got (.proto .amqpSasl) ∈ pre ∧ ∀ g, .sent (.sasl g) ∉ pre := by
  refine (exec_all (P := fun pre e => ∀ f, e = .sent (.sasl f) →
      f = .saslInit { mechanism := sym "PLAIN", initialResponse := some auth.response, hostname := cfg.hostname } ∧
      .got (.proto .amqpSasl) ∈ pre ∧ ∀ g, .sent (.sasl g) ∉ pre)
    (W := fun _ => True) (Q := fun _ _ => True) ?_ steps).1 pre _ post h f rfl
  simp only [clientSasl, clientPlain, Prog.All]
  walk
  all_goals simp_all

/-- **C90** and a client without credentials sends no SASL frame. -/
theorem c90_none_sent (cfg : Cfg) (id : Str) (host : Option Str) (steps : List Step) (f : SaslFrameBody) :
    .sent (.sasl f) ∉ ((Run.start (clientPlain cfg id host)).exec steps).log := by
  intro hm
  obtain ⟨pre, post, h⟩ := List.append_of_mem hm
  refine (exec_all (P := fun _ e => ∀ f, e = .sent (.sasl f) → False)
    (W := fun _ => True) (Q := fun _ _ => True) ?_ steps).1 pre _ post h f rfl
  simp only [clientPlain, Prog.All]
  walk
  all_goals simp_all

/-- **C90** The server's application is shown the credentials themselves: the frame is decoded to the init that was sent. -/
theorem c90_seen (cfg : Cfg) (auth : Auth)
    (h : wf (SaslInit.mk (sym "PLAIN") (some auth.response) cfg.hostname)) (rest : Bytes) :
    ∃ i, (dec : Dec SaslInit) (enc (SaslInit.mk (sym "PLAIN") (some auth.response) cfg.hostname) ++ rest) = .ok (i, rest) ∧
      i.initialResponse = some auth.response ∧ i.mechanism = sym "PLAIN" :=
  ⟨_, roundTrips _ h rest, rfl, rfl⟩

-- credentials that meet the condition, and some that do not
example : (Auth.mk ⟨[]⟩ ⟨ascii "u"⟩ ⟨ascii "p"⟩).NoNul := ⟨by decide, by decide, by decide⟩
example : ¬ (Auth.mk ⟨[]⟩ ⟨[0x75, 0, 0x77]⟩ ⟨ascii "p"⟩).NoNul := fun h => absurd h.authnId (by decide)

end Amqp.Hs
