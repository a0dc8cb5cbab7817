import Verif.Lemmas.Handshake
/-! The connection handshake: C38 (client), C39 (server). -/

namespace Amqp.Hs

/-- Walk through a program. -/
syntax "walk" : tactic
macro_rules
  | `(tactic| walk) => `(tactic| repeat' first
      | exact trivial
      | refine And.intro ?_ ?_
      | refine fun _ => ?_
      | split
      | simp only [Prog.All])

/-! ## C38 -/

theorem mem_pre {P : Item → Prop} {l : List Ev} (h : ∃ x ∈ received l, P x) : ∃ x, .got x ∈ l ∧ P x := by
  obtain ⟨x, hx, hp⟩ := h
  refine ⟨x, ?_, hp⟩
  simp only [received, List.mem_filterMap] at hx
  obtain ⟨e, he, h⟩ := hx
  cases e with
  | sent => simp at h
  | got y => cases h; exact he

/-- **C38** A client using SASL sends its AMQP header, its open or any other AMQP frame only after it received an
outcome with code ok. -/
theorem c38_amqp_only_after_ok (cfg : Cfg) (auth : Auth) (id : Str) (host : Option Str) (steps : List Step)
    (pre post : List Ev) (x : Item)
    (h : ((Run.start (clientSasl cfg auth id host)).exec steps).log = pre ++ .sent x :: post) (hx : x.isAmqp) :
    ∃ y, .got y ∈ pre ∧ y.isOk := by
  refine mem_pre ?_
  refine (exec_all (P := fun pre e => ∀ x : Item, e = .sent x → x.isAmqp → ∃ y ∈ received pre, y.isOk)
    (W := fun _ => True) (Q := fun _ _ => True) ?_ steps).1 pre _ post h x rfl hx
  simp only [clientSasl, clientPlain, Prog.All]
  walk
  all_goals simp_all [received, Item.isOk]
  all_goals first | (subst_vars; simp_all [Item.isAmqp]; done) | skip

/-- What was received is what was expected, up to the last item. -/
def goodFrom (ex : List Item → Item → Prop) : List Item → List Ev → Prop
  | _, [] => True
  | seen, .sent _ :: l => goodFrom ex seen l
  | seen, .got y :: l => ex seen y ∧ goodFrom ex (seen ++ [y]) l

theorem goodFrom_split {ex : List Item → Item → Prop} {pre post : List Ev} {y : Item} {seen : List Item}
    (h : goodFrom ex seen (pre ++ .got y :: post)) : ex (seen ++ received pre) y := by
  induction pre generalizing seen with
  | nil => simpa [received] using h.1
  | cons e pre ih =>
    cases e with
    | sent x => simpa [received] using ih (seen := seen) h
    | got x => simpa [received] using ih (seen := seen ++ [x]) h.2

/-- If nothing follows an unexpected item, an unexpected item is the last event and the attempt has failed. -/
theorem aborts {ex : List Item → Item → Prop} {p : Prog ρ}
    (h : p.All (fun l _ => goodFrom ex [] l) (goodFrom ex []) (fun l r => goodFrom ex [] l ∨ ∃ e, r = .error e) [])
    {steps : List Step} {pre post : List Ev} {y : Item}
    (hl : ((Run.start p).exec steps).log = pre ++ .got y :: post) (hy : ¬ ex (received pre) y) :
    post = [] ∧ ((Run.start p).exec steps).Failed := by
  have hn {l : List Ev} : ¬ goodFrom ex [] (pre ++ .got y :: l) := fun hg => hy (by simpa using goodFrom_split hg)
  obtain ⟨h1, h2, h3⟩ := exec_all h steps
  have hp : post = [] := by
    cases post with
    | nil => rfl
    | cons e post => exact absurd (h1 (pre ++ [.got y]) e post (by simp [hl])) (by simpa using hn)
  refine ⟨hp, ?_⟩
  subst hp
  by_cases hw : ((Run.start p).exec steps).Waiting
  · exact absurd (hl ▸ h3 hw) hn
  · obtain ⟨x, hx⟩ : ∃ x, ((Run.start p).exec steps).prog = .done x :=
      Classical.byContradiction fun hn => hw fun x hx => hn ⟨x, hx⟩
    rcases h2 x hx with hg | ⟨e, rfl⟩
    · exact absurd (hl ▸ hg) hn
    · exact ⟨e, hx⟩

/-- **C38** Anything else aborts: when the client receives an item that is not the one expected at that point, that is
the last thing that happens, and the attempt has failed.  Partial: the server's mechanisms are not looked at, any SASL
frame is accepted in their place. -/
theorem c38_unexpected_aborts_partial (cfg : Cfg) (auth : Auth) (id : Str) (host : Option Str) (steps : List Step)
    (pre post : List Ev) (y : Item)
    (h : ((Run.start (clientSasl cfg auth id host)).exec steps).log = pre ++ .got y :: post)
    (hy : ¬ clientAccepts (received pre) y) :
    post = [] ∧ ((Run.start (clientSasl cfg auth id host)).exec steps).Failed := by
  refine aborts ?_ h hy
  simp only [clientSasl, clientPlain, Prog.All]
  walk
  all_goals simp_all [goodFrom, clientAccepts, clientExpects]

theorem plainInit_eq (cfg : Cfg) (auth : Auth) :
    plainInit cfg auth = .sasl (.saslInit (SaslInit.mk (sym "PLAIN") (some auth.response) cfg.hostname)) := by
  rw [plainInit, Auth.response]
  congr 2
  simp [sym, ascii]

/-- **C38** A client that got its connection has been through the whole conversation, in order. -/
theorem c38_success_only_by_the_book_partial (cfg : Cfg) (auth : Auth) (id : Str) (host : Option Str)
    (steps : List Step) (o : Opened)
    (h : ((Run.start (clientSasl cfg auth id host)).exec steps).prog = .done (.ok o)) :
    ∃ b out own ch, out.code = .ok ∧
      ((Run.start (clientSasl cfg auth id host)).exec steps).log =
        [.sent (.proto .amqpSasl), .got (.proto .amqpSasl), .got (.sasl b),
          .sent (plainInit cfg auth),
          .got (.sasl (.saslOutcome out)), .sent (.proto .amqp), .got (.proto .amqp), .sent (openFrame 0 own),
          .got (openFrame ch o.remote)] ∧
      own = { cfg.toOpen id with hostname := host.or cfg.hostname } ∧
      o.conn = .new (cfg.connCfg o.remote) ∧ o.codecMax = cfg.maxFrameSize.toNat := by
  refine (exec_all (P := fun _ _ => True) (W := fun _ => True)
    (Q := fun l r => ∀ o, r = .ok o → ∃ b out own ch, out.code = .ok ∧ l =
        [.sent (.proto .amqpSasl), .got (.proto .amqpSasl), .got (.sasl b),
          .sent (plainInit cfg auth),
          .got (.sasl (.saslOutcome out)), .sent (.proto .amqp), .got (.proto .amqp), .sent (openFrame 0 own),
          .got (openFrame ch o.remote)] ∧
      own = { cfg.toOpen id with hostname := host.or cfg.hostname } ∧
      o.conn = .new (cfg.connCfg o.remote) ∧ o.codecMax = cfg.maxFrameSize.toNat) ?_ steps).2.1 _ h o rfl
  simp only [clientSasl, clientPlain, Prog.All]
  walk
  all_goals subst_vars
  all_goals simp_all [openFrame, plainInit_eq]
  all_goals
    rename_i f _ remote x _ hc _ hf hx
    subst hx
    refine ⟨_, _, hc, _, ⟨rfl, rfl, rfl, f.channel, ?_⟩, rfl, rfl, rfl⟩
    cases f
    simp_all

/-- **C38** The other half: a server that answers as it should gets a connection, however its bytes are cut. -/
theorem c38_conforming_server_accepted (cfg : Cfg) (auth : Auth) (id : Str) (host : Option Str)
    (m : SaslMechanisms) (out : SaslOutcome) (ch : UInt16) (remote : Open) (rest : Bytes) (chunks : List Bytes)
    (hm : wf (SaslFrame.mk (.saslMechanisms m))) (ho : wf (SaslFrame.mk (.saslOutcome out))) (hc : out.code = .ok)
    (hf : wf (AmqpFrame.mk ch (.open_ remote)))
    (ha : admits cfg.maxFrameSize.toNat (AmqpFrame.mk ch (.open_ remote)).encode.length)
    (hb : chunks.flatten = stream [.proto .amqpSasl, .sasl (.saslMechanisms m), .sasl (.saslOutcome out), .proto .amqp,
      openFrame ch remote] ++ rest) :
    ((Run.start (clientSasl cfg auth id host)).exec (chunks.map .bytes)).prog =
        .done (.ok { conn := .new (cfg.connCfg remote), codecMax := cfg.maxFrameSize.toNat, remote }) ∧
      ((Run.start (clientSasl cfg auth id host)).exec (chunks.map .bytes)).buf = rest := by
  rw [exec_chunks, hb]
  suffices h : ((clientSasl cfg auth id host).run .frameHeader (stream [.proto .amqpSasl, .sasl (.saslMechanisms m),
      .sasl (.saslOutcome out), .proto .amqp, openFrame ch remote] ++ rest)).2 =
      (.done (.ok { conn := .new (cfg.connCfg remote), codecMax := cfg.maxFrameSize.toNat, remote }), .frameHeader, rest) by
    simp only [Run.of, h, and_self]
  simp only [stream, List.flatMap_cons, List.flatMap_nil, List.append_assoc, List.append_nil]
  rw [clientSasl, run_send, run_proto, if_neg (by simp), run_sasl _ _ hm, run_send, run_sasl _ _ ho]
  dsimp only
  rw [hc, if_neg (by simp), clientPlain, run_send, run_proto, if_neg (by simp), run_send, openFrame,
    run_amqp _ _ hf _ ha]
  dsimp only [AmqpFrame.asReceived, Frame.asReceived]
  rw [run_done]

/-! ## C39 -/

/-- **C39** Anything but an AMQP or SASL header is refused: the handshake fails and nothing is sent. -/
theorem c39_only_amqp_or_sasl (cfg : Cfg) (id : Str) (svc : Service) (hdr rest : Bytes) (chunks : List Bytes)
    (h8 : hdr.length = 8) (hn : hdr ≠ protocolHeader .amqp ∧ hdr ≠ protocolHeader .amqpSasl)
    (hb : chunks.flatten = hdr ++ rest) :
    ((Run.start (server cfg id svc)).exec (chunks.map .bytes)).Failed ∧
      ((Run.start (server cfg id svc)).exec (chunks.map .bytes)).sent = [] := by
  rw [exec_chunks, hb]
  simp only [Run.of, Run.Failed, Run.sent, server]
  rcases protocolId_cases hdr rest h8 with ⟨p, hp, hd⟩ | ⟨_, e, hd⟩
  · rw [Prog.run, hd]
    cases p with
    | amqp => exact absurd hp hn.1
    | amqpSasl => exact absurd hp hn.2
    | amqpTls => exact ⟨⟨_, rfl⟩, rfl⟩
  · rw [Prog.run, hd]
    exact ⟨⟨_, rfl⟩, rfl⟩

/-- **C39** Every outcome the server sends comes after the client's init, and so does every challenge. -/
theorem c39_init_before_outcome (cfg : Cfg) (id : Str) (svc : Service) (steps : List Step) (pre post : List Ev)
    (b : SaslFrameBody) (h : ((Run.start (server cfg id svc)).exec steps).log = pre ++ .sent (.sasl b) :: post) :
    (∃ m, b = .saslMechanisms m) ∨ ∃ i, .got (.sasl (.saslInit i)) ∈ pre := by
  refine (exec_all (P := fun pre e => ∀ b, e = .sent (.sasl b) →
      (∃ m, b = .saslMechanisms m) ∨ ∃ i, Ev.got (.sasl (.saslInit i)) ∈ pre)
    (W := fun _ => True) (Q := fun _ _ => True) ?_ steps).1 pre _ post h b rfl
  simp only [server, serverSasl, serverOpen, serverAck, serverChallenge, serverSuccess, initOutcome, respOutcome,
    Prog.All]
  walk
  all_goals simp_all
  exact ⟨_, Eq.symm ‹_›⟩

theorem open_frame {f : AmqpFrame} {r : Open} (h : f.performative = .open_ r) :
    ∃ ch o, f = { channel := ch, performative := .open_ o } := ⟨f.channel, r, by cases f; simp_all⟩

/-- **C39** An item that does not belong there is the last thing that happens, and the handshake has failed. -/
theorem c39_unexpected_aborts (cfg : Cfg) (id : Str) (svc : Service) (steps : List Step) (pre post : List Ev) (y : Item)
    (h : ((Run.start (server cfg id svc)).exec steps).log = pre ++ .got y :: post)
    (hy : ¬ serverAccepts (received pre) y) :
    post = [] ∧ ((Run.start (server cfg id svc)).exec steps).Failed := by
  refine aborts ?_ h hy
  simp only [server, serverSasl, serverOpen, serverAck, serverChallenge, serverSuccess, initOutcome, respOutcome,
    Prog.All]
  walk
  all_goals clear h hy
  all_goals simp_all [goodFrom, serverAccepts, openFrame]
  all_goals exact open_frame ‹_›

theorem open_path {f : AmqpFrame} {r : Open} (h : f.performative = .open_ r) :
    f = { channel := f.channel, performative := .open_ r } := by cases f; simp_all

/-- **C39** A server handshake that ends with a connection went through one of the specified conversations from its
beginning to its end, and the connection is set up from the two opens. -/
theorem c39_only_by_the_book (cfg : Cfg) (id : Str) (svc : Service) (steps : List Step) (o : Opened)
    (h : ((Run.start (server cfg id svc)).exec steps).prog = .done (.ok o)) :
    ServerPath cfg id svc.mechanisms o.remote ((Run.start (server cfg id svc)).exec steps).log ∧
      o.conn = .new (cfg.connCfg o.remote) ∧ o.codecMax = cfg.maxSize := by
  refine (exec_all (P := fun _ _ => True) (W := fun _ => True)
    (Q := fun l r => ∀ o, r = .ok o → ServerPath cfg id svc.mechanisms o.remote l ∧
      o.conn = .new (cfg.connCfg o.remote) ∧ o.codecMax = cfg.maxSize) ?_ steps).2.1 _ h o rfl
  clear h
  simp only [server, serverSasl, serverOpen, serverAck, serverChallenge, serverSuccess, initOutcome, respOutcome,
    Prog.All]
  walk
  all_goals rename_i hx
  all_goals first | (simp at hx; done) | skip
  all_goals cases hx
  all_goals first | rfl | skip
  all_goals rename AmqpFrame.performative _ = Frame.open_ _ => hf
  all_goals rw [open_path hf]
  all_goals first
    | exact .plain _
    | exact .sasl _ _ _
    | exact .challenge _ _ _ _ _ _

/-- **C39** The server sends AMQP frames only at the end of such a conversation: its open is the last step of it. -/
theorem c39_open_ends_the_path (cfg : Cfg) (id : Str) (svc : Service) (steps : List Step) (pre post : List Ev)
    (f : AmqpFrame) (h : ((Run.start (server cfg id svc)).exec steps).log = pre ++ .sent (.amqp f) :: post) :
    ∃ remote, ServerPath cfg id svc.mechanisms remote (pre ++ [.sent (.amqp f)]) := by
  refine (exec_all (P := fun pre e => ∀ f, e = .sent (.amqp f) →
      ∃ remote, ServerPath cfg id svc.mechanisms remote (pre ++ [.sent (.amqp f)]))
    (W := fun _ => True) (Q := fun _ _ => True) ?_ steps).1 pre _ post h f rfl
  clear h
  simp only [server, serverSasl, serverOpen, serverAck, serverChallenge, serverSuccess, initOutcome, respOutcome,
    Prog.All]
  walk
  all_goals rename_i hx
  all_goals first | (simp at hx; done) | skip
  all_goals cases hx
  all_goals first | rfl | skip
  all_goals rename AmqpFrame.performative _ = Frame.open_ _ => hf
  all_goals rw [open_path hf]
  all_goals first
    | exact ⟨_, .plain _⟩
    | exact ⟨_, .sasl _ _ _⟩
    | exact ⟨_, .challenge _ _ _ _ _ _⟩

/-- **C39** If the service itself goes on only after an ok outcome, a connection with another outcome is not opened.
Partial: the library does not see to it, see `c39_refused_but_opened`. -/
theorem c39_not_ok_not_opened_partial (cfg : Cfg) (id : Str) (svc : Service) (hs : svc.Careful) (steps : List Step)
    (o : Opened) (h : ((Run.start (server cfg id svc)).exec steps).prog = .done (.ok o)) (out : SaslOutcome)
    (ho : .sent (.sasl (.saslOutcome out)) ∈ ((Run.start (server cfg id svc)).exec steps).log) : out.code = .ok := by
  refine (exec_all (P := fun _ _ => True) (W := fun _ => True)
    (Q := fun l r => ∀ o, r = .ok o → ∀ out, Ev.sent (.sasl (.saslOutcome out)) ∈ l → out.code = .ok) ?_ steps).2.1
    _ h o rfl out ho
  clear h ho
  simp only [server, serverSasl, serverOpen, serverAck, serverChallenge, serverSuccess, initOutcome, respOutcome,
    Prog.All]
  walk
  all_goals try simp at *
  all_goals subst_vars
  all_goals first
    | exact hs.1 _ _ ‹_›
    | exact hs.2 _ _ _ _ _ ‹_› ‹_›

end Amqp.Hs
