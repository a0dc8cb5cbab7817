import Verif.Props.HandshakeDuplex
import Verif.Props.Connections
import Verif.Props.Sending
/-!
# The limits exchanged in the opens are the limits observed: C59
-/

namespace Amqp.Hs
open Rt

/-- The connection keeps to the limits in the two opens, whatever happens on it: it begins sessions on channels below its
own channel-max only, and no transfer of any session makes a frame larger than the peer's max-frame-size.

The latter under the restrictions of `c24_sent_frames_fit_partial`. -/
structure KeepsTo (own remote : Open) (conn : Conn) : Prop where
  channels : ∀ steps, ∀ ch ∈ begunHere (conn.run steps).log, ch < own.channelMax
  frames : ∀ steps s x, (conn.run steps).obj? s = some x → remote.maxFrameSize > 2048 →
    (∀ y ∈ x.sends, y.req.body.coherent ∧ ∀ g, y.req.tag = some g → g.length ≤ 1996) →
    ∀ t ∈ sentTransfers x.log, ∀ channel, (AmqpFrame.encode ⟨channel, .transfer t⟩).length ≤ remote.maxFrameSize.toNat

theorem maxFrameSize_run (cfg : ConnCfg) (steps : List CStep) :
    ((Conn.new cfg).run steps).maxFrameSize = cfg.remoteMaxFrameSize := by
  refine (Conn.run_micros (Conn.new cfg) steps).invariant (P := fun c => c.maxFrameSize = cfg.remoteMaxFrameSize) ?_ rfl
  intro c d m h
  cases m
  case session s x st hx =>
    obtain ⟨evs, _, _, _, _, _, h5, _⟩ := Conn.onSession_eq st hx
    exact h5.trans h
  case complete tok op ch b hs =>
    unfold Conn.completeLocal
    rw [hs]
    exact h
  case unregister ch => unfold Conn.unregister; split <;> exact h
  all_goals exact h

theorem keepsTo_new {own remote : Open} {cfg : ConnCfg} (h₁ : cfg.localChannelMax = own.channelMax)
    (h₂ : cfg.remoteMaxFrameSize = remote.maxFrameSize) : KeepsTo own remote (.new cfg) := by
  constructor
  · intro steps ch h
    rw [← h₁]
    exact c36_own_limit_partial cfg steps ch h
  · intro steps s x hx hm hs t ht channel
    obtain ⟨hr, he⟩ := c35_sessions_reachable _ ⟨cfg, steps, rfl⟩ s x hx
    rw [maxFrameSize_run, h₂] at he
    rw [← he] at hm ⊢
    exact c24_sent_frames_fit_partial x hr hm (fun y hy => (hs y hy).1) (fun y hy => (hs y hy).2) channel t ht

/-- **C59** A client that got its connection, with or without SASL, has sent the limits it was configured with, and keeps
to these and to those it received; its decoder refuses what is larger than it announced, and nothing smaller. -/
theorem c59_client_partial (cfg : Cfg) (auth : Auth) (id : Str) (host : Option Str) (steps : List Step) (o : Opened)
    (p : Prog Opened) (hp : p = clientSasl cfg auth id host ∨ p = clientPlain cfg id host)
    (h : ((Run.start p).exec steps).prog = .done (.ok o)) :
    ∃ own ch, .sent (openFrame 0 own) ∈ ((Run.start p).exec steps).log ∧
      .got (openFrame ch o.remote) ∈ ((Run.start p).exec steps).log ∧
      own.maxFrameSize = cfg.maxFrameSize ∧ own.channelMax = cfg.channelMax ∧ KeepsTo own o.remote o.conn ∧
      o.codecMax = own.maxFrameSize.toNat := by
  rcases hp with rfl | rfl
  · obtain ⟨b, out, own, ch, _, hl, ho, hc, hm⟩ := c38_success_only_by_the_book_partial cfg auth id host steps o h
    refine ⟨own, ch, by rw [hl]; simp, by rw [hl]; simp, by rw [ho]; rfl, by rw [ho]; rfl, ?_, by rw [hm, ho]; rfl⟩
    rw [hc]
    exact keepsTo_new (by rw [ho]; rfl) rfl
  · refine (exec_all (P := fun _ _ => True) (W := fun _ => True)
      (Q := fun l r => ∀ o, r = .ok o → ∃ own ch, .sent (openFrame 0 own) ∈ l ∧ .got (openFrame ch o.remote) ∈ l ∧
        own.maxFrameSize = cfg.maxFrameSize ∧ own.channelMax = cfg.channelMax ∧ KeepsTo own o.remote o.conn ∧
        o.codecMax = own.maxFrameSize.toNat) ?_ steps).2.1 _ h o rfl
    clear h
    rw [clientPlain_eq]
    refine ⟨trivial, trivial, fun e o ho => (by simp at ho), fun pr => ⟨trivial, ?_⟩⟩
    dsimp only
    split
    · intro o ho; simp at ho
    · refine ⟨trivial, trivial, fun e o ho => (by simp at ho), fun f => ⟨trivial, ?_⟩⟩
      dsimp only
      cases hf : f.performative
      case open_ remote =>
        intro o ho
        obtain rfl := (Except.ok.inj ho).symm
        refine ⟨ownOpen cfg id host, f.channel, by simp, ?_, rfl, rfl, keepsTo_new rfl rfl, rfl⟩
        have : openFrame f.channel remote = .amqp f := by rw [openFrame]; cases f; simp_all
        rw [this]; simp
      all_goals
        intro o ho
        simp at ho

/-- **C59** So does a server, except that its decoder's limit is another one, see `c59_server_limit_differs`. -/
theorem c59_server_partial (cfg : Cfg) (id : Str) (svc : Service) (steps : List Step) (o : Opened)
    (h : ((Run.start (server cfg id svc)).exec steps).prog = .done (.ok o)) :
    ∃ own ch, .sent (openFrame 0 own) ∈ ((Run.start (server cfg id svc)).exec steps).log ∧
      .got (openFrame ch o.remote) ∈ ((Run.start (server cfg id svc)).exec steps).log ∧
      own.maxFrameSize = cfg.maxFrameSize ∧ own.channelMax = cfg.channelMax ∧ KeepsTo own o.remote o.conn := by
  obtain ⟨hpath, hc, _⟩ := c39_only_by_the_book cfg id svc steps o h
  generalize ((Run.start (server cfg id svc)).exec steps).log = l at hpath
  refine ⟨cfg.toOpen id, ?_⟩
  have hk : KeepsTo (cfg.toOpen id) o.remote o.conn := by rw [hc]; exact keepsTo_new rfl rfl
  cases hpath with
  | plain ch => exact ⟨ch, by simp, by simp, rfl, rfl, hk⟩
  | sasl i code ch => exact ⟨ch, by simp, by simp, rfl, rfl, hk⟩
  | challenge i b a code x ch => exact ⟨ch, by simp, by simp, rfl, rfl, hk⟩

/-- Connections come out of both. -/
example : ∃ steps o, ((Run.start (server aCfg (str "s") (answering .ok))).exec steps).prog = .done (.ok o) := by
  have h := server_sasl_run aCfg (str "s") (answering .ok) anInit .ok 0 anOpen [] rfl rfl rfl anInit_wf anOpen_wf
  refine ⟨[stream [.proto .amqpSasl, .sasl (.saslInit anInit), .proto .amqp, openFrame 0 anOpen] ++ []].map Step.bytes,
    ⟨.new (aCfg.connCfg anOpen), aCfg.maxSize, anOpen⟩, ?_⟩
  rw [exec_chunks, List.flatten_singleton, Run.of, h]

/-- **C59** (violated) A server tells the client that frames of 65535 bytes are welcome, and its decoder refuses any of more
than `max_size`, here 100, bytes: the configured `max_size` takes the place of `max_frame_size`. -/
theorem c59_server_limit_differs : ∃ (cfg : Cfg) (steps : List Step) (o : Opened) (own : Open),
    ((Run.start (server cfg (str "s") (answering .ok))).exec steps).prog = .done (.ok o) ∧
    .sent (openFrame 0 own) ∈ ((Run.start (server cfg (str "s") (answering .ok))).exec steps).log ∧
    own.maxFrameSize = 65535 ∧ o.codecMax = 100 ∧
    ∀ rest, codecDecode AmqpFrame.decode o.codecMax .frameHeader ([0, 0, 0, 101, 2, 0, 0, 0] ++ rest) =
      (.error .maxSizeExceeded, .frameHeader, [0, 0, 0, 101, 2, 0, 0, 0] ++ rest) := by
  have h := server_sasl_run { aCfg with maxSize := 100 } (str "s") (answering .ok) anInit .ok 0 anOpen [] rfl rfl rfl
    anInit_wf anOpen_wf
  refine ⟨{ aCfg with maxSize := 100 },
    [stream [.proto .amqpSasl, .sasl (.saslInit anInit), .proto .amqp, openFrame 0 anOpen] ++ []].map Step.bytes,
    ⟨.new ({ aCfg with maxSize := 100 }.connCfg anOpen), 100, anOpen⟩, Cfg.toOpen { aCfg with maxSize := 100 } (str "s"),
    ?_, ?_, rfl, rfl, fun rest => ?_⟩
  · rw [exec_chunks, List.flatten_singleton, Run.of, h]
  · rw [exec_chunks, List.flatten_singleton, Run.of, h]
    simp
  · exact (c09_refused_from_header _ 100 [0, 0, 0, 101, 2, 0, 0, 0] rest rfl).1 (by decide) (by decide)

/-- **C59** (violated) With the default, `max_size = 0`, there is no limit at all: a server decodes frames of any size, whatever
it announced. -/
theorem c59_server_no_limit : ∃ (steps : List Step) (o : Opened) (own : Open),
    ((Run.start (server aCfg (str "s") (answering .ok))).exec steps).prog = .done (.ok o) ∧
    .sent (openFrame 0 own) ∈ ((Run.start (server aCfg (str "s") (answering .ok))).exec steps).log ∧
    own.maxFrameSize = 65535 ∧
    ∀ f : AmqpFrame, wf f → ∀ rest,
      codecDecode AmqpFrame.decode o.codecMax .frameHeader (codecEncode AmqpFrame.encode f [] ++ rest) =
        (.ready f.asReceived, .frameHeader, rest) := by
  have h := server_sasl_run aCfg (str "s") (answering .ok) anInit .ok 0 anOpen [] rfl rfl rfl anInit_wf anOpen_wf
  refine ⟨[stream [.proto .amqpSasl, .sasl (.saslInit anInit), .proto .amqp, openFrame 0 anOpen] ++ []].map Step.bytes,
    ⟨.new (aCfg.connCfg anOpen), 0, anOpen⟩, aCfg.toOpen (str "s"), ?_, ?_, rfl, fun f hf rest => ?_⟩
  · rw [exec_chunks, List.flatten_singleton, Run.of, h]; rfl
  · rw [exec_chunks, List.flatten_singleton, Run.of, h]
    simp
  · exact c07_amqp_frame_read_back f hf 0 (.inl rfl) rest

end Amqp.Hs
