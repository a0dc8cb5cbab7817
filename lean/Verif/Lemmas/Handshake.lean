import Verif.Spec.Handshake
import Verif.Props.Frame
/-! Facts about handshake programs: what can have happened, and that chunking does not matter. -/

namespace Amqp.Hs

variable {ρ : Type}

/-- The program `p` can have done `l` and become `q`. -/
inductive Trace : Prog ρ → List Ev → Prog ρ → Prop
  | here (p) : Trace p [] p
  | sent {x k l q} : Trace k l q → Trace (.send x k) (.sent x :: l) q
  | proto {k p l q} : Trace (k p) l q → Trace (.recvProto k) (.got (.proto p) :: l) q
  | sasl {k f l q} : Trace (k f) l q → Trace (.recvSasl k) (.got (.sasl f) :: l) q
  | amqp {m k f l q} : Trace (k f) l q → Trace (.recvAmqp m k) (.got (.amqp f) :: l) q
  | protoFail {k} (e) : Trace (.recvProto k) [] (.done (.error e))
  | saslFail {k} (e) : Trace (.recvSasl k) [] (.done (.error e))
  | amqpFail {m k} (e) : Trace (.recvAmqp m k) [] (.done (.error e))

theorem Trace.trans {p q r : Prog ρ} {l l' : List Ev} (h : Trace p l q) (h' : Trace q l' r) : Trace p (l ++ l') r := by
  induction h with
  | here => exact h'
  | sent _ ih => exact .sent (ih h')
  | proto _ ih => exact .proto (ih h')
  | sasl _ ih => exact .sasl (ih h')
  | amqp _ ih => exact .amqp (ih h')
  | protoFail e => cases h'; exact .protoFail e
  | saslFail e => cases h'; exact .saslFail e
  | amqpFail e => cases h'; exact .amqpFail e

theorem run_trace (p : Prog ρ) (st : DecodeState) (buf : Bytes) : Trace p (p.run st buf).1 (p.run st buf).2.1 := by
  induction p generalizing st buf with
  | done r => exact .here _
  | send x k ih => exact .sent (ih st buf)
  | recvProto k ih =>
    rw [Prog.run]
    split
    · exact .here _
    · exact .protoFail _
    · exact .proto (ih _ _ _)
  | recvSasl k ih =>
    rw [Prog.run]
    split
    · exact .here _
    · exact .saslFail _
    · exact .sasl (ih _ _ _)
  | recvAmqp m k ih =>
    rw [Prog.run]
    split
    · exact .here _
    · exact .amqpFail _
    · exact .amqp (ih _ _ _)

/-- Nothing is left to be sent: the program is finished or waits. -/
def Prog.Still : Prog ρ → Prop
  | .send _ _ => False
  | _ => True

theorem run_still (p : Prog ρ) (st : DecodeState) (buf : Bytes) : (p.run st buf).2.1.Still := by
  induction p generalizing st buf with
  | done r => trivial
  | send x k ih => exact ih st buf
  | recvProto k ih =>
    rw [Prog.run]
    split
    · trivial
    · trivial
    · exact ih _ _ _
  | recvSasl k ih =>
    rw [Prog.run]
    split
    · trivial
    · trivial
    · exact ih _ _ _
  | recvAmqp m k ih =>
    rw [Prog.run]
    split
    · trivial
    · trivial
    · exact ih _ _ _

theorem Prog.Still.stop_trace {p : Prog ρ} (h : p.Still) (e : Err) : Trace p [] (p.stop e) := by
  cases p with
  | done => exact .here _
  | send => exact h.elim
  | recvProto => exact .protoFail _
  | recvSasl => exact .saslFail _
  | recvAmqp => exact .amqpFail _

theorem stop_still (p : Prog ρ) (e : Err) : (p.stop e).Still := by cases p <;> trivial

theorem start_still (p : Prog ρ) : (Run.start p).prog.Still := run_still _ _ _

theorem exec_cons (r : Run ρ) (s : Step) (steps : List Step) : r.exec (s :: steps) = (r.step s).exec steps := rfl

theorem exec_append (r : Run ρ) (s t : List Step) : r.exec (s ++ t) = (r.exec s).exec t := by
  simp [Run.exec, List.foldl_append]

theorem step_trace (r : Run ρ) (h : r.prog.Still) (s : Step) :
    (r.step s).prog.Still ∧ ∃ l, (r.step s).log = r.log ++ l ∧ Trace r.prog l (r.step s).prog := by
  cases s with
  | bytes b => exact ⟨run_still _ _ _, _, rfl, run_trace _ _ _⟩
  | eof => exact ⟨stop_still _ _, [], by simp [Run.step], h.stop_trace _⟩
  | timeout => exact ⟨stop_still _ _, [], by simp [Run.step], h.stop_trace _⟩

theorem exec_trace_aux (steps : List Step) (r : Run ρ) (h : r.prog.Still) :
    (r.exec steps).prog.Still ∧ ∃ l, (r.exec steps).log = r.log ++ l ∧ Trace r.prog l (r.exec steps).prog := by
  induction steps generalizing r with
  | nil => exact ⟨h, [], by simp [Run.exec], .here _⟩
  | cons s steps ih =>
    obtain ⟨h1, l, e1, t1⟩ := step_trace r h s
    obtain ⟨h2, l2, e2, t2⟩ := ih _ h1
    exact ⟨h2, l ++ l2, by rw [exec_cons, e2, e1, List.append_assoc], t1.trans t2⟩

/-- Whatever arrives, a handshake does what its program says. -/
theorem exec_trace (p : Prog ρ) (steps : List Step) :
    Trace p ((Run.start p).exec steps).log ((Run.start p).exec steps).prog := by
  obtain ⟨_, l, e, t⟩ := exec_trace_aux steps _ (start_still p)
  rw [e]
  exact (run_trace p _ _).trans t

theorem exec_still (p : Prog ρ) (steps : List Step) : ((Run.start p).exec steps).prog.Still :=
  (exec_trace_aux steps _ (start_still p)).1

/-! ## Chunks -/

theorem protocolIdDecode_append {buf buf' c : Bytes} {r : Poll ProtocolId ProtocolIdError}
    (h : protocolIdDecode buf = (r, buf')) (hr : r ≠ .pending) : protocolIdDecode (buf ++ c) = (r, buf' ++ c) := by
  by_cases h8 : buf.length < 8
  · rw [protocolIdDecode, if_pos h8] at h
    cases h
    exact absurd rfl hr
  · rw [protocolIdDecode, if_neg h8] at h
    rw [protocolIdDecode, if_neg (by simp; omega), take_append_of_le (by omega),
      List.drop_append_of_le_length (by omega)]
    dsimp only at h ⊢
    split at h
    · rename_i h1; cases h; rw [if_pos h1]
    · rename_i h1
      rw [if_neg h1]
      split at h
      · rename_i h2; cases h; rw [if_pos h2]
      · rename_i h2
        rw [if_neg h2]
        split at h <;> cases h <;> rfl

theorem protocolIdDecode_pending {buf buf' : Bytes} (h : protocolIdDecode buf = (.pending, buf')) : buf' = buf := by
  by_cases h8 : buf.length < 8
  · rw [protocolIdDecode, if_pos h8] at h
    cases h; rfl
  · have hl : (buf.take 8).length = 8 := by simp; omega
    have e1 : buf = buf.take 8 ++ buf.drop 8 := (List.take_append_drop 8 buf).symm
    rw [e1] at h
    rcases protocolId_cases (buf.take 8) (buf.drop 8) hl with ⟨p, hp, hd⟩ | ⟨hn, e, hd⟩ <;> rw [hd] at h <;> cases h

/-- Running on a buffer and then on more bytes is running on all of them. -/
theorem run_append (p : Prog ρ) (st : DecodeState) (buf c : Bytes) :
    p.run st (buf ++ c) =
      ((p.run st buf).1 ++ ((p.run st buf).2.1.run (p.run st buf).2.2.1 ((p.run st buf).2.2.2 ++ c)).1,
        ((p.run st buf).2.1.run (p.run st buf).2.2.1 ((p.run st buf).2.2.2 ++ c)).2) := by
  induction p generalizing st buf with
  | done r => rfl
  | send x k ih =>
    simp only [Prog.run]
    rw [ih st buf]
    rfl
  | recvProto k ih =>
    rw [Prog.run, Prog.run]
    rcases hd : protocolIdDecode buf with ⟨r, b⟩
    cases r with
    | pending =>
      obtain rfl := protocolIdDecode_pending hd
      simp only [List.nil_append]
      rw [Prog.run]
    | error e => rw [protocolIdDecode_append hd (by simp)]; rfl
    | ready q =>
      rw [protocolIdDecode_append hd (by simp)]
      simp only []
      rw [ih]
      rfl
  | recvSasl k ih =>
    rw [Prog.run, Prog.run]
    rcases hd : codecDecode SaslFrame.decode 0 st buf with ⟨r, st', b⟩
    cases r with
    | pending =>
      rw [← codecDecode_pending c hd]
      simp only [List.nil_append]
      rw [Prog.run]
    | error e => rw [codecDecode_append c hd (by simp)]; rfl
    | ready q =>
      rw [codecDecode_append c hd (by simp)]
      simp only []
      rw [ih]
      rfl
  | recvAmqp m k ih =>
    rw [Prog.run, Prog.run]
    rcases hd : codecDecode AmqpFrame.decode m st buf with ⟨r, st', b⟩
    cases r with
    | pending =>
      rw [← codecDecode_pending c hd]
      simp only [List.nil_append]
      rw [Prog.run]
    | error e => rw [codecDecode_append c hd (by simp)]; rfl
    | ready q =>
      rw [codecDecode_append c hd (by simp)]
      simp only []
      rw [ih]
      rfl

/-- The state after the bytes `b` have arrived, in one piece. -/
def Run.of (p : Prog ρ) (b : Bytes) : Run ρ :=
  { log := (p.run .frameHeader b).1, prog := (p.run .frameHeader b).2.1, st := (p.run .frameHeader b).2.2.1,
    buf := (p.run .frameHeader b).2.2.2 }

theorem of_step (p : Prog ρ) (b c : Bytes) : (Run.of p b).step (.bytes c) = Run.of p (b ++ c) := by
  simp only [Run.of, Run.step]
  rw [run_append p .frameHeader b c]

theorem start_eq (p : Prog ρ) : Run.start p = Run.of p [] := rfl

theorem of_exec (p : Prog ρ) (cs : List Bytes) (b : Bytes) :
    (Run.of p b).exec (cs.map .bytes) = Run.of p (b ++ cs.flatten) := by
  induction cs generalizing b with
  | nil => simp [Run.exec]
  | cons c cs ih => rw [List.map_cons, exec_cons, of_step, ih, List.flatten_cons, List.append_assoc]

/-- How the stream is cut does not matter. -/
theorem exec_chunks (p : Prog ρ) (cs : List Bytes) : (Run.start p).exec (cs.map .bytes) = Run.of p cs.flatten := by
  rw [start_eq, of_exec, List.nil_append]

/-! ## Reading what a peer wrote -/

theorem run_send (x : Item) (k : Prog ρ) (st : DecodeState) (buf : Bytes) :
    (Prog.send x k).run st buf = (.sent x :: (k.run st buf).1, (k.run st buf).2) := by rw [Prog.run]

theorem run_done (r : Except Err ρ) (st : DecodeState) (buf : Bytes) :
    (Prog.done r).run st buf = ([], .done r, st, buf) := by rw [Prog.run]

theorem run_proto (k : ProtocolId → Prog ρ) (st : DecodeState) (p : ProtocolId) (rest : Bytes) :
    (Prog.recvProto k).run st ((Item.proto p).encode ++ rest) =
      (.got (.proto p) :: ((k p).run st rest).1, ((k p).run st rest).2) := by
  rw [Prog.run, Item.encode, (c10_inverts_encoder p rest).2]

theorem run_sasl (k : SaslFrameBody → Prog ρ) (b : SaslFrameBody) (h : wf (SaslFrame.mk b)) (rest : Bytes) :
    (Prog.recvSasl k).run .frameHeader ((Item.sasl b).encode ++ rest) =
      (.got (.sasl b) :: ((k b).run .frameHeader rest).1, ((k b).run .frameHeader rest).2) := by
  rw [Prog.run, Item.encode, c07_sasl_frame_read_back { body := b } h 0 (.inl rfl)]

theorem run_amqp (k : AmqpFrame → Prog ρ) (f : AmqpFrame) (h : wf f) (m : Nat) (ha : admits m f.encode.length)
    (rest : Bytes) :
    (Prog.recvAmqp m k).run .frameHeader ((Item.amqp f).encode ++ rest) =
      (.got (.amqp f.asReceived) :: ((k f.asReceived).run .frameHeader rest).1,
        ((k f.asReceived).run .frameHeader rest).2) := by
  rw [Prog.run, Item.encode, c07_amqp_frame_read_back f h m ha]

/-! The same with the continuation worked out. -/

theorem run_proto' {k : ProtocolId → Prog ρ} {p : ProtocolId} (k' : Prog ρ) (hk : k p = k') (st : DecodeState)
    (rest : Bytes) : (Prog.recvProto k).run st ((Item.proto p).encode ++ rest) =
      (.got (.proto p) :: (k'.run st rest).1, (k'.run st rest).2) := by rw [run_proto, hk]

theorem run_sasl' {k : SaslFrameBody → Prog ρ} {b : SaslFrameBody} (h : wf (SaslFrame.mk b)) (k' : Prog ρ)
    (hk : k b = k') (rest : Bytes) : (Prog.recvSasl k).run .frameHeader ((Item.sasl b).encode ++ rest) =
      (.got (.sasl b) :: (k'.run .frameHeader rest).1, (k'.run .frameHeader rest).2) := by rw [run_sasl _ _ h, hk]

theorem run_open {k : AmqpFrame → Prog ρ} {ch : UInt16} {o : Open} (h : wf (AmqpFrame.mk ch (.open_ o))) {m : Nat}
    (ha : admits m (AmqpFrame.mk ch (.open_ o)).encode.length) (k' : Prog ρ)
    (hk : k { channel := ch, performative := .open_ o } = k') (rest : Bytes) :
    (Prog.recvAmqp m k).run .frameHeader ((openFrame ch o).encode ++ rest) =
      (.got (openFrame ch o) :: (k'.run .frameHeader rest).1, (k'.run .frameHeader rest).2) := by
  have e : (AmqpFrame.mk ch (.open_ o)).asReceived = AmqpFrame.mk ch (.open_ o) := rfl
  rw [openFrame, run_amqp _ _ h _ ha, e, hk]

/-! ## Checking a program -/

/-- The program satisfies `P` at every event (given what happened before), `W` whenever it waits, `Q` at the end. -/
def Prog.All (P : List Ev → Ev → Prop) (W : List Ev → Prop) (Q : List Ev → Except Err ρ → Prop) :
    List Ev → Prog ρ → Prop
  | h, .done r => Q h r
  | h, .send x k => P h (.sent x) ∧ k.All P W Q (h ++ [.sent x])
  | h, .recvProto k => W h ∧ (∀ e, Q h (.error e)) ∧
      ∀ p, P h (.got (.proto p)) ∧ (k p).All P W Q (h ++ [.got (.proto p)])
  | h, .recvSasl k => W h ∧ (∀ e, Q h (.error e)) ∧
      ∀ f, P h (.got (.sasl f)) ∧ (k f).All P W Q (h ++ [.got (.sasl f)])
  | h, .recvAmqp _ k => W h ∧ (∀ e, Q h (.error e)) ∧
      ∀ f, P h (.got (.amqp f)) ∧ (k f).All P W Q (h ++ [.got (.amqp f)])

variable {P : List Ev → Ev → Prop} {W : List Ev → Prop} {Q : List Ev → Except Err ρ → Prop}

theorem Trace.all {p q : Prog ρ} {l : List Ev} (t : Trace p l q) :
    ∀ {h : List Ev}, p.All P W Q h →
      q.All P W Q (h ++ l) ∧ ∀ pre e post, l = pre ++ e :: post → P (h ++ pre) e := by
  have go {x : Ev} {l h : List Ev} {q : Prog ρ} (hx : P h x)
      (ih : q.All P W Q (h ++ [x] ++ l) ∧ ∀ pre e post, l = pre ++ e :: post → P (h ++ [x] ++ pre) e) :
      q.All P W Q (h ++ x :: l) ∧ ∀ pre e post, x :: l = pre ++ e :: post → P (h ++ pre) e := by
    refine ⟨by simpa using ih.1, fun pre e post hp => ?_⟩
    cases pre with
    | nil => cases hp; simpa using hx
    | cons y pre =>
      rw [List.cons_append] at hp
      have h2 := (List.cons.inj hp).2
      obtain rfl := (List.cons.inj hp).1
      simpa using ih.2 pre e post h2
  induction t with
  | here => exact fun h => ⟨by simpa using h, by simp⟩
  | sent _ ih => exact fun h => go h.1 (ih h.2)
  | proto _ ih => exact fun h => go (h.2.2 _).1 (ih (h.2.2 _).2)
  | sasl _ ih => exact fun h => go (h.2.2 _).1 (ih (h.2.2 _).2)
  | amqp _ ih => exact fun h => go (h.2.2 _).1 (ih (h.2.2 _).2)
  | protoFail e => exact fun h => ⟨by simpa [Prog.All] using h.2.1 e, by simp⟩
  | saslFail e => exact fun h => ⟨by simpa [Prog.All] using h.2.1 e, by simp⟩
  | amqpFail e => exact fun h => ⟨by simpa [Prog.All] using h.2.1 e, by simp⟩

/-- What holds along the program holds of every run. -/
theorem exec_all {p : Prog ρ} (h : p.All P W Q []) (steps : List Step) :
    let r := (Run.start p).exec steps
    (∀ pre e post, r.log = pre ++ e :: post → P pre e) ∧ (∀ x, r.prog = .done x → Q r.log x) ∧
      (r.Waiting → W r.log) := by
  intro r
  obtain ⟨h1, h2⟩ := (exec_trace p steps).all h
  have hs : r.prog.Still := exec_still p steps
  refine ⟨by simpa using h2, fun x hx => ?_, fun hw => ?_⟩
  · have : r.prog.All P W Q ([] ++ r.log) := h1
    rw [hx] at this
    simpa [Prog.All] using this
  · have : r.prog.All P W Q ([] ++ r.log) := h1
    revert hs this
    generalize hp : r.prog = q
    intro hs this
    cases q with
    | done x => exact absurd hp (hw x)
    | send => exact hs.elim
    | recvProto => simpa using this.1
    | recvSasl => simpa using this.1
    | recvAmqp => simpa using this.1

end Amqp.Hs
