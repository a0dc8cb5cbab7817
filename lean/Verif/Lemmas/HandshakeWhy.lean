import Verif.Spec.HandshakeWhy
import Verif.Lemmas.Handshake
/-! Why a handshake failed. -/

namespace Amqp.Hs

variable {ρ : Type}

/-- The program waits for an item. -/
def Prog.Waits : Prog ρ → Prop
  | .done _ | .send _ _ => False
  | _ => True

/-- `Trace`, with the causes of failures. -/
inductive Course (steps : List Step) : Prog ρ → List Ev → Prog ρ → Prop
  | here (p) : Course steps p [] p
  | sent {x k l q} : Course steps k l q → Course steps (.send x k) (.sent x :: l) q
  | proto {k p l q} : Course steps (k p) l q → Course steps (.recvProto k) (.got (.proto p) :: l) q
  | sasl {k f l q} : Course steps (k f) l q → Course steps (.recvSasl k) (.got (.sasl f) :: l) q
  | amqp {m k f l q} : Course steps (k f) l q → Course steps (.recvAmqp m k) (.got (.amqp f) :: l) q
  | cut {p} (e) (he : Cut steps e) (hp : p.Waits) : Course steps p [] (.done (.error e))

theorem Course.trans {steps : List Step} {p q r : Prog ρ} {l l' : List Ev} (h : Course steps p l q) (h' : Course steps q l' r) :
    Course steps p (l ++ l') r := by
  induction h with
  | here => exact h'
  | sent _ ih => exact .sent (ih h')
  | proto _ ih => exact .proto (ih h')
  | sasl _ ih => exact .sasl (ih h')
  | amqp _ ih => exact .amqp (ih h')
  | cut e he hp =>
    cases h' with
    | here => exact .cut e he hp
    | cut _ _ hn => exact hn.elim

theorem codecFrame_suffix {α : Type} (d : Bytes → Except Amqp.Err (α × Bytes)) (n : Nat) (buf : Bytes) :
    (codecFrame d n buf).2.2 <:+ buf := by
  unfold codecFrame
  split
  · exact List.suffix_refl _
  · split
    · exact List.drop_suffix _ _
    · split <;> exact List.drop_suffix _ _

theorem codecDecode_suffix {α : Type} (d : Bytes → Except Amqp.Err (α × Bytes)) (m : Nat) (st : DecodeState) (buf : Bytes) :
    (codecDecode d m st buf).2.2 <:+ buf := by
  unfold codecDecode
  split
  · split
    · exact List.suffix_refl _
    · dsimp only
      split
      · exact List.suffix_refl _
      · split
        · exact List.suffix_refl _
        · split
          · exact List.drop_suffix _ _
          · exact (codecFrame_suffix _ _ _).trans (List.drop_suffix _ _)
  · exact codecFrame_suffix _ _ _

theorem protocolIdDecode_suffix (buf : Bytes) : (protocolIdDecode buf).2 <:+ buf := by
  unfold protocolIdDecode
  split
  · exact List.suffix_refl _
  · dsimp only
    split
    · exact List.drop_suffix _ _
    · split
      · exact List.drop_suffix _ _
      · split <;> exact List.drop_suffix _ _

theorem run_course (steps : List Step) (p : Prog ρ) (st : DecodeState) (buf : Bytes) (hb : buf <:+: wire steps) :
    Course steps p (p.run st buf).1 (p.run st buf).2.1 ∧ (p.run st buf).2.2.2 <:+ buf := by
  induction p generalizing st buf with
  | done r => exact ⟨.here _, List.suffix_refl _⟩
  | send x k ih => exact ⟨.sent (ih st buf hb).1, (ih st buf hb).2⟩
  | recvProto k ih =>
    have hs := protocolIdDecode_suffix buf
    rw [Prog.run]
    split <;> rename_i h <;> rw [h] at hs
    · exact ⟨.here _, hs⟩
    · exact ⟨.cut _ (.header _ buf _ hb h) trivial, hs⟩
    · rename_i a b
      have := ih a st b (hs.isInfix.trans hb)
      exact ⟨.proto this.1, this.2.trans hs⟩
  | recvSasl k ih =>
    have hs := codecDecode_suffix SaslFrame.decode 0 st buf
    rw [Prog.run]
    split <;> rename_i h <;> rw [h] at hs
    · exact ⟨.here _, hs⟩
    · exact ⟨.cut _ (.saslFrame _ st buf _ _ hb h) trivial, hs⟩
    · rename_i a st' b
      have := ih a.body st' b (hs.isInfix.trans hb)
      exact ⟨.sasl this.1, this.2.trans hs⟩
  | recvAmqp m k ih =>
    have hs := codecDecode_suffix AmqpFrame.decode m st buf
    rw [Prog.run]
    split <;> rename_i h <;> rw [h] at hs
    · exact ⟨.here _, hs⟩
    · exact ⟨.cut _ (.amqpFrame _ m st buf _ _ hb h) trivial, hs⟩
    · rename_i a st' b
      have := ih a st' b (hs.isInfix.trans hb)
      exact ⟨.amqp this.1, this.2.trans hs⟩

theorem stop_course {steps : List Step} {e : Err} (he : Cut steps e) {p : Prog ρ} (hp : p.Still) : Course steps p [] (p.stop e) := by
  cases p with
  | done => exact .here _
  | send => exact hp.elim
  | recvProto => exact .cut e he trivial
  | recvSasl => exact .cut e he trivial
  | recvAmqp => exact .cut e he trivial

theorem wire_append (a b : List Step) : wire (a ++ b) = wire a ++ wire b := by simp [wire]

theorem step_course {all pre post : List Step} (r : Run ρ) (hp : r.prog.Still) {s : Step} (hs : all = pre ++ s :: post)
    (hb : r.buf <:+ wire pre) :
    (∃ l, (r.step s).log = r.log ++ l ∧ Course all r.prog l (r.step s).prog) ∧ (r.step s).buf <:+ wire (pre ++ [s]) := by
  have hm : s ∈ all := by simp [hs]
  cases s with
  | bytes b =>
    have hw : r.buf ++ b <:+ wire (pre ++ [.bytes b]) := by
      obtain ⟨t, ht⟩ := hb
      exact ⟨t, by rw [wire_append, ← ht]; simp [wire]⟩
    have hi : r.buf ++ b <:+: wire all := by
      rw [hs, List.append_cons, wire_append]
      exact hw.isInfix.trans (List.prefix_append _ _).isInfix
    have := run_course all r.prog r.st (r.buf ++ b) hi
    exact ⟨⟨_, rfl, this.1⟩, this.2.trans hw⟩
  | eof =>
    refine ⟨⟨[], by simp [Run.step], stop_course (.closed hm) hp⟩, ?_⟩
    rw [wire_append]; simpa [Run.step, wire] using hb
  | timeout =>
    refine ⟨⟨[], by simp [Run.step], stop_course (.timeout hm) hp⟩, ?_⟩
    rw [wire_append]; simpa [Run.step, wire] using hb

theorem exec_course_aux {all : List Step} (pre steps : List Step) (hs : all = pre ++ steps) (r : Run ρ) (hp : r.prog.Still)
    (hb : r.buf <:+ wire pre) : ∃ l, (r.exec steps).log = r.log ++ l ∧ Course all r.prog l (r.exec steps).prog := by
  induction steps generalizing r pre with
  | nil => exact ⟨[], by simp [Run.exec], .here _⟩
  | cons s steps ih =>
    obtain ⟨⟨l, e1, t1⟩, hb'⟩ := step_course r hp hs hb
    obtain ⟨l2, e2, t2⟩ := ih (pre ++ [s]) (by rw [hs, List.append_cons]) (r.step s) (step_trace r hp s).1 hb'
    exact ⟨l ++ l2, by rw [exec_cons, e2, e1, List.append_assoc], t1.trans t2⟩

theorem exec_course (p : Prog ρ) (steps : List Step) :
    Course steps p ((Run.start p).exec steps).log ((Run.start p).exec steps).prog := by
  have h0 := run_course steps p .frameHeader [] (List.nil_infix)
  obtain ⟨l, e, t⟩ := exec_course_aux [] steps rfl (Run.start p) (start_still p) h0.2
  rw [e]
  exact h0.1.trans t

/-- `Q` holds at every end the program itself comes to, `W` wherever it waits. -/
def Prog.AtEnd (W : List Ev → Prop) (Q : List Ev → Except Err ρ → Prop) : List Ev → Prog ρ → Prop
  | h, .done r => Q h r
  | h, .send x k => k.AtEnd W Q (h ++ [.sent x])
  | h, .recvProto k => W h ∧ ∀ p, (k p).AtEnd W Q (h ++ [.got (.proto p)])
  | h, .recvSasl k => W h ∧ ∀ f, (k f).AtEnd W Q (h ++ [.got (.sasl f)])
  | h, .recvAmqp _ k => W h ∧ ∀ f, (k f).AtEnd W Q (h ++ [.got (.amqp f)])

theorem Course.atEnd {steps : List Step} {W : List Ev → Prop} {Q : List Ev → Except Err ρ → Prop} {p q : Prog ρ} {l : List Ev}
    (t : Course steps p l q) : ∀ {h : List Ev} {r}, p.AtEnd W Q h → q = .done r →
      Q (h ++ l) r ∨ ∃ e, r = .error e ∧ Cut steps e ∧ W (h ++ l) := by
  induction t with
  | here p => intro h r ha hq; subst hq; rw [List.append_nil]; exact .inl ha
  | sent _ ih => intro h r ha hq; simpa using ih ha hq
  | @proto k p l q _ ih => intro h r ha hq; simpa using ih (ha.2 p) hq
  | @sasl k f l q _ ih => intro h r ha hq; simpa using ih (ha.2 f) hq
  | @amqp m k f l q _ ih => intro h r ha hq; simpa using ih (ha.2 f) hq
  | @cut p e he hp =>
    intro h r ha hq
    cases hq
    refine .inr ⟨e, rfl, he, ?_⟩
    rw [List.append_nil]
    cases p with
    | done => exact hp.elim
    | send => exact hp.elim
    | recvProto => exact ha.1
    | recvSasl => exact ha.1
    | recvAmqp => exact ha.1

/-- A handshake ends as its program says, or is cut short. -/
theorem exec_atEnd {W : List Ev → Prop} {Q : List Ev → Except Err ρ → Prop} {p : Prog ρ} (h : p.AtEnd W Q []) (steps : List Step)
    {r : Except Err ρ} (hr : ((Run.start p).exec steps).prog = .done r) :
    Q ((Run.start p).exec steps).log r ∨ ∃ e, r = .error e ∧ Cut steps e ∧ W ((Run.start p).exec steps).log := by
  simpa using (exec_course p steps).atEnd h hr

end Amqp.Hs
