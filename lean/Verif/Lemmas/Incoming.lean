import Verif.Spec.Incoming
import Verif.Lemmas.HandshakeWhy
/-! The task of a server for one connection. -/

namespace Amqp.Rt
open Hs (Opened Prog)

namespace Incoming

/-- What is always true of the task of a server. -/
structure Inv (p : Prog Opened) (arrived : Bytes) (a : Incoming) : Prop where
  story : a.log = a.task.story
  result : a.task.Result a.conn.shake.prog
  shake : ∃ hs, a.conn.shake = (Hs.Run.start p).exec hs
  up : a.conn.up = none ↔ ∀ o, a.conn.shake.prog ≠ .done (.ok o)
  buf : a.task = .shaking → a.conn.shake.buf <:+ arrived
  quiet : a.task ≠ .serving → ∀ c r, a.conn.up = some (c, r) → ∃ (o : Opened) (sts : List CStep),
    a.conn.shake.prog = .done (.ok o) ∧ (∀ st ∈ sts, st.own = true) ∧ c = sts.foldl Conn.step o.conn ∧
    r = { max := o.codecMax, buf := r.buf }
  unread : a.task = .publish ∨ a.task = .control → ∀ c r, a.conn.up = some (c, r) → r.buf <:+ arrived

theorem run_suffix (p : Prog Opened) (st : DecodeState) (buf : Bytes) : (p.run st buf).2.2.2 <:+ buf :=
  (Hs.run_course [.bytes buf] p st buf (by simp [Hs.wire])).2

theorem fresh_inv {p : Prog Opened} {arrived : Bytes} {run : Hs.Run Opened} {hs : List Hs.Step}
    (h : run = (Hs.Run.start p).exec hs) (hb : run.buf <:+ arrived) :
    Inv p arrived (settle ⟨End.settle ⟨run, none⟩, .shaking, []⟩) := by
  have key : ∀ q, run.prog = q → Inv p arrived (settle ⟨End.settle ⟨run, none⟩, .shaking, []⟩) := by
    intro q hq
    cases q with
    | done r =>
      cases r with
      | ok o =>
        simp only [End.settle, settle, hq]
        refine ⟨rfl, ⟨o, hq⟩, ⟨hs, h⟩, ?_, fun h => (by cases h), ?_, ?_⟩
        · simp [hq]
        · intro _ c r e
          cases e
          exact ⟨o, [], hq, by simp, rfl, rfl⟩
        · intro _ c r e
          cases e
          exact hb
      | error e =>
        simp only [End.settle, settle, hq]
        exact ⟨rfl, hq, ⟨hs, h⟩, by simp [hq], fun h => (by cases h), fun _ c r e => (by cases e), fun _ c r e => (by cases e)⟩
    | send x k =>
      simp only [End.settle, settle, hq]
      exact ⟨rfl, fun r => by simp [hq], ⟨hs, h⟩, by simp [hq], fun _ => hb, fun _ c r e => (by cases e), fun _ c r e => (by cases e)⟩
    | recvProto k =>
      simp only [End.settle, settle, hq]
      exact ⟨rfl, fun r => by simp [hq], ⟨hs, h⟩, by simp [hq], fun _ => hb, fun _ c r e => (by cases e), fun _ c r e => (by cases e)⟩
    | recvSasl k =>
      simp only [End.settle, settle, hq]
      exact ⟨rfl, fun r => by simp [hq], ⟨hs, h⟩, by simp [hq], fun _ => hb, fun _ c r e => (by cases e), fun _ c r e => (by cases e)⟩
    | recvAmqp m k =>
      simp only [End.settle, settle, hq]
      exact ⟨rfl, fun r => by simp [hq], ⟨hs, h⟩, by simp [hq], fun _ => hb, fun _ c r e => (by cases e), fun _ c r e => (by cases e)⟩
  exact key _ rfl

theorem start_inv (p : Prog Opened) : Inv p [] (start p) :=
  fresh_inv (run := .start p) (hs := []) rfl (run_suffix p _ _)

theorem settle_of_ne {a : Incoming} (h : a.task ≠ .shaking) : a.settle = a := by
  unfold settle
  split
  · exact absurd ‹_› h
  · exact absurd ‹_› h
  · rfl

theorem Inv.shaking {p : Prog Opened} {arrived : Bytes} {a : Incoming} (h : Inv p arrived a) (ht : a.task = .shaking) :
    a.log = [] ∧ a.conn.up = none := by
  obtain ⟨h1, h2, _, h4, _, _⟩ := h
  rw [ht] at h1 h2
  exact ⟨h1, h4.2 fun o => h2 _⟩

/-- The connection takes a step, the task does not. -/
theorem Inv.own {p : Prog Opened} {arrived : Bytes} {a : Incoming} (h : Inv p arrived a) (st : CStep) :
    Inv p arrived { a with conn := a.conn.own st } := by
  obtain ⟨h1, h2, h3, h4, h5, h6, h7⟩ := h
  unfold End.own
  split
  · next c r e =>
    split
    · next ho =>
      refine ⟨h1, h2, h3, ?_, h5, ?_, ?_⟩
      · rw [e] at h4; simpa using h4
      · intro ht c' r' e'
        cases e'
        obtain ⟨o, sts, i1, i2, i3, i4⟩ := h6 ht c r e
        refine ⟨o, sts ++ [st], i1, ?_, by simp [i3], i4⟩
        intro x hx
        rcases List.mem_append.1 hx with hx | hx
        · exact i2 x hx
        · rw [List.mem_singleton.1 hx]; exact ho
      · intro ht c' r' e'
        cases e'
        exact h7 ht c r e
    · exact ⟨h1, h2, h3, h4, h5, h6, h7⟩
  · exact ⟨h1, h2, h3, h4, h5, h6, h7⟩

theorem Inv.bytes {p : Prog Opened} {arrived : Bytes} {a : Incoming} (h : Inv p arrived a) (b : Bytes)
    (hf : ∀ e, a.task ≠ .failed e) : Inv p (arrived ++ b) (settle { a with conn := a.conn.take b }) := by
  by_cases ht : a.task = .shaking
  · obtain ⟨e1, e2⟩ := h.shaking ht
    obtain ⟨hs, hr⟩ := h.shake
    have : ({ a with conn := a.conn.take b } : Incoming) = ⟨End.settle ⟨a.conn.shake.step (.bytes b), none⟩, .shaking, []⟩ := by
      rw [ht, e1, End.take, e2]
    rw [this]
    refine fresh_inv (hs := hs ++ [.bytes b]) (by rw [hr, Hs.Run.exec, Hs.Run.exec, List.foldl_append]; rfl) ?_
    obtain ⟨t, et⟩ := h.buf ht
    refine (run_suffix _ _ _).trans ⟨t, ?_⟩
    rw [← List.append_assoc, et]
  · obtain ⟨h1, h2, h3, h4, h5, h6, h7⟩ := h
    rw [settle_of_ne (by exact ht)]
    obtain ⟨⟨sh, up⟩, t, l⟩ := a
    cases up with
    | none =>
      exfalso
      have h4 := h4.1 rfl
      cases t with
      | shaking => exact ht rfl
      | failed e => exact hf e rfl
      | publish | control | serving => obtain ⟨o, ho⟩ := h2; exact h4 o ho
    | some x =>
      obtain ⟨c, r⟩ := x
      refine ⟨h1, h2, h3, ?_, fun h => absurd h ht, ?_, ?_⟩
      · simpa [End.take] using h4
      · intro hn c' r' e
        cases e
        obtain ⟨o, sts, i1, i2, i3, i4⟩ := h6 hn c r rfl
        exact ⟨o, sts, i1, i2, i3, by rw [i4]; rfl⟩
      · intro hn c' r' e
        cases e
        obtain ⟨t, i5⟩ := h7 hn c r rfl
        exact ⟨t, by simp only [Reader.fill]; rw [← List.append_assoc, i5]⟩

theorem Inv.read {p : Prog Opened} {arrived : Bytes} {a : Incoming} (h : Inv p arrived a) (ht : a.task = .serving) :
    Inv p arrived { a with conn := a.conn.read } := by
  obtain ⟨h1, h2, h3, h4, h5, h6, h7⟩ := h
  refine ⟨h1, ?_, ?_, ?_, fun h => (by rw [ht] at h; cases h), fun h => absurd ht h,
    fun h => (by rw [ht] at h; rcases h with h | h <;> cases h)⟩
  all_goals unfold End.read
  · split <;> exact h2
  · split <;> exact h3
  · split
    · next e => rw [e] at h4; simpa using h4
    · exact h4

theorem Inv.move {p : Prog Opened} {arrived : Bytes} {a : Incoming} (h : Inv p arrived a) {t : Task} {l : List TEv}
    (hr : a.task.Result a.conn.shake.prog → t.Result a.conn.shake.prog) (hl : a.task.story ++ l = t.story)
    (hs : t ≠ .shaking) (hq : a.task = .publish ∨ a.task = .control) : Inv p arrived { a with task := t, log := a.log ++ l } := by
  obtain ⟨h1, h2, h3, h4, h5, h6, h7⟩ := h
  exact ⟨by simp only [h1, hl], hr h2, h3, h4, fun h => absurd h hs,
    fun _ => h6 (by rcases hq with h | h <;> rw [h] <;> simp), fun _ => h7 hq⟩

theorem Inv.quit {p : Prog Opened} {arrived : Bytes} {a : Incoming} (h : Inv p arrived a) (ht : a.task = .shaking) :
    Inv p arrived (settle { a with conn := a.conn.quit }) := by
  obtain ⟨e1, e2⟩ := h.shaking ht
  obtain ⟨hs, hr⟩ := h.shake
  have hn := h.result
  rw [ht] at hn
  have hp : a.conn.shake.prog.stop .timeout = .done (.error .timeout) := by
    generalize a.conn.shake.prog = q at hn
    cases q with
    | done r => exact absurd rfl (hn r)
    | send | recvProto | recvSasl | recvAmqp => rfl
  have : ({ a with conn := a.conn.quit } : Incoming) = ⟨End.settle ⟨a.conn.shake.step .timeout, none⟩, .shaking, []⟩ := by
    rw [ht, e1, End.quit, e2]
    obtain ⟨⟨s, u⟩, t, l⟩ := a
    simp only at e2 hp
    subst e2
    simp only [End.settle, Hs.Run.step, hp]
  rw [this]
  exact fresh_inv (hs := hs ++ [.timeout]) (by rw [hr, Hs.Run.exec, Hs.Run.exec, List.foldl_append]; rfl) (h.buf ht)

theorem Inv.step {p : Prog Opened} {arrived : Bytes} {a : Incoming} (h : Inv p arrived a) (st : IStep) :
    Inv p (arrived ++ arrivedBytes [st]) (a.step st) := by
  have more : ∀ (b : Bytes) (_ : ∃ e, a.task = .failed e), Inv p b a := fun b ⟨e, he⟩ =>
    ⟨h.story, h.result, h.shake, h.up, fun h' => (by rw [he] at h'; cases h'), h.quiet,
      fun h' => (by rw [he] at h'; rcases h' with h' | h' <;> cases h')⟩
  have none : ∀ {st : IStep}, arrivedBytes [st] = [] → arrived ++ arrivedBytes [st] = arrived := by
    intro st e; rw [e, List.append_nil]
  unfold Incoming.step
  split
  · exact more _ ⟨_, ‹_›⟩
  · next b hf =>
    have : arrivedBytes [.bytes b] = b := by simp [arrivedBytes]
    rw [this]
    exact h.bytes b hf
  · rw [none rfl]; exact h.quit ‹_›
  · rw [none rfl]; exact h.move (fun x => by simpa [‹a.task = _›, Task.Result] using x) (by rw [‹a.task = _›]; rfl) (by simp) (.inl ‹_›)
  · rw [none rfl]; exact h.move (fun x => by simpa [‹a.task = _›, Task.Result] using x) (by rw [‹a.task = _›]; rfl) (by simp) (.inl ‹_›)
  · rw [none rfl]; exact h.move (fun x => by simpa [‹a.task = _›, Task.Result] using x) (by rw [‹a.task = _›]; rfl) (by simp) (.inr ‹_›)
  · rw [none rfl]; exact h.move (fun x => by simpa [‹a.task = _›, Task.Result] using x) (by rw [‹a.task = _›]; rfl) (by simp) (.inr ‹_›)
  · rw [none rfl]; exact h.own _
  · rw [none rfl]; exact h.read ‹_›
  · next s _ _ hb _ _ _ _ _ _ _ _ =>
    rw [none ?_]
    · exact h
    · cases s with
      | bytes b => exact absurd rfl (hb b)
      | timer | publish | control | own | read => rfl

theorem run_inv {p : Prog Opened} {arrived : Bytes} {a : Incoming} (h : Inv p arrived a) (steps : List IStep) :
    Inv p (arrived ++ arrivedBytes steps) (a.run steps) := by
  induction steps generalizing a arrived with
  | nil => simpa [arrivedBytes, run] using h
  | cons st steps ih =>
    have := ih (h.step st)
    rw [List.append_assoc] at this
    have e : arrivedBytes [st] ++ arrivedBytes steps = arrivedBytes (st :: steps) := by
      simp [arrivedBytes]
    rw [e] at this
    exact this

theorem inv (p : Prog Opened) (steps : List IStep) : Inv p (arrivedBytes steps) ((start p).run steps) := by
  simpa using run_inv (start_inv p) steps

/-! ## The two ends -/

theorem step_failed {a : Incoming} {e : TaskError} (h : a.task = .failed e) (st : IStep) : a.step st = a := by
  unfold step; rw [h]

theorem run_failed {a : Incoming} {e : TaskError} (h : a.task = .failed e) (steps : List IStep) : a.run steps = a := by
  induction steps with
  | nil => rfl
  | cons st steps ih => rw [run, List.foldl_cons, step_failed h]; exact ih

theorem settle_conn (a : Incoming) : a.settle.conn = a.conn := by
  unfold settle; split <;> rfl

theorem bytes_conn {a : Incoming} (h : ∀ e, a.task ≠ .failed e) (b : Bytes) : (a.step (.bytes b)).conn = a.conn.take b := by
  unfold step
  split <;> first | exact absurd ‹_› (h _) | (rename_i hx; cases hx; exact settle_conn _) | simp_all
  all_goals exact settle_conn _

/-- What else happens to the end of the server. -/
theorem step_conn {a : Incoming} (st : IStep) (hb : ∀ b, st ≠ .bytes b) :
    (a.step st).conn = a.conn ∨ (a.step st).conn = a.conn.quit ∨ (a.step st).conn = a.conn.read ∨
      ∃ x, st = .own x ∧ (a.step st).conn = a.conn.own x := by
  cases st with
  | bytes b => exact absurd rfl (hb b)
  | timer =>
    cases h : a.task <;> simp only [step, h]
    case shaking => exact .inr (.inl (settle_conn _))
    all_goals first | exact .inl trivial | exact .inl rfl
  | publish m => cases h : a.task <;> cases m <;> simp only [step, h] <;> first | exact .inl trivial | exact .inl rfl
  | control m => cases h : a.task <;> cases m <;> simp only [step, h] <;> first | exact .inl trivial | exact .inl rfl
  | own x => cases h : a.task <;> simp only [step, h] <;> first | exact .inl trivial | exact .inl rfl | exact .inr (.inr (.inr ⟨x, rfl, rfl⟩))
  | read =>
    cases h : a.task <;> simp only [step, h]
    case serving => first | exact .inr (.inr (.inl trivial)) | exact .inr (.inr (.inl rfl))
    all_goals first | exact .inl trivial | exact .inl rfl

end Incoming

namespace Visit

theorem run_cons (v : Visit) (st : VStep) (steps : List VStep) : v.run (st :: steps) = (v.step st).run steps := rfl

theorem step_failed {v : Visit} {e : TaskError} (h : v.server.task = .failed e) (st : VStep) :
    (v.step st).server.task = .failed e := by
  cases st with
  | client | clientReads | clientQuits | carryToClient => exact h
  | carryToServer n => simp only [step]; rw [Incoming.step_failed h]; exact h
  | server st => cases st <;> simp only [step] <;> first | exact h | (rw [Incoming.step_failed h]; exact h)

theorem run_failed {v : Visit} {e : TaskError} (h : v.server.task = .failed e) (steps : List VStep) :
    (v.run steps).server.task = .failed e := by
  induction steps generalizing v with
  | nil => exact h
  | cons st steps ih => exact ih (step_failed h st)

/-- The two ends, without the server's task. -/
def ends (v : Visit) : Duplex := ⟨v.client, v.server.conn, v.toServer, v.toClient⟩

theorem step_ends {v : Visit} (h : ∀ e, v.server.task ≠ .failed e) (st : VStep) :
    ∃ xs, (st.Fit → ∀ x ∈ xs, XStep.Fit x) ∧ v.ends.run xs = (v.step st).ends := by
  cases st with
  | client st => exact ⟨[.client st], by simp [VStep.Fit, XStep.Fit], rfl⟩
  | clientReads => exact ⟨[.clientReads], by simp [XStep.Fit], rfl⟩
  | clientQuits => exact ⟨[.clientQuits], by simp [XStep.Fit], rfl⟩
  | carryToClient n => exact ⟨[.carryToClient n], by simp [XStep.Fit], rfl⟩
  | carryToServer n =>
    refine ⟨[.carryToServer n], by simp [XStep.Fit], ?_⟩
    simp only [ends, Visit.step, Incoming.bytes_conn h]
    rfl
  | server st =>
    by_cases hb : ∃ b, st = .bytes b
    · obtain ⟨b, rfl⟩ := hb
      exact ⟨[], by simp, rfl⟩
    · have hb : ∀ b, st ≠ .bytes b := fun b e => hb ⟨b, e⟩
      have hs : (v.step (.server st)).ends = ⟨v.client, (v.server.step st).conn, v.toServer, v.toClient⟩ := by
        cases st <;> first | exact absurd rfl (hb _) | rfl
      rcases Incoming.step_conn (a := v.server) st hb with e | e | e | ⟨x, rfl, e⟩
      · exact ⟨[], by simp, by rw [hs, e]; rfl⟩
      · exact ⟨[.serverQuits], by simp [XStep.Fit], by rw [hs, e]; rfl⟩
      · exact ⟨[.serverReads], by simp [XStep.Fit], by rw [hs, e]; rfl⟩
      · exact ⟨[.server x], by simp [VStep.Fit, XStep.Fit], by rw [hs, e]; rfl⟩

theorem run_ends {v : Visit} (steps : List VStep) (h : ∀ e, (v.run steps).server.task ≠ .failed e) :
    ∃ xs, ((∀ st ∈ steps, st.Fit) → ∀ x ∈ xs, XStep.Fit x) ∧ v.ends.run xs = (v.run steps).ends := by
  induction steps generalizing v with
  | nil => exact ⟨[], by simp, rfl⟩
  | cons st steps ih =>
    obtain ⟨xs, h1, h2⟩ := step_ends (fun e he => h e (run_failed he (st :: steps))) st
    obtain ⟨ys, h3, h4⟩ := ih h
    refine ⟨xs ++ ys, fun hf x hx => ?_, ?_⟩
    · rcases List.mem_append.1 hx with hx | hx
      · exact h1 (hf _ (.head _)) x hx
      · exact h3 (fun st hs => hf st (.tail _ hs)) x hx
    · rw [Duplex.run, List.foldl_append]
      rw [Duplex.run] at h2 h4
      rw [h2, h4]; rfl

theorem start_ends (p q : Prog Opened) : (start p q).ends = Duplex.start p q := by
  simp only [ends, start, Incoming.start, Incoming.settle_conn]; rfl

end Visit
end Amqp.Rt
