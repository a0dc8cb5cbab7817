import Verif.Model.Observe
import Verif.Lemmas.Serve
/-!
# The failures of a connection in its history
-/

namespace Amqp.Rt
open Conn

/-- The errors a connection was failed with, in order. -/
def failuresIn (l : List CEv) : List PErr := l.filterMap fun | .failed e => some e | _ => none

theorem failuresIn_append (l l' : List CEv) : failuresIn (l ++ l') = failuresIn l ++ failuresIn l' := List.filterMap_append

/-- From `c` to `d` the connection is failed with these; the error is the first one ever; a closed state is not left. -/
structure Conn.Falls (c d : Conn) (l : List PErr) : Prop where
  log : ∃ evs, d.log = c.log ++ evs ∧ failuresIn evs = l
  error : d.error = c.error.or l.head?
  state : c.state ≠ .normal → d.state ≠ .normal
  still : l = [] → d.state = c.state

theorem Conn.Falls.of_log {c d : Conn} (evs : List CEv) (h : d.log = c.log ++ evs) (hf : failuresIn evs = [])
    (he : d.error = c.error) (hs : d.state = c.state) : c.Falls d [] :=
  ⟨⟨evs, h, hf⟩, by simp [he], fun h' => by rw [hs]; exact h', fun _ => hs⟩

theorem Conn.Falls.refl (c : Conn) : c.Falls c [] := .of_log [] (by simp) rfl rfl rfl

theorem Conn.Falls.trans {c d e : Conn} {l l' : List PErr} (h : c.Falls d l) (h' : d.Falls e l') : c.Falls e (l ++ l') := by
  obtain ⟨a, ha, h1⟩ := h.log
  obtain ⟨b, hb, h2⟩ := h'.log
  refine ⟨⟨a ++ b, by rw [hb, ha, List.append_assoc], by rw [failuresIn_append, h1, h2]⟩, ?_, fun hs => h'.state (h.state hs), ?_⟩
  · rw [h'.error, h.error, List.head?_append, Option.or_assoc]
  · intro hn
    obtain ⟨hl, hl'⟩ := List.append_eq_nil_iff.1 hn
    exact (h'.still hl').trans (h.still hl)

theorem Conn.Falls.session (c : Conn) (s : Ref) (st : Step) : c.Falls (c.onSession s st) [] := by
  cases hx : c.obj? s with
  | none => unfold onSession; rw [hx]; exact .refl c
  | some x =>
    obtain ⟨evs, he, _, _, h3, _, _, _, h7, h8, _, _⟩ := onSession_eq st hx
    refine .of_log _ h8 ?_ h3 h7
    apply List.filterMap_eq_nil_iff.2
    intro a ha
    obtain ⟨b, hb, rfl⟩ := List.mem_map.1 ha
    rfl

theorem Conn.Falls.foldl {f : Conn → α → Conn} (h : ∀ (c : Conn) a, c.Falls (f c a) []) (l : List α) (c : Conn) :
    c.Falls (l.foldl f c) [] := by
  induction l generalizing c with
  | nil => exact .refl c
  | cons a l ih => exact (h c a).trans (ih _)

theorem Conn.Falls.setError (c : Conn) (e : PErr) : c.Falls (c.setError e) [e] := by
  have h1 : (c.note (.failed e)).Falls (c.sessions.values.foldl (failSession e) (c.note (.failed e))) [] :=
    .foldl (fun (c : Conn) v => by
      cases v
      case established s => exact .session c s (.fail e)
      all_goals exact .refl c) _ _
  have h2 : ∀ d : Conn, d.Falls (c.sessions.values.foldl dropState d) [] := fun d => .foldl (fun (c : Conn) v => by
      cases v
      case opening op => exact .of_log [.openDropped op] rfl rfl rfl rfl
      all_goals exact .refl c) _ _
  have h3 := h1.trans ((Conn.Falls.of_log (c := c.sessions.values.foldl (failSession e) (c.note (.failed e))) (d := { c.sessions.values.foldl (failSession e) (c.note (.failed e)) with
    sessions := .empty, sessionsMap := .empty }) [] (by simp) rfl rfl rfl).trans (h2 _))
  obtain ⟨evs, hl, hf⟩ := h3.log
  refine ⟨⟨.failed e :: evs, ?_, ?_⟩, ?_, h3.state, nofun⟩
  · refine hl.trans ?_
    simp [note]
  · show e :: failuresIn evs = _
    rw [hf]; rfl
  · rw [(setError_eq c e).2.2]
    cases c.error <;> rfl

theorem Conn.Falls.give (c : Conn) (s : Ref) (f : Frame) : c.Falls (c.giveFrame s f) [] := by
  unfold giveFrame
  split
  · next x hx =>
    refine (Conn.Falls.session c s (.peer f)).trans (l' := []) ?_
    unfold callService
    split
    · next y hy =>
      refine .of_log _ rfl ?_ rfl rfl
      exact List.filterMap_eq_nil_iff.2 fun a ha => by obtain ⟨_, _, rfl⟩ := List.mem_map.1 ha; rfl
    · exact .refl _
  · exact .refl c

theorem Conn.Falls.unregister {c d : Conn} {l : List PErr} (h : c.Falls d l) (ch : UInt16) : c.Falls (d.unregister ch) l := by
  unfold Conn.unregister
  split
  · exact ⟨h.log, h.error, h.state, h.still⟩
  · exact h

theorem Conn.Falls.sessionFrame (c : Conn) (ch : UInt16) (f : Frame) : c.Falls (c.sessionFrame ch f) [] := by
  unfold Conn.sessionFrame
  split
  · exact .of_log [.refused _] rfl rfl rfl rfl
  · exact .of_log [.refused _] rfl rfl rfl rfl
  · split
    · exact (Conn.Falls.give ..).unregister ch
    · exact .give ..
  · split
    · exact (Conn.Falls.session ..).unregister ch
    · exact .refl c

/-- The error a step fails the connection with. -/
def CStep.fails : CStep → List PErr
  | .recv _ (.close cl) => [.closed cl.error]
  | .forceClose => [.connectionDropped]
  | .fail e => [e]
  | _ => []

theorem Conn.Falls.step {c : Conn} (hc : c.state ≠ .closing) (st : CStep) : c.Falls (c.step st) st.fails := by
  cases st
  case recv ch f =>
    show c.Falls (c.handleFrame ch f) _
    unfold Conn.handleFrame
    have h0 : ∀ f, c.Falls (c.note (.peer ch f)) [] := fun f => .of_log [.peer ch f] rfl rfl rfl rfl
    have rest : ∀ f, c.Falls (if (c.note (.peer ch f)).error.isSome then c.note (.peer ch f)
        else (c.note (.peer ch f)).sessionFrame ch f) [] := by
      intro f
      refine (h0 f).trans (l' := []) ?_
      split
      · exact .refl _
      · exact .sessionFrame _ _ _
    cases f
    case empty => exact h0 _
    case close cl =>
      dsimp only
      rw [if_neg (show ¬ (c.note (.peer ch (.close cl))).state = .closing from hc)]
      have h1 := (h0 (.close cl)).trans (Conn.Falls.setError (c.note (.peer ch (.close cl))) (.closed cl.error))
      obtain ⟨evs, hl, hf⟩ := h1.log
      refine ⟨⟨evs ++ [.frame 0 (.close { error := none }), .called (.protocolError (.closed cl.error))], ?_, ?_⟩, h1.error, ?_, nofun⟩
      · simp [note, post] at hl ⊢
        rw [hl, List.append_assoc]
      · rw [failuresIn_append, hf]; rfl
      · intro _; simp [note]
    case begin_ b =>
      dsimp only
      refine (h0 (.begin_ b)).trans (l' := []) ?_
      generalize c.note (.peer ch (.begin_ b)) = c
      split
      · unfold completeLocal
        split
        · next op _ =>
          exact .of_log [.begun ch c.objs.length, .opened op c.objs.length] (by simp [note]) rfl rfl rfl
        · exact .refl _
      · exact .of_log [.begun ch c.objs.length, .frame (UInt16.ofNat c.sessions.vacantKey)
          (beginFrame (some ch) b.incomingWindow none none none)] (by simp [registerRemote, note, post]) rfl rfl rfl
    all_goals exact rest _
  case «local» s st =>
    show c.Falls (if st.isLocal then c.onSession s st else c) _
    split
    · exact .session c s st
    · exact .refl c
  case openSession off des props =>
    show c.Falls (c.openSession off des props) _
    unfold openSession
    dsimp only
    split
    · next e he => exact .of_log [.openFailed c.ops e] rfl rfl rfl rfl
    · split
      · exact .of_log [_] rfl rfl rfl rfl
      · exact .of_log [_] rfl rfl rfl rfl
  case forceClose =>
    have h := Conn.Falls.setError ({ c with state := .drop }.note .ioClosed) .connectionDropped
    obtain ⟨evs, hl, hf⟩ := h.log
    exact ⟨⟨.ioClosed :: evs, by refine hl.trans ?_; simp [note], hf⟩, h.error, fun _ => h.state (by simp [note]), nofun⟩
  case close e =>
    exact .of_log [.frame 0 (.close { error := e }), .ioClosed] (by simp [Conn.step, Conn.close, post, note]) rfl rfl rfl
  case poll =>
    refine .of_log _ rfl ?_ rfl rfl
    exact List.filterMap_eq_nil_iff.2 fun a ha => by obtain ⟨_, _, rfl⟩ := List.mem_map.1 ha; rfl
  case stop e => cases e <;> exact .of_log [_] rfl rfl rfl rfl
  case fail e => exact .setError c e

/-- The error of a connection is the first one it was failed with. -/
theorem Conn.Reachable.error_first {c : Conn} (h : c.Reachable) : c.error = (failuresIn c.log).head? := by
  refine h.induct (P := fun c => c.error = (failuresIn c.log).head?) (fun _ => rfl) fun c st hr hc => ?_
  have hf := Conn.Falls.step hr.not_closing st
  obtain ⟨evs, hl, he⟩ := hf.log
  rw [hf.error, hl, failuresIn_append, he, hc, List.head?_append]

theorem Conn.closeSeen_eq (c : Conn) : c.closeSeen = (failuresIn c.log).head?.isSome := by
  unfold closeSeen failuresIn
  induction c.log with
  | nil => rfl
  | cons e l ih => cases e <;> simp [ih]

/-- Failed or closed, a connection stays so. -/
theorem Conn.Reachable.shut {c : Conn} (h : c.Reachable) (hs : c.state ≠ .normal ∨ c.error.isSome) (steps : List CStep) :
    (c.run steps).state ≠ .normal ∨ (c.run steps).error.isSome := by
  induction steps generalizing c with
  | nil => exact hs
  | cons st l ih =>
    refine ih (h.step st) ?_
    have hf := Conn.Falls.step h.not_closing st
    rcases hs with hs | hs
    · exact .inl (hf.state hs)
    · right
      rw [hf.error]
      obtain ⟨e, he⟩ := Option.isSome_iff_exists.1 hs
      rw [he]; rfl

end Amqp.Rt
