import Mathlib.Data.List.Induction
import Verif.Spec.Serve
import Verif.Lemmas.DispatcherInv
import Verif.Lemmas.NetWire
import Verif.Lemmas.SessionEnding
import Verif.Lemmas.SessionTalk
import Verif.Lemmas.SessionShip
/-!
# `Close` frames
-/

namespace Amqp.Rt
open Conn

theorem closesIn_append (l l' : List CEv) : closesIn (l ++ l') = closesIn l ++ closesIn l' := List.filterMap_append

theorem peerCloses_append (l l' : List CEv) : peerCloses (l ++ l') = peerCloses l ++ peerCloses l' := List.filterMap_append

/-- A session never posts a `Close`. -/
theorem Session.step_no_close (x : Session) (st : Step) {evs : List Ev} (h : (x.step st).log = x.log ++ evs) (c : Close) :
    Ev.frame (.close c) ∉ evs := by
  intro hm
  have hin : Ev.frame (.close c) ∈ evs.filter Ev.ender := List.mem_filter.2 ⟨hm, rfl⟩
  have key : ∀ (s : Session) l, s.log = x.log ++ evs → s.enders = x.enders ++ l → Ev.frame (.close c) ∉ l → False := by
    intro s l hs he hl
    unfold enders at he
    rw [hs, List.filter_append, List.append_cancel_left_eq] at he
    rw [he] at hin
    exact hl hin
  by_cases he : st.ends = false
  · by_cases hs : st = .endSession
    · subst hs
      have h2 : (x.step .endSession).enders = x.enders ∨ (x.step .endSession).enders = x.enders ++
          [.closeSession x.remoteChannelId.toNat, .frame (.end_ { error := none })] := by
        show x.endLocal.enders = _ ∨ x.endLocal.enders = _
        unfold endLocal
        by_cases h1 : x.ended
        · rw [if_pos h1]; exact .inl rfl
        · rw [if_neg h1]
          by_cases h2 : x.ending
          · rw [if_pos h2]; exact .inl rfl
          · rw [if_neg h2]
            right
            simp [enders, note, post, List.filter_append, Ev.ender]
            rfl
      rcases h2 with h2 | h2
      · exact key _ [] h (by rw [h2, List.append_nil]) (by simp)
      · exact key _ _ h h2 (by simp)
    · exact key _ [] h (by rw [step_enders x st he hs, List.append_nil]) (by simp)
  · cases st <;> first | exact he rfl | skip
    case peer f =>
      cases f <;> first | exact he rfl | skip
      next e =>
      have h2 : (x.step (.peer (.end_ e))).enders = x.enders ∨
          (x.step (.peer (.end_ e))).enders = x.enders ++ [.frame (.end_ { error := none })] := by
        show (x.onPeer (.end_ e)).enders = _ ∨ (x.onPeer (.end_ e)).enders = _
        unfold onPeer
        dsimp only
        split
        · left; simp
        · right
          have : ∀ s : Session, (s.post (.end_ { error := none })).enders = s.enders ++ [.frame (.end_ { error := none })] := by
            intro s; simp [enders, note, post, List.filter_append, Ev.ender]
          rw [this]; simp
      rcases h2 with h2 | h2
      · exact key _ [] h (by rw [h2, List.append_nil]) (by simp)
      · exact key _ _ h h2 (by simp)
    case fail e => exact key _ [] h (by show (x.setError e).enders = _; simp) (by simp)
    case endConfirmed e =>
      refine key _ [] h ?_ (by simp)
      simp only [step]
      split <;> simp

/-- Failing, a session posts nothing. -/
theorem Session.fail_posts (x : Session) (e : PErr) {evs : List Ev} (h : (x.step (.fail e)).log = x.log ++ evs) : posted evs = [] := by
  have h1 : (x.step (.fail e)).talk = x.talk := setError_talk x e
  have h2 : (x.step (.fail e)).shipped = x.shipped := setError_shipped x e
  unfold talk at h1
  rw [h, List.filterMap_append, List.append_right_eq_self, List.filterMap_eq_nil_iff] at h1
  unfold shipped sentTransfers at h2
  rw [h, List.filterMap_append, List.append_right_eq_self, List.filterMap_eq_nil_iff] at h2
  apply List.filterMap_eq_nil_iff.2
  intro a ha
  have h1 := h1 a ha
  have h2 := h2 a ha
  cases a <;> first | rfl | skip
  next f => cases f <;> first | cases h1; done | cases h2

/-! ## Connections -/

/-- From `c` to `d`, what is noted is this, with regard to `Close`. -/
structure Conn.Says (c d : Conn) (l p : List Close) : Prop where
  log : ∃ evs, d.log = c.log ++ evs ∧ closesIn evs = l ∧ peerCloses evs = p
  state : c.state ≠ .closing → d.state ≠ .closing

theorem Conn.Says.of_log {c d : Conn} (evs : List CEv) (h : d.log = c.log ++ evs) (hs : d.state = c.state) :
    c.Says d (closesIn evs) (peerCloses evs) := ⟨⟨evs, h, rfl, rfl⟩, fun h' => by rw [hs]; exact h'⟩

theorem Conn.Says.refl (c : Conn) : c.Says c [] [] := .of_log [] (by simp) rfl

theorem Conn.Says.trans {c d e : Conn} {l p l' p' : List Close} (h : c.Says d l p) (h' : d.Says e l' p') :
    c.Says e (l ++ l') (p ++ p') := by
  obtain ⟨a, ha, h1, h2⟩ := h.log
  obtain ⟨b, hb, h3, h4⟩ := h'.log
  exact ⟨⟨a ++ b, by rw [hb, ha, List.append_assoc], by rw [closesIn_append, h1, h3], by rw [peerCloses_append, h2, h4]⟩,
    fun hs => h'.state (h.state hs)⟩

theorem Conn.Says.same {c d e : Conn} {l p : List Close} (h : c.Says d l p) (hl : e.log = d.log) (hs : e.state = d.state) :
    c.Says e l p := by
  obtain ⟨a, ha, h1, h2⟩ := h.log
  exact ⟨⟨a, by rw [hl, ha], h1, h2⟩, fun h' => by rw [hs]; exact h.state h'⟩

theorem Conn.Says.session (c : Conn) (s : Ref) (st : Step) : c.Says (c.onSession s st) [] [] := by
  cases hx : c.obj? s with
  | none => unfold onSession; rw [hx]; exact .refl c
  | some x =>
    obtain ⟨evs, he, _, _, _, _, _, _, h7, h8, _, _⟩ := onSession_eq st hx
    refine ⟨⟨_, h8, ?_, ?_⟩, fun h => by rw [h7]; exact h⟩
    · apply List.filterMap_eq_nil_iff.2
      intro a ha
      obtain ⟨b, hb, rfl⟩ := List.mem_map.1 ha
      cases b <;> first | rfl | skip
      next f => cases f <;> first | rfl | exact absurd hb (x.step_no_close st he _)
    · apply List.filterMap_eq_nil_iff.2
      intro a ha
      obtain ⟨b, hb, rfl⟩ := List.mem_map.1 ha
      rfl

theorem Conn.Says.foldl {f : Conn → α → Conn} (h : ∀ (c : Conn) a, c.Says (f c a) [] []) (l : List α) (c : Conn) :
    c.Says (l.foldl f c) [] [] := by
  induction l generalizing c with
  | nil => exact .refl c
  | cons a l ih => exact (h c a).trans (ih _)

theorem Conn.Says.setError (c : Conn) (e : PErr) : c.Says (c.setError e) [] [] := by
  have h1 : c.Says (c.sessions.values.foldl (failSession e) (c.note (.failed e))) [] [] :=
    (Conn.Says.of_log (d := c.note (.failed e)) [.failed e] rfl rfl).trans (.foldl (fun (c : Conn) v => by
      cases v
      case established s => exact .session c s (.fail e)
      all_goals exact .refl c) _ _)
  have h2 : ∀ d : Conn, d.Says (c.sessions.values.foldl dropState d) [] [] := fun d => .foldl (fun (c : Conn) v => by
      cases v
      case opening op => exact .of_log [.openDropped op] rfl rfl
      all_goals exact .refl c) _ _
  exact ((h1.same (e := { c.sessions.values.foldl (failSession e) (c.note (.failed e)) with
    sessions := .empty, sessionsMap := .empty }) rfl rfl).trans (h2 _)).same rfl rfl

theorem Conn.Says.give (c : Conn) (s : Ref) (f : Frame) : c.Says (c.giveFrame s f) [] [] := by
  unfold giveFrame
  split
  · next x hx =>
    refine (Conn.Says.session c s (.peer f)).trans (l' := []) (p' := []) ?_
    unfold callService
    split
    · next y hy =>
      refine ⟨⟨_, rfl, ?_, ?_⟩, id⟩ <;>
        exact List.filterMap_eq_nil_iff.2 fun a ha => by obtain ⟨_, _, rfl⟩ := List.mem_map.1 ha; rfl
    · exact .refl _
  · exact .refl c

theorem Conn.Says.unregister {c d : Conn} {l p : List Close} (h : c.Says d l p) (ch : UInt16) : c.Says (d.unregister ch) l p := by
  unfold Conn.unregister
  split
  · exact h.same rfl rfl
  · exact h

theorem Conn.Says.sessionFrame (c : Conn) (ch : UInt16) (f : Frame) : c.Says (c.sessionFrame ch f) [] [] := by
  unfold Conn.sessionFrame
  split
  · exact .of_log [.refused _] rfl rfl
  · exact .of_log [.refused _] rfl rfl
  · split
    · exact (Conn.Says.give ..).unregister ch
    · exact .give ..
  · split
    · exact (Conn.Says.session ..).unregister ch
    · exact .refl c

/-- The `Close` frames with which a step of the connection answers. -/
def Conn.answers : CStep → List Close
  | .close e => [{ error := e }]
  | .recv _ (.close _) => [{ error := none }]
  | _ => []

/-- The `Close` frames a step brings in. -/
def Conn.brings : CStep → List Close
  | .recv _ (.close c) => [c]
  | _ => []

theorem Conn.Says.step {c : Conn} (hc : c.state ≠ .closing) (st : CStep) : c.Says (c.step st) (answers st) (brings st) := by
  cases st
  case recv ch f =>
    show c.Says (c.handleFrame ch f) _ _
    unfold Conn.handleFrame
    have h0 : ∀ f, c.Says (c.note (.peer ch f)) [] (brings (.recv ch f)) := fun f =>
      ⟨⟨[.peer ch f], rfl, rfl, by cases f <;> rfl⟩, id⟩
    have rest : ∀ f, brings (.recv ch f) = [] → c.Says (if (c.note (.peer ch f)).error.isSome then c.note (.peer ch f)
        else (c.note (.peer ch f)).sessionFrame ch f) [] [] := by
      intro f hf
      refine Conn.Says.trans (p := []) (l' := []) (p' := []) (by have := h0 f; rw [hf] at this; exact this) ?_
      split
      · exact .refl _
      · exact .sessionFrame _ _ _
    cases f
    case empty => exact h0 _
    case close cl =>
      dsimp only
      rw [if_neg (show ¬ (c.note (.peer ch (.close cl))).state = .closing from hc)]
      have h1 := (h0 (.close cl)).trans (Conn.Says.setError (c.note (.peer ch (.close cl))) (.closed cl.error))
      refine (h1.trans (l' := [{ error := none }]) (p' := []) ⟨⟨[.frame 0 (.close { error := none }),
        .called (.protocolError (.closed cl.error))], ?_, rfl, rfl⟩, fun _ => by simp [note]⟩)
      simp [note, post]
    case begin_ b =>
      dsimp only
      refine (h0 (.begin_ b)).trans (l' := []) (p' := []) ?_
      generalize c.note (.peer ch (.begin_ b)) = c
      split
      · unfold completeLocal
        split
        · next op _ =>
          exact .of_log [.begun ch c.objs.length, .opened op c.objs.length] (by simp [note]) rfl
        · exact .refl _
      · exact .of_log [.begun ch c.objs.length, .frame (UInt16.ofNat c.sessions.vacantKey)
          (beginFrame (some ch) b.incomingWindow none none none)] (by simp [registerRemote, note, post]) rfl
    all_goals exact rest _ rfl
  case «local» s st =>
    show c.Says (if st.isLocal then c.onSession s st else c) _ _
    split
    · exact .session c s st
    · exact .refl c
  case openSession off des props =>
    show c.Says (c.openSession off des props) _ _
    unfold openSession
    dsimp only
    split
    · exact ⟨⟨[_], rfl, rfl, rfl⟩, id⟩
    · split
      · exact ⟨⟨[_], rfl, rfl, rfl⟩, id⟩
      · exact ⟨⟨[_], rfl, rfl, rfl⟩, id⟩
  case forceClose =>
    refine Conn.Says.trans (d := { c with state := .drop }.note .ioClosed) (l := []) (p := []) (l' := []) (p' := [])
      ⟨⟨[.ioClosed], rfl, rfl, rfl⟩, fun _ => by simp [note]⟩ (.setError _ _)
  case close e => exact .of_log [.frame 0 (.close { error := e }), .ioClosed] (by simp [Conn.step, Conn.close, post, note]) rfl
  case poll =>
    refine ⟨⟨_, rfl, ?_, ?_⟩, id⟩ <;>
      exact List.filterMap_eq_nil_iff.2 fun a ha => by obtain ⟨_, _, rfl⟩ := List.mem_map.1 ha; rfl
  case stop e => cases e <;> exact ⟨⟨[_], rfl, rfl, rfl⟩, id⟩
  case fail e => exact .setError c e

theorem Conn.Reachable.not_closing {c : Conn} (h : Conn.Reachable c) : c.state ≠ .closing :=
  h.induct (P := fun c => c.state ≠ .closing) (fun _ => by simp [Conn.new]) fun c st _ hc => (Conn.Says.step hc st).state hc

/-- From `c` to `d` nothing is posted. -/
def Conn.Mute (c d : Conn) : Prop := (∀ s, d.chanOf s = c.chanOf s) ∧ d.wire = c.wire

theorem Conn.Mute.refl (c : Conn) : c.Mute c := ⟨fun _ => rfl, rfl⟩

theorem Conn.Mute.trans {c d e : Conn} (h : c.Mute d) (h' : d.Mute e) : c.Mute e :=
  ⟨fun s => (h'.1 s).trans (h.1 s), h'.2.trans h.2⟩

theorem Conn.Mute.of_log {c d : Conn} {evs : List CEv} (hc : ∀ s, d.chanOf s = c.chanOf s) (hl : d.log = c.log ++ evs)
    (hw : wireOf c.chanOf evs = []) : c.Mute d := by
  have : d.chanOf = c.chanOf := funext hc
  exact ⟨hc, by unfold Conn.wire; rw [hl, this, wireOf_append, hw, List.append_nil]⟩

theorem Conn.Mute.session (c : Conn) (s : Ref) (e : PErr) : c.Mute (c.onSession s (.fail e)) := by
  cases hx : c.obj? s with
  | none => unfold onSession; rw [hx]; exact .refl c
  | some x =>
    obtain ⟨evs, he, ho, _, _, _, _, _, h7, h8, _, _⟩ := onSession_eq (.fail e) hx
    refine .of_log (chanOf_set hx ho) h8 ?_
    rw [wireOf_ses (show c.chanOf s = some (UInt16.ofNat x.id) by unfold chanOf; rw [hx]; rfl), x.fail_posts e he, List.map_nil]

theorem Conn.Mute.foldl {f : Conn → α → Conn} (h : ∀ (c : Conn) a, c.Mute (f c a)) (l : List α) (c : Conn) :
    c.Mute (l.foldl f c) := by
  induction l generalizing c with
  | nil => exact .refl c
  | cons a l ih => exact (h c a).trans (ih _)

theorem Conn.Mute.setError (c : Conn) (e : PErr) : c.Mute (c.setError e) := by
  have h1 : c.Mute (c.sessions.values.foldl (failSession e) (c.note (.failed e))) :=
    (Conn.Mute.of_log (c := c) (d := c.note (.failed e)) (evs := [.failed e]) (fun _ => rfl) rfl rfl).trans (.foldl (fun (c : Conn) v => by
      cases v
      case established s => exact .session c s e
      all_goals exact .refl c) _ _)
  have h2 : ∀ d : Conn, d.Mute (c.sessions.values.foldl dropState d) := fun d => .foldl (fun (c : Conn) v => by
      cases v
      case opening op => exact .of_log (evs := [.openDropped op]) (fun _ => rfl) rfl rfl
      all_goals exact .refl c) _ _
  exact h1.trans (h2 _)

theorem Conn.wire_post (c : Conn) (ch : UInt16) (f : Frame) : (c.post ch f).wire = c.wire ++ [(ch, f)] := by
  unfold Conn.wire
  exact wireOf_append ..

theorem Conn.wire_note {c : Conn} {e : CEv} (h : wireOf c.chanOf [e] = []) : (c.note e).wire = c.wire :=
  (Conn.Mute.of_log (c := c) (d := c.note e) (fun _ => rfl) rfl h).2

/-- The peer closes the connection. -/
theorem Conn.peerClose (c : Conn) (h : c.state ≠ .closing) (ch : UInt16) (cl : Close) :
    let d := c.step (.recv ch (.close cl))
    d.wire = c.wire ++ [(0, .close { error := none })] ∧ d.error = some (c.error.getD (.closed cl.error)) ∧
    d.sessions = .empty ∧ d.state = .remoteClose ∧ d.log.getLast? = some (.called (.protocolError (.closed cl.error))) := by
  have he : c.step (.recv ch (.close cl)) = { ((c.note (.peer ch (.close cl))).setError (.closed cl.error)).post 0
      (.close { error := none }) with state := .remoteClose }.note (.called (.protocolError (.closed cl.error))) := by
    show c.handleFrame ch (.close cl) = _
    unfold Conn.handleFrame
    dsimp only
    rw [if_neg (show ¬ (c.note (.peer ch (.close cl))).state = .closing from h)]
  intro d
  have hd : d = _ := he
  rw [hd]
  obtain ⟨h1, _, h3⟩ := setError_eq (c.note (.peer ch (.close cl))) (.closed cl.error)
  have hm := (Conn.Mute.setError (c.note (.peer ch (.close cl))) (.closed cl.error)).2
  refine ⟨?_, h3, h1, rfl, by simp [note]⟩
  rw [wire_note rfl]
  show (((c.note (.peer ch (.close cl))).setError (.closed cl.error)).post 0 (.close { error := none })).wire = _
  rw [wire_post, hm, wire_note rfl]

theorem Conn.wire_close (c : Conn) (e : Option Error) : (c.step (.close e)).wire = c.wire ++ [(0, .close { error := e })] := by
  show ((c.post 0 (.close { error := e })).note .ioClosed).wire = _
  rw [wire_note rfl, wire_post]

/-! ## The dispatcher -/

namespace Disp

theorem says_advance {d : Disp} (h : d.conn.state ≠ .closing) (st : CStep) :
    d.conn.Says (d.advance st).conn (answers st) (brings st) := Conn.Says.step h st

theorem says_complete {d : Disp} (h : d.conn.state ≠ .closing) (s : Ref) (i : Nat) (a : Answer) :
    d.conn.Says (d.complete s i a).conn [] [] := Conn.Says.step h (.local s (.complete i a.edit a.error))

theorem says_handle {d : Disp} (h : d.conn.state ≠ .closing) (id : Nat) (k : Call) (a : Answer) :
    d.conn.Says (d.handle id k a).conn [] [] := by
  cases k
  case action s i t => exact says_complete (d := { d with answered := d.answered ++ [id] }) h s i a
  case protocolError e => exact Conn.Says.step h (.fail e)
  case disconnected => exact Conn.Says.step h (.fail .disconnected)
  case notice => exact .refl _

theorem says_pollFrom (ready : Nat → Option Answer) (n idx : Nat) {d : Disp} (h : d.conn.state ≠ .closing) :
    d.conn.Says (pollFrom ready n idx d).conn [] [] := by
  induction n generalizing idx d with
  | zero => exact .refl _
  | succ n ih =>
    unfold pollFrom
    split
    · exact .refl _
    · next id k hk =>
      split
      · exact ih _ h
      · next a ha =>
        have hs := says_handle (d := { d with futs := swapRemove d.futs idx }) h id k a
        dsimp only
        split
        · exact hs
        · exact hs.trans (ih _ (hs.state h))

theorem says_poll {d : Disp} (h : d.conn.state ≠ .closing) (ready : Nat → Option Answer) :
    d.conn.Says (d.poll ready).conn [] [] := by
  have h1 := says_advance h .poll
  exact h1.trans (says_pollFrom ready _ _ (h1.state h))

/-- The `Close` frames a step of the dispatcher posts. -/
def _root_.Amqp.Rt.DStep.answers : DStep → List Close
  | .recv ch f => Conn.answers (.recv ch f)
  | .own (.close e) => [{ error := e }]
  | _ => []

def _root_.Amqp.Rt.DStep.brings : DStep → List Close
  | .recv _ (.close c) => [c]
  | _ => []

theorem says_step {d : Disp} (h : d.conn.state ≠ .closing) (st : DStep) : d.conn.Says (d.step st).conn st.answers st.brings := by
  cases st
  case recv ch f =>
    have := says_advance h (.recv ch f)
    cases f <;> exact this
  case own st =>
    show d.conn.Says (if st.outside then d.advance st else d).conn _ _
    have := says_advance h st
    cases st
    case recv => exact .refl _
    case «local» s st =>
      split
      · exact this
      · exact .refl _
    all_goals first | exact this | exact .refl _
  case attached s i a =>
    show d.conn.Says (match (d.conn.obj? s).bind (·.todo[i]?) with
      | some (.attached _ _) => d.complete s i a
      | _ => d).conn _ _
    split
    · exact says_complete h s i a
    · exact .refl _
  case poll r => exact says_poll h r
  case shutdown => exact says_advance h (.fail .disconnected)

end Disp

/-! ## The service -/

namespace Serve

theorem run_snoc (σ : Serve) (steps : List SStep) (st : SStep) : σ.run (steps ++ [st]) = (σ.run steps).step st := by
  simp [run]

theorem _root_.Amqp.Rt.Disp.Reachable.snoc {d : Disp} (h : d.Reachable) (st : DStep) : (d.step st).Reachable := by
  obtain ⟨cfg, steps, rfl⟩ := h
  exact ⟨cfg, steps ++ [st], by simp [Disp.run]⟩

theorem step_ready (σ : Serve) (p c : Readiness) : σ.step (.ready p c) = if σ.stopped.isSome then σ else σ.ready p c := rfl

theorem ready_cases (σ : Serve) (p c : Readiness) : σ.ready p c = σ ∨ ∃ e w, Stopped.closes (some w) = 1 ∧
    σ.ready p c = { disp := σ.disp.step (.own (.close e)), stopped := some w } := by
  unfold ready
  repeat' split
  · exact .inr ⟨_, _, rfl, rfl⟩
  · exact .inr ⟨_, _, rfl, rfl⟩
  · exact .inr ⟨_, _, rfl, rfl⟩
  · exact .inl rfl

/-- A step of the service is one of the dispatcher, or none. -/
inductive Takes (σ : Serve) (st : SStep) (τ : Serve) : Prop
  | none (h : τ = σ) (hc : st.closes = false)
  | disp (a) (h : τ.disp = σ.disp.step a) (hs : Stopped.closes τ.stopped = Stopped.closes σ.stopped)
      (ha : a.answers.length = a.brings.length + if st.closes then 1 else 0)
  | stops (e) (h : τ.disp = σ.disp.step (.own (.close e))) (hn : σ.stopped = .none) (hs : Stopped.closes τ.stopped = 1)
      (hc : st.closes = false)

theorem takes (σ : Serve) (st : SStep) : Takes σ st (σ.step st) := by
  cases st
  case ready p c =>
    rw [step_ready]
    cases hs : σ.stopped with
    | some w => exact .none rfl rfl
    | none =>
      rw [if_neg (by simp)]
      rcases ready_cases σ p c with h | ⟨e, w, hw, h⟩
      · exact .none h rfl
      · rw [h]; exact .stops e rfl hs hw rfl
  case disp a =>
    cases a
    case recv ch f =>
      show Takes σ _ (if σ.stopped.isSome then σ else σ.call ch f)
      cases hs : σ.stopped with
      | some w => exact .none rfl rfl
      | none =>
        rw [if_neg (by simp)]
        refine .disp (.recv ch f) rfl ?_ (by cases f <;> rfl)
        rw [hs]
        unfold call; dsimp only
        cases refusedIn _ <;> rfl
    case poll r =>
      show Takes σ _ (if σ.stopped.isSome then σ else { σ with disp := σ.disp.step (.poll r) })
      cases hs : σ.stopped with
      | some w => exact .none rfl rfl
      | none =>
        rw [if_neg (by simp)]
        exact .disp (.poll r) rfl (by rw [hs]) rfl
    case own st => exact .disp (.own st) rfl rfl (by cases st <;> rfl)
    case attached s i a => exact .disp (.attached s i a) rfl rfl rfl
    case shutdown => exact .disp .shutdown rfl rfl rfl

theorem step_disp (σ : Serve) (st : SStep) : (σ.step st).disp = σ.disp ∨ ∃ a, (σ.step st).disp = σ.disp.step a := by
  cases takes σ st with
  | none h _ => rw [h]; exact .inl rfl
  | disp a h _ _ => exact .inr ⟨a, h⟩
  | stops e h _ _ _ => exact .inr ⟨_, h⟩

theorem Reachable.disp {σ : Serve} (h : σ.Reachable) : σ.disp.Reachable := by
  obtain ⟨cfg, steps, rfl⟩ := h
  induction steps using List.reverseRecOn with
  | nil => exact ⟨cfg, [], rfl⟩
  | append_singleton steps st ih =>
    rw [run_snoc]
    rcases step_disp ((new cfg).run steps) st with h | ⟨a, h⟩
    · rw [h]; exact ih
    · rw [h]; exact ih.snoc a

theorem Reachable.conn {σ : Serve} (h : σ.Reachable) : σ.disp.conn.Reachable := h.disp.inv.reach

theorem Reachable.step {σ : Serve} (h : σ.Reachable) (st : SStep) : (σ.step st).Reachable := by
  obtain ⟨cfg, steps, rfl⟩ := h
  exact ⟨cfg, steps ++ [st], (run_snoc _ _ _).symm⟩

/-- The books are kept in one step. -/
theorem step_closes {σ : Serve} (h : σ.disp.conn.state ≠ .closing) (st : SStep) :
    (closesIn (σ.step st).disp.conn.log).length + (peerCloses σ.disp.conn.log).length + Stopped.closes σ.stopped =
      (closesIn σ.disp.conn.log).length + (peerCloses (σ.step st).disp.conn.log).length +
        Stopped.closes (σ.step st).stopped + (if st.closes then 1 else 0) := by
  have key : ∀ (a : DStep), (closesIn (σ.disp.step a).conn.log).length = (closesIn σ.disp.conn.log).length + a.answers.length ∧
      (peerCloses (σ.disp.step a).conn.log).length = (peerCloses σ.disp.conn.log).length + a.brings.length := by
    intro a
    obtain ⟨evs, e1, e2, e3⟩ := (Disp.says_step h a).log
    rw [e1, closesIn_append, peerCloses_append, e2, e3, List.length_append, List.length_append]
    exact ⟨rfl, rfl⟩
  cases takes σ st with
  | none h hc => rw [h, hc]; rfl
  | disp a h hs ha => rw [h, hs, (key a).1, (key a).2, ha]; omega
  | stops e h hn hs hc =>
    rw [h, hn, hs, hc, (key _).1, (key _).2]
    simp only [DStep.answers, DStep.brings, List.length_singleton, List.length_nil, Stopped.closes, Bool.false_eq_true, if_false]
    omega

theorem step_stopped {σ : Serve} {w : Stopped} (h : σ.stopped = some w) (st : SStep) : (σ.step st).stopped = some w := by
  cases st
  case ready p c => rw [step_ready, h]; exact h
  case disp a =>
    cases a
    case recv ch f =>
      show (if σ.stopped.isSome then σ else σ.call ch f).stopped = _
      rw [h]; exact h
    case poll r =>
      show (if σ.stopped.isSome then σ else { σ with disp := σ.disp.step (.poll r) }).stopped = _
      rw [h]; exact h
    all_goals exact h

/-- After the dispatcher has stopped, only the application closes. -/
theorem stopped_closes {σ : Serve} (h : σ.disp.conn.state ≠ .closing) {w : Stopped} (hs : σ.stopped = some w) {st : SStep}
    (hc : st.closes = false) : closesIn (σ.step st).disp.conn.log = closesIn σ.disp.conn.log := by
  have key : ∀ (a : DStep), a.answers = [] → closesIn (σ.disp.step a).conn.log = closesIn σ.disp.conn.log := by
    intro a ha
    obtain ⟨evs, e1, e2, _⟩ := (Disp.says_step h a).log
    rw [e1, closesIn_append, e2, ha, List.append_nil]
  cases st
  case ready p c => rw [step_ready, hs]; rfl
  case disp a =>
    cases a
    case recv ch f =>
      show closesIn (if σ.stopped.isSome then σ else σ.call ch f).disp.conn.log = _
      rw [hs]; rfl
    case poll r =>
      show closesIn (if σ.stopped.isSome then σ else { σ with disp := σ.disp.step (.poll r) }).disp.conn.log = _
      rw [hs]; rfl
    case own st => exact key (.own st) (by cases st <;> first | rfl | cases hc)
    case attached s i a => exact key _ rfl
    case shutdown => exact key _ rfl

theorem run_stopped {σ : Serve} {w : Stopped} (h : σ.stopped = some w) (steps : List SStep) : (σ.run steps).stopped = some w := by
  induction steps generalizing σ with
  | nil => exact h
  | cons st l ih => exact ih (step_stopped h st)

end Serve
end Amqp.Rt
