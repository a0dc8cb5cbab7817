import Verif.Model.Connection
import Verif.Lemmas.SessionError
/-!
# Small changes of a connection

Every step of a connection is a sequence of the small changes of `CMicro`; an invariant is proved for these.
-/

namespace Amqp.Rt

/-- The session a slab entry refers to. -/
def SesState.ref? : SesState → Option Ref
  | .opening _ => none
  | .established s | .closing s => some s

/-- Notes that record neither a session's event, nor the making of a session, nor a queued control frame being handed on,
nor this side's own `Begin`. -/
def CEv.Plain : CEv → Prop
  | .ses _ _ | .begun _ _ | .called (.queued _ _) => False
  | .frame _ (.begin_ b) => b.remoteChannel ≠ none
  | _ => True

open Conn in
inductive CMicro (c : Conn) : Conn → Prop
  | note (e) (h : e.Plain) : CMicro c (c.note e)
  | calls (l : List CEv) (h : ∀ e ∈ l, ∃ s t, e = .called (.action s t)) : CMicro c { c with log := c.log ++ l }
  | session (s x st) (hx : c.obj? s = some x) : CMicro c (c.onSession s st)
  | register (ch b) : CMicro c (c.registerRemote ch b)
  | complete (tok op ch b) (h : c.sessions.get tok = some (.opening op)) : CMicro c (c.completeLocal tok ch b)
  | unregister (ch) : CMicro c (c.unregister ch)
  | clear : CMicro c { c with sessions := .empty, sessionsMap := .empty }
  | setErr (e) (h : c.error = none) : CMicro c { c with error := some e }
  | newOp : CMicro c { c with ops := c.ops + 1 }
  | opening (op off des props) (h : c.sessions.vacantKey < c.channelMax.toNat) :
      CMicro c ({ c with sessions := c.sessions.insert (.opening op) }.post (UInt16.ofNat c.sessions.vacantKey)
        (beginFrame none 0xffffffff off des props))
  | poll : CMicro c c.poll
  | state (st) : CMicro c { c with state := st }

inductive CMicros (c : Conn) : Conn → Prop
  | refl : CMicros c c
  | tail {c' c''} : CMicros c c' → CMicro c' c'' → CMicros c c''

theorem CMicros.one {c c' : Conn} (h : CMicro c c') : CMicros c c' := .tail .refl h

theorem CMicros.trans {c c' c'' : Conn} (h : CMicros c c') (h' : CMicros c' c'') : CMicros c c'' := by
  induction h' with
  | refl => exact h
  | tail _ m ih => exact ih.tail m

theorem CMicros.invariant {P : Conn → Prop} (hP : ∀ c c', CMicro c c' → P c → P c') {c c' : Conn}
    (h : CMicros c c') : P c → P c' := by
  intro hc
  induction h with
  | refl => exact hc
  | tail _ m ih => exact hP _ _ m ih

namespace Conn

theorem foldl_cmicros {f : Conn → α → Conn} (h : ∀ c a, CMicros c (f c a)) (l : List α) (c : Conn) :
    CMicros c (l.foldl f c) := by
  induction l generalizing c with
  | nil => exact .refl
  | cons a l ih => exact (h c a).trans (ih _)

theorem onSession_micros (c : Conn) (s : Ref) (st : Step) : CMicros c (c.onSession s st) := by
  cases hx : c.obj? s with
  | some x => exact .one (.session s x st hx)
  | none => unfold onSession; rw [hx]; exact .refl

theorem callService_micros (c : Conn) (s : Ref) (n : Nat) : CMicros c (c.callService s n) := by
  unfold callService
  split
  · exact .one (.calls _ (by intro e he; obtain ⟨t, _, rfl⟩ := List.mem_map.1 he; exact ⟨s, t, rfl⟩))
  · exact .refl

theorem giveFrame_micros (c : Conn) (s : Ref) (f : Frame) : CMicros c (c.giveFrame s f) := by
  unfold giveFrame
  split
  · exact (onSession_micros _ _ _).trans (callService_micros _ _ _)
  · exact .refl

theorem setError_micros (c : Conn) (e : PErr) : CMicros c (c.setError e) := by
  unfold setError
  dsimp only
  refine CMicros.trans (.one (.note (.failed e) trivial)) ?_
  refine CMicros.trans (foldl_cmicros (f := failSession e) (fun c a => ?_) c.sessions.values _) ?_
  · unfold failSession; split
    · exact onSession_micros _ _ _
    · exact .refl
  refine CMicros.trans (.one .clear) ?_
  refine CMicros.trans (foldl_cmicros (f := dropState) (fun c a => ?_) c.sessions.values _) ?_
  · unfold dropState; split
    · exact .one (.note _ trivial)
    · exact .refl
  generalize List.foldl dropState _ _ = d
  cases he : d.error with
  | none => exact .one (.setErr e he)
  | some e' => simp only [Option.isNone_some, Bool.false_eq_true, if_false]; rw [← he]; exact .refl

theorem sessionFrame_micros (c : Conn) (ch : UInt16) (f : Frame) : CMicros c (c.sessionFrame ch f) := by
  unfold sessionFrame
  split
  · exact .one (.note _ trivial)
  · exact .one (.note _ trivial)
  · split
    · exact (giveFrame_micros _ _ _).tail (.unregister ch)
    · exact giveFrame_micros _ _ _
  · split
    · exact (onSession_micros _ _ _).tail (.unregister ch)
    · exact .refl

theorem handleFrame_micros (c : Conn) (ch : UInt16) (f : Frame) : CMicros c (c.handleFrame ch f) := by
  unfold handleFrame
  dsimp only
  refine CMicros.trans (.one (.note (.peer ch f) trivial)) ?_
  cases f
  case empty => exact .refl
  case close close =>
    dsimp only
    split
    · exact setError_micros _ _
    · exact (((setError_micros _ _).tail (.note (.frame 0 (.close _)) trivial)).tail (.state _)).tail (.note (.called (.protocolError _)) trivial)
  case begin_ b =>
    dsimp only
    split
    · next l _ =>
      unfold completeLocal
      split
      · next op h =>
        have := CMicro.complete (c := c.note (.peer ch (.begin_ b))) l.toNat op ch b h
        unfold completeLocal at this
        rw [h] at this
        exact .one this
      · exact .refl
    · exact .one (.register _ _)
  all_goals
    dsimp only
    split
    · exact .refl
    · exact sessionFrame_micros _ _ _

theorem step_micros (c : Conn) (st : CStep) : CMicros c (c.step st) := by
  cases st <;> unfold step <;> try dsimp only
  case recv ch f => exact handleFrame_micros c ch f
  case «local» s st =>
    split
    · exact onSession_micros _ _ _
    · exact .refl
  case openSession off des props =>
    unfold openSession
    dsimp only
    refine CMicros.trans (.one .newOp) ?_
    split
    · exact .one (.note _ trivial)
    · split
      · exact .one (.note _ trivial)
      · next h =>
        exact .one (CMicro.opening (c := { c with ops := c.ops + 1 }) c.ops off des props (by simpa using h))
  case forceClose =>
    unfold forceClose
    exact ((CMicros.one (.state _)).tail (.note .ioClosed trivial)).trans (setError_micros _ _)
  case close e => exact (CMicros.one (.note (.frame 0 (.close _)) trivial)).tail (.note .ioClosed trivial)
  case poll => exact .one .poll
  case stop e =>
    cases e with
    | none => exact .one (.note (.called .disconnected) trivial)
    | some e => exact .one (.note (.called (.protocolError e)) trivial)
  case fail e => exact setError_micros c e

theorem run_micros (c : Conn) (steps : List CStep) : CMicros c (c.run steps) := foldl_cmicros step_micros steps c

/-- An invariant of the small changes that holds in new connections holds in every reachable state. -/
theorem Reachable.invariant {P : Conn → Prop} (h₀ : ∀ cfg, P (Conn.new cfg)) (hP : ∀ c c', CMicro c c' → P c → P c')
    {c : Conn} (h : Reachable c) : P c := by
  obtain ⟨cfg, steps, rfl⟩ := h
  exact (run_micros _ steps).invariant hP (h₀ cfg)

/-! ## What a session step does to the connection -/

/-- The control frames among a session's events. -/
def ctlOf : Ev → Option Control
  | .control k => some k
  | _ => none

theorem closeSession_objs (c : Conn) (id : Nat) : (c.closeSession id).objs = c.objs := by
  unfold closeSession; split <;> rfl

/-- Entries stay as they are, but for established ones that become closing. -/
def Later (a b : Slab SesState) : Prop :=
  (a.Wf → b.Wf) ∧ ∀ k, b.get k = a.get k ∨ ∃ s, a.get k = some (.established s) ∧ b.get k = some (.closing s)

theorem Later.refl (a : Slab SesState) : Later a a := ⟨_root_.id, fun _ => .inl rfl⟩

theorem Later.trans {a b c : Slab SesState} (h : Later a b) (h' : Later b c) : Later a c := by
  refine ⟨fun x => h'.1 (h.1 x), fun k => ?_⟩
  rcases h.2 k with h1 | ⟨s, h1, h2⟩ <;> rcases h'.2 k with h3 | ⟨s', h3, h4⟩
  · exact .inl (h3.trans h1)
  · exact .inr ⟨s', by rw [← h1]; exact h3, h4⟩
  · exact .inr ⟨s, h1, by rw [h3]; exact h2⟩
  · rw [h2] at h3; cases h3

theorem closeSession_later (c : Conn) (id : Nat) : Later c.sessions (c.closeSession id).sessions := by
  unfold closeSession
  split
  · next s h =>
    refine ⟨fun w => w.set _ _, fun k => ?_⟩
    have hc : c.sessions.contains id = true := by simp [Slab.contains, h]
    dsimp only
    rw [Slab.get_set _ _ _ _ hc]
    by_cases hk : id = k
    · subst hk; exact .inr ⟨s, h, by simp⟩
    · simp [hk]
  · exact .refl _

/-- What the connection sees of a session's new events. -/
theorem absorb_foldl (s : Ref) (evs : List Ev) (c : Conn) :
    let d := evs.foldl (absorb s) c
    d.objs = c.objs ∧ d.sessionsMap = c.sessionsMap ∧ d.error = c.error ∧ d.channelMax = c.channelMax ∧
      d.maxFrameSize = c.maxFrameSize ∧ d.ops = c.ops ∧ d.state = c.state ∧ d.log = c.log ++ evs.map (.ses s) ∧
      d.queue = c.queue ++ (evs.filterMap ctlOf).map (s, ·) ∧ Later c.sessions d.sessions := by
  induction evs generalizing c with
  | nil => exact ⟨rfl, rfl, rfl, rfl, rfl, rfl, rfl, by simp, by simp, .refl _⟩
  | cons e evs ih =>
    obtain ⟨h1, h2, h3, h4, h5, h6, h7, h8, h9, h10⟩ := ih (absorb s c e)
    simp only [List.foldl_cons]
    have hd : (absorb s c e).objs = c.objs ∧ (absorb s c e).sessionsMap = c.sessionsMap ∧ (absorb s c e).error = c.error ∧
        (absorb s c e).channelMax = c.channelMax ∧ (absorb s c e).maxFrameSize = c.maxFrameSize ∧
        (absorb s c e).ops = c.ops ∧ (absorb s c e).state = c.state ∧ (absorb s c e).log = c.log ++ [.ses s e] ∧
        (absorb s c e).queue = c.queue ++ ([e].filterMap ctlOf).map (s, ·) ∧ Later c.sessions (absorb s c e).sessions := by
      cases e
      case closeSession id =>
        refine ⟨closeSession_objs _ _, ?_, ?_, ?_, ?_, ?_, ?_, ?_, ?_, closeSession_later (c.note _) id⟩
        all_goals (unfold absorb closeSession; dsimp only; split <;> simp [note, ctlOf])
      case control k => exact ⟨rfl, rfl, rfl, rfl, rfl, rfl, rfl, rfl, rfl, .refl _⟩
      all_goals exact ⟨rfl, rfl, rfl, rfl, rfl, rfl, rfl, rfl, by simp [absorb, note, ctlOf], .refl _⟩
    obtain ⟨g1, g2, g3, g4, g5, g6, g7, g8, g9, g10⟩ := hd
    refine ⟨h1.trans g1, h2.trans g2, h3.trans g3, h4.trans g4, h5.trans g5, h6.trans g6, h7.trans g7, ?_, ?_, g10.trans h10⟩
    · rw [h8, g8]; simp
    · rw [h9, g9]
      cases hc : ctlOf e <;> simp [hc]

/-- A step of a session, seen from the connection. -/
theorem onSession_eq {c : Conn} {s : Ref} {x : Session} (st : Step) (hx : c.obj? s = some x) :
    ∃ evs, (x.step st).log = x.log ++ evs ∧
    let d := c.onSession s st
    d.objs = c.objs.set s (x.step st) ∧ d.sessionsMap = c.sessionsMap ∧ d.error = c.error ∧ d.channelMax = c.channelMax ∧
      d.maxFrameSize = c.maxFrameSize ∧ d.ops = c.ops ∧ d.state = c.state ∧ d.log = c.log ++ evs.map (.ses s) ∧
      d.queue = c.queue ++ (evs.filterMap ctlOf).map (s, ·) ∧ Later c.sessions d.sessions := by
  obtain ⟨evs, he⟩ := Session.step_log x st
  refine ⟨evs, he, ?_⟩
  have h := absorb_foldl s evs { c with objs := c.objs.set s (x.step st) }
  have hd : c.onSession s st = evs.foldl (absorb s) { c with objs := c.objs.set s (x.step st) } := by
    unfold onSession; rw [hx]; dsimp only
    rw [he, List.drop_left]
  rw [hd]
  exact h

theorem obj?_set {c d : Conn} {s : Ref} {x y : Session} (hx : c.obj? s = some x) (hd : d.objs = c.objs.set s y) (t : Ref) :
    d.obj? t = if t = s then some y else c.obj? t := by
  unfold obj? at *
  rw [hd, List.getElem?_set]
  have : s < c.objs.length := by
    rcases Nat.lt_or_ge s c.objs.length with h | h
    · exact h
    · rw [List.getElem?_eq_none h] at hx; cases hx
  by_cases h : t = s
  · subst h; simp [this]
  · simp [h, Ne.symm h]

end Conn
end Amqp.Rt
