import Verif.Lemmas.ConnectionInv
/-!
# What the steps of a connection do

Effects of whole steps: a frame given to a session, and the failure of the connection.
-/

namespace Amqp.Rt

namespace Slab

theorem mem_values_iff {s : Slab α} {v : α} : v ∈ s.values ↔ ∃ k, s.get k = some v := by
  unfold values
  rw [List.mem_filterMap]
  constructor
  · rintro ⟨o, ho, h⟩
    obtain ⟨k, hk⟩ := List.getElem?_of_mem ho
    simp only [id] at h
    subst h
    exact ⟨k, get_eq_some.2 hk⟩
  · rintro ⟨k, hk⟩
    exact ⟨some v, List.mem_of_getElem? (get_eq_some.1 hk), rfl⟩

theorem values_pairwise {s : Slab α} {R : α → α → Prop}
    (h : ∀ j k v w, j ≠ k → s.get j = some v → s.get k = some w → R v w) : s.values.Pairwise R := by
  unfold values
  rw [List.pairwise_filterMap]
  rw [List.pairwise_iff_getElem]
  intro i j hi hj hij v hv w hw
  simp only [id] at hv hw
  refine h i j v w (by omega) (get_eq_some.2 ?_) (get_eq_some.2 ?_)
  · rw [List.getElem?_eq_getElem hi, hv]
  · rw [List.getElem?_eq_getElem hj, hw]

end Slab

namespace Conn

/-- Events that concern neither the beginning of sessions nor failures. -/
def Inner (e : CEv) : Prop := (∃ s x, e = .ses s x) ∨ ∃ k, e = .called k

/-- A frame given to a session. -/
theorem giveFrame_eq {c : Conn} {s : Ref} {x : Session} (f : Frame) (hx : c.obj? s = some x) :
    ∃ l, let d := c.giveFrame s f
    d.objs = c.objs.set s (x.step (.peer f)) ∧ d.sessionsMap = c.sessionsMap ∧ d.error = c.error ∧
      d.log = c.log ++ l ∧ (∀ e ∈ l, Inner e) ∧ Later c.sessions d.sessions := by
  obtain ⟨evs, _, h1, h2, h3, _, _, _, _, h8, _, h10⟩ := onSession_eq (.peer f) hx
  unfold giveFrame
  rw [hx]
  dsimp only
  unfold callService
  split
  · next y _ =>
    refine ⟨evs.map (.ses s) ++ (y.todo.drop x.todo.length).map fun t => .called (.action s t), h1, h2, h3, ?_, ?_, h10⟩
    · dsimp only; rw [h8, List.append_assoc]
    · intro e he
      rcases List.mem_append.1 he with he | he
      · obtain ⟨y, _, rfl⟩ := List.mem_map.1 he; exact .inl ⟨_, _, rfl⟩
      · obtain ⟨y, _, rfl⟩ := List.mem_map.1 he; exact .inr ⟨_, rfl⟩
  · refine ⟨_, h1, h2, h3, h8, ?_, h10⟩
    intro e he
    obtain ⟨y, _, rfl⟩ := List.mem_map.1 he; exact .inl ⟨_, _, rfl⟩

/-! ## Failure -/

theorem onSession_obj? (c : Conn) (s t : Ref) (st : Step) :
    (c.onSession s st).obj? t = if t = s then (c.obj? s).map (·.step st) else c.obj? t := by
  cases hx : c.obj? s with
  | none =>
    unfold onSession; rw [hx]
    by_cases h : t = s
    · simp [h, hx]
    · simp [h]
  | some x =>
    obtain ⟨_, _, h1, _⟩ := onSession_eq st hx
    rw [obj?_set hx h1]
    simp

theorem onSession_error (c : Conn) (s : Ref) (st : Step) : (c.onSession s st).error = c.error := by
  cases hx : c.obj? s with
  | none => unfold onSession; rw [hx]
  | some x => obtain ⟨_, _, _, _, h, _⟩ := onSession_eq st hx; exact h

/-- The established sessions among slab entries. -/
def estOf (l : List SesState) : List Ref := l.filterMap fun | .established s => some s | _ => none

theorem failSession_obj? (e : PErr) (l : List SesState) (c : Conn) (t : Ref) (hn : (estOf l).Nodup) :
    (l.foldl (failSession e) c).obj? t = if t ∈ estOf l then (c.obj? t).map (·.step (.fail e)) else c.obj? t := by
  induction l generalizing c with
  | nil => simp [estOf]
  | cons a l ih =>
    rw [List.foldl_cons]
    cases a
    case established s =>
      have hn' : s ∉ estOf l ∧ (estOf l).Nodup := by
        simpa [estOf] using hn
      rw [ih _ hn'.2]
      have hc : ∀ u, (failSession e c (.established s)).obj? u = if u = s then (c.obj? s).map (·.step (.fail e)) else c.obj? u :=
        fun u => onSession_obj? c s u _
      rw [hc]
      have hm : t ∈ estOf (.established s :: l) ↔ t = s ∨ t ∈ estOf l := by simp [estOf]
      by_cases ht : t = s
      · subst ht
        simp [hn'.1, hm]
      · simp [ht, hm]
    all_goals
      have := ih c (by simpa [estOf] using hn)
      simpa [estOf, failSession] using this

theorem failSession_error (e : PErr) (l : List SesState) (c : Conn) : (l.foldl (failSession e) c).error = c.error := by
  induction l generalizing c with
  | nil => rfl
  | cons a l ih =>
    rw [List.foldl_cons, ih]
    cases a <;> first | rfl | exact onSession_error _ _ _

/-- Nothing but the log. -/
def SameButLog (c d : Conn) : Prop :=
  d.objs = c.objs ∧ d.sessions = c.sessions ∧ d.sessionsMap = c.sessionsMap ∧ d.error = c.error

theorem dropState_foldl (l : List SesState) (c : Conn) : SameButLog c (l.foldl dropState c) := by
  induction l generalizing c with
  | nil => exact ⟨rfl, rfl, rfl, rfl⟩
  | cons a l ih =>
    rw [List.foldl_cons]
    obtain ⟨h1, h2, h3, h4⟩ := ih (c.dropState a)
    cases a <;> exact ⟨h1, h2, h3, h4⟩

/-- After `set_error` there are no sessions, and there is an error: the first one. -/
theorem setError_eq (c : Conn) (e : PErr) :
    let d := c.setError e
    d.sessions = .empty ∧ d.sessionsMap = .empty ∧ d.error = some (c.error.getD e) := by
  unfold setError
  dsimp only
  obtain ⟨_, h2, h3, h4⟩ := dropState_foldl c.sessions.values
    { c.sessions.values.foldl (failSession e) (c.note (.failed e)) with sessions := .empty, sessionsMap := .empty }
  refine ⟨h2, h3, ?_⟩
  rw [h4]
  dsimp only
  rw [failSession_error]
  show (if c.error.isNone = true then some e else c.error) = _
  cases c.error <;> rfl

theorem Reg.est_nodup {c : Conn} (h : c.Reg) : (estOf c.sessions.values).Nodup := by
  unfold estOf
  rw [List.Nodup, List.pairwise_filterMap]
  refine Slab.values_pairwise fun j k v w hjk hv hw => ?_
  intro a ha b hb
  rintro rfl
  cases v <;> simp at ha
  cases w <;> simp at hb
  subst ha hb
  obtain ⟨x, hx, hid⟩ := h.slab j _ _ hv rfl
  obtain ⟨y, hy, hid'⟩ := h.slab k _ _ hw rfl
  rw [hx] at hy
  cases hy
  exact hjk (hid.symm.trans hid')

theorem mem_estOf {c : Conn} {s : Ref} : s ∈ estOf c.sessions.values ↔ ∃ k, c.sessions.get k = some (.established s) := by
  unfold estOf
  rw [List.mem_filterMap]
  constructor
  · rintro ⟨v, hv, h⟩
    cases v <;> simp at h
    subst h
    exact Slab.mem_values_iff.1 hv
  · intro h
    exact ⟨_, Slab.mem_values_iff.2 h, rfl⟩

open Classical in
/-- `set_error` fails the established sessions and no others. -/
theorem setError_obj? {c : Conn} (h : c.Reg) (e : PErr) (t : Ref) :
    (c.setError e).obj? t =
      if ∃ k, c.sessions.get k = some (.established t) then (c.obj? t).map (·.step (.fail e)) else c.obj? t := by
  have hd : (c.setError e).objs = (c.sessions.values.foldl (failSession e) (c.note (.failed e))).objs := by
    unfold setError
    exact (dropState_foldl _ _).1
  have : (c.setError e).obj? t = (c.sessions.values.foldl (failSession e) (c.note (.failed e))).obj? t := by
    unfold obj?; rw [hd]
  rw [this, failSession_obj? e _ _ t h.est_nodup]
  simp only [mem_estOf]
  rfl

/-! ## Induction over steps -/

theorem Reachable.step {c : Conn} (h : Reachable c) (st : CStep) : Reachable (c.step st) := by
  obtain ⟨cfg, steps, rfl⟩ := h
  exact ⟨cfg, steps ++ [st], by simp [run, List.foldl_append]⟩

theorem Reachable.run {c : Conn} (h : Reachable c) (steps : List CStep) : Reachable (c.run steps) := by
  obtain ⟨cfg, steps', rfl⟩ := h
  exact ⟨cfg, steps' ++ steps, by simp [Conn.run, List.foldl_append]⟩

theorem Reachable.induct {P : Conn → Prop} (h₀ : ∀ cfg, P (Conn.new cfg))
    (hP : ∀ c st, Reachable c → P c → P (c.step st)) {c : Conn} (h : Reachable c) : P c := by
  obtain ⟨cfg, steps, rfl⟩ := h
  suffices ∀ c₀, Reachable c₀ → P c₀ → P (c₀.run steps) from this _ ⟨cfg, [], rfl⟩ (h₀ cfg)
  intro c₀ hr hp
  induction steps generalizing c₀ with
  | nil => exact hp
  | cons st l ih => exact ih _ (hr.step st) (hP _ _ hr hp)

/-! ## The shapes of a step -/

/-- The frames that go to sessions. -/
def _root_.Amqp.Frame.forSession : Frame → Bool
  | .empty | .close _ | .begin_ _ => false
  | _ => true

/-- What a step can do, coarsely. -/
inductive Shape (c : Conn) (d : Conn) : Prop
  /-- Nothing but notes, control frames and local bookkeeping. -/
  | quiet (l : List CEv) (h : SameButLog c d) (hl : d.log = c.log ++ l)
      (hp : ∀ e ∈ l, (∀ ch s, e ≠ .begun ch s) ∧ (∀ e', e ≠ .failed e') ∧
        ∀ ch f, e = .peer ch (.end_ f) → c.error.isSome ∨ c.sessionsMap.get ch = none)
  /-- A session takes a step that does not end it. -/
  | session (s x st l) (hx : c.obj? s = some x) (ho : d.objs = c.objs.set s (x.step st)) (hs : Later c.sessions d.sessions)
      (hm : d.sessionsMap = c.sessionsMap) (he : d.error = c.error) (hst : st.ends = false)
      (hl : d.log = c.log ++ l)
      (hp : ∀ e ∈ l, (∀ ch s, e ≠ .begun ch s) ∧ (∀ e', e ≠ .failed e') ∧ ∀ ch f, e ≠ .peer ch (.end_ f))
  /-- A session is ended by the peer. -/
  | ended (ch f tok s x st l₁ l₂ sl) (hm : c.sessionsMap.get ch = some tok) (hr : c.Registered tok s x)
      (ho : d.objs = c.objs.set s (x.step st)) (hst : st = .peer (.end_ f) ∨ st = .endConfirmed f)
      (hs : Later c.sessions sl) (hs' : d.sessions = sl.remove tok)
      (hm' : d.sessionsMap = c.sessionsMap.erase ch) (he : c.error = none) (he' : d.error = none)
      (hl : d.log = c.log ++ l₁ ++ [.peer ch (.end_ f)] ++ l₂)
      (hp : ∀ e ∈ l₁ ++ l₂, (∀ ch s, e ≠ .begun ch s) ∧ (∀ e', e ≠ .failed e') ∧ ∀ ch f, e ≠ .peer ch (.end_ f))
  /-- A session is made. -/
  | begun (ch tok b isL l₁ l₂) (hfree : ∀ s x, ¬ c.Registered tok s x)
      (ho : d.objs = c.objs ++ [Session.new tok isL c.maxFrameSize ch b])
      (hs : ∀ k, d.sessions.get k = if k = tok then some (.established c.objs.length) else c.sessions.get k)
      (hm : d.sessionsMap = c.sessionsMap.insert ch tok) (he : d.error = c.error)
      (hl : d.log = c.log ++ l₁ ++ [.begun ch c.objs.length] ++ l₂)
      (hp : ∀ e ∈ l₁ ++ l₂, (∀ ch s, e ≠ .begun ch s) ∧ (∀ e', e ≠ .failed e') ∧ ∀ ch f, e ≠ .peer ch (.end_ f))
  /-- The application begins a session. -/
  | opening (op l) (ho : d.objs = c.objs) (hs : d.sessions = c.sessions.insert (.opening op))
      (hm : d.sessionsMap = c.sessionsMap) (he : d.error = c.error) (hl : d.log = c.log ++ l)
      (hp : ∀ e ∈ l, (∀ ch s, e ≠ .begun ch s) ∧ (∀ e', e ≠ .failed e') ∧ ∀ ch f, e ≠ .peer ch (.end_ f))
  /-- The connection fails. -/
  | failed (e) (ho : ∀ t, d.obj? t = (c.setError e).obj? t) (hs : d.sessions = .empty) (hm : d.sessionsMap = .empty)
      (he : d.error = some (c.error.getD e))

theorem inner_ok {l : List CEv} (h : ∀ e ∈ l, Inner e) :
    ∀ e ∈ l, (∀ ch s, e ≠ .begun ch s) ∧ (∀ e', e ≠ .failed e') ∧ ∀ ch f, e ≠ .peer ch (.end_ f) := by
  intro e he
  rcases h e he with ⟨_, _, rfl⟩ | ⟨_, rfl⟩ <;> refine ⟨?_, ?_, ?_⟩ <;> intros <;> intro h <;> cases h

/-- Events that are none of the telling ones. -/
def _root_.Amqp.Rt.CEv.Bland : CEv → Prop
  | .begun _ _ | .failed _ | .peer _ (.end_ _) => False
  | _ => True

theorem ev_ok {e : CEv} (h : e.Bland) :
    ∀ x ∈ [e], (∀ ch s, x ≠ .begun ch s) ∧ (∀ e', x ≠ .failed e') ∧ ∀ ch f, x ≠ .peer ch (.end_ f) := by
  intro x hx
  rw [List.mem_singleton.1 hx]
  refine ⟨?_, ?_, ?_⟩ <;> intros <;> intro h' <;> rw [h'] at h <;> exact h

theorem Shape.quiet_one {c d : Conn} (e : CEv) (h : SameButLog c d) (hl : d.log = c.log ++ [e])
    (hp : e.Bland) : Shape c d :=
  .quiet [e] h hl fun x hx => ⟨(ev_ok hp x hx).1, (ev_ok hp x hx).2.1, fun ch f h => absurd h ((ev_ok hp x hx).2.2 ch f)⟩

theorem local_ends {st : Step} (h : st.isLocal = true) : st.ends = false := by
  cases st <;> first | rfl | cases h

theorem ok_append {l l' : List CEv} {P : CEv → Prop} (h : ∀ e ∈ l, P e) (h' : ∀ e ∈ l', P e) : ∀ e ∈ l ++ l', P e := by
  intro e he
  rcases List.mem_append.1 he with he | he
  · exact h e he
  · exact h' e he

theorem onSession_shape {c : Conn} (s : Ref) (st : Step) (h : st.ends = false) : Shape c (c.onSession s st) := by
  cases hx : c.obj? s with
  | none =>
    unfold onSession; rw [hx]
    exact .quiet [] ⟨rfl, rfl, rfl, rfl⟩ (by simp) (by simp)
  | some x =>
    obtain ⟨evs, _, h1, h2, h3, _, _, _, _, h8, _, h10⟩ := onSession_eq st hx
    refine .session s x st _ hx h1 h10 h2 h3 h h8 (inner_ok ?_)
    intro e he
    obtain ⟨y, _, rfl⟩ := List.mem_map.1 he; exact .inl ⟨_, _, rfl⟩

theorem setError_shape (c : Conn) (e : PErr) : Shape c (c.setError e) :=
  let h := setError_eq c e
  .failed e (fun _ => rfl) h.1 h.2.1 h.2.2

theorem setError_objs_of (c d : Conn) (e : PErr) (h1 : d.sessions = c.sessions) (h2 : d.objs = c.objs) (hr : c.Reg) (hr' : d.Reg) (t : Ref) :
    (d.setError e).obj? t = (c.setError e).obj? t := by
  classical
  rw [setError_obj? hr, setError_obj? hr', h1]
  unfold obj?
  rw [h2]

theorem unregister_some {c : Conn} {ch : UInt16} {tok : Nat} (h : c.sessionsMap.get ch = some tok) :
    c.unregister ch = { c with sessionsMap := c.sessionsMap.erase ch, sessions := c.sessions.remove tok } := by
  unfold unregister; rw [h]

theorem sessionFrame_shape {c : Conn} (h : c.Reg) (ch : UInt16) (f : Frame) (hf : f.forSession = true) (he : c.error = none) :
    Shape c ((c.note (.peer ch f)).sessionFrame ch f) := by
  unfold sessionFrame
  cases hm : c.sessionsMap.get ch with
  | none =>
    have hm' : (c.note (.peer ch f)).sessionsMap.get ch = none := hm
    rw [hm']
    dsimp only [Option.bind_none]
    refine .quiet [.peer ch f, .refused (.unknownSession f)] ⟨rfl, rfl, rfl, rfl⟩ (by simp [note]) ?_
    intro x hx
    rcases List.mem_cons.1 hx with rfl | hx
    · refine ⟨by intros; simp, by intros; simp, ?_⟩
      intro ch' f' h'
      cases h'
      exact .inr hm
    · rw [List.mem_singleton.1 hx]
      refine ⟨by intros; simp, by intros; simp, by intro _ _ h; cases h⟩
  | some tok =>
    obtain ⟨s, x, ⟨st, hg, hr, hx⟩, hch, _⟩ := h.map ch tok hm
    have e1 : ((c.note (.peer ch f)).sessionsMap.get ch).bind (c.note (.peer ch f)).sessions.get = some st := by
      show (c.sessionsMap.get ch).bind c.sessions.get = some st
      rw [hm]; exact hg
    rw [e1]
    have hx' : (c.note (.peer ch f)).obj? s = some x := hx
    cases st with
    | opening op => cases hr
    | established s' =>
      cases hr
      dsimp only
      obtain ⟨l, g1, g2, g3, g4, g5, g6⟩ := giveFrame_eq f hx'
      split
      · next e =>
        have hm2 : ((c.note (.peer ch (.end_ e))).giveFrame s (.end_ e)).sessionsMap.get ch = some tok := by
          rw [g2]; exact hm
        rw [unregister_some hm2]
        refine .ended ch e tok s x _ [] l _ hm ⟨_, hg, rfl, hx⟩ g1 (.inl rfl) g6 rfl (by dsimp only; rw [g2]; rfl) he (by dsimp only; rw [g3]; exact he) ?_ ?_
        · dsimp only; rw [g4]; simp [note]
        · exact inner_ok g5
      · next hne =>
        refine .session s x (.peer f) (.peer ch f :: l) hx g1 g6 g2 g3 ?_ (by rw [g4]; simp [note]) ?_
        · cases f <;> first | rfl | exact absurd rfl (hne _)
        · intro e' he'
          rcases List.mem_cons.1 he' with rfl | he'
          · refine ⟨by intros; simp, by intros; simp, ?_⟩
            intro ch' f' h'
            cases h'
            exact hne _ rfl
          · exact inner_ok g5 e' he'
    | closing s' =>
      cases hr
      dsimp only
      split
      · next e =>
        obtain ⟨evs, _, h1, h2, h3, _, _, _, _, h8, _, h10⟩ := onSession_eq (.endConfirmed e) hx'
        have hm2 : ((c.note (.peer ch (.end_ e))).onSession s (.endConfirmed e)).sessionsMap.get ch = some tok := by
          rw [h2]; exact hm
        rw [unregister_some hm2]
        refine .ended ch e tok s x _ [] (evs.map (.ses s)) _ hm ⟨_, hg, rfl, hx⟩ h1 (.inr rfl) h10 rfl (by dsimp only; rw [h2]; rfl) he (by dsimp only; rw [h3]; exact he) ?_ ?_
        · dsimp only; rw [h8]; simp [note]
        · refine inner_ok ?_
          intro e he
          obtain ⟨y, _, rfl⟩ := List.mem_map.1 he; exact .inl ⟨_, _, rfl⟩
      · next hne =>
        refine .quiet_one (.peer ch f) ⟨rfl, rfl, rfl, rfl⟩ rfl ?_
        cases f <;> first | trivial | exact absurd rfl (hne _)

theorem handleFrame_shape {c : Conn} (h : c.Reg) (ch : UInt16) (f : Frame) : Shape c (c.handleFrame ch f) := by
  have hpeer : (c.note (.peer ch f)).Reg := CMicro.reg (.note (.peer ch f) trivial) h
  by_cases hf : f.forSession = true
  · have e1 : c.handleFrame ch f =
        if c.error.isSome then c.note (.peer ch f) else (c.note (.peer ch f)).sessionFrame ch f := by
      unfold handleFrame
      dsimp only
      cases f <;> first | rfl | cases hf
    rw [e1]
    split
    · next he =>
      refine .quiet [.peer ch f] ⟨rfl, rfl, rfl, rfl⟩ rfl ?_
      intro x hx
      rw [List.mem_singleton.1 hx]
      exact ⟨by intros; simp, by intros; simp, fun _ _ _ => .inl he⟩
    · next he => exact sessionFrame_shape h ch f hf (by simpa using he)
  · unfold handleFrame
    dsimp only
    cases f
    case empty => exact .quiet_one (.peer ch .empty) ⟨rfl, rfl, rfl, rfl⟩ rfl trivial
    case close close =>
      dsimp only
      split
      · have h' := setError_eq (c.note (.peer ch (.close close))) .disconnected
        exact .failed .disconnected (fun t => setError_objs_of c (c.note (.peer ch (.close close))) _ rfl rfl h hpeer t) h'.1 h'.2.1 h'.2.2
      · have h' := setError_eq (c.note (.peer ch (.close close))) (.closed close.error)
        exact .failed (.closed close.error) (fun t => setError_objs_of c (c.note (.peer ch (.close close))) _ rfl rfl h hpeer t) h'.1 h'.2.1 h'.2.2
    case begin_ b =>
      dsimp only
      split
      · next l _ =>
        unfold completeLocal
        split
        · next op hs =>
          have hs : c.sessions.get l.toNat = some (.opening op) := hs
          have hc : c.sessions.contains l.toNat = true := by simp [Slab.contains, hs]
          refine .begun ch l.toNat b true [.peer ch (.begin_ b)] [.opened op c.objs.length] ?_ rfl ?_ rfl rfl (by simp [note]) ?_
          · rintro s x ⟨st, hg, hr, _⟩
            rw [hs] at hg; cases hg; cases hr
          · intro k
            show (c.sessions.set l.toNat _).get k = _
            rw [Slab.get_set _ _ _ _ hc]
            by_cases hk : l.toNat = k
            · simp [hk]; rfl
            · simp [hk, Ne.symm hk]
          · exact ok_append (ev_ok (e := .peer ch (.begin_ b)) trivial) (ev_ok (e := .opened op c.objs.length) trivial)
        · exact .quiet_one (.peer ch (.begin_ b)) ⟨rfl, rfl, rfl, rfl⟩ rfl trivial
      · refine .begun ch c.sessions.vacantKey b false [.peer ch (.begin_ b)] [_] ?_ rfl ?_ rfl rfl
          (by simp only [registerRemote, post, note, List.append_assoc]; rfl) ?_
        · rintro s x ⟨st, hg, hr, _⟩
          rw [h.wf.vacantKey] at hg; cases hg
        · intro k
          show (c.sessions.insert _).get k = _
          rw [Slab.get_insert h.wf]
          by_cases hk : k = c.sessions.vacantKey
          · simp [hk]; rfl
          · simp [hk, Ne.symm hk]
        · exact ok_append (ev_ok (e := .peer ch (.begin_ b)) trivial) (ev_ok (e := .frame _ _) trivial)
    all_goals exact absurd rfl hf

theorem step_shape {c : Conn} (h : c.Reg) (st : CStep) : Shape c (c.step st) := by
  cases st <;> unfold step <;> try dsimp only
  case recv ch f => exact handleFrame_shape h ch f
  case «local» s st =>
    split
    · next hl => exact onSession_shape s st (local_ends hl)
    · exact .quiet [] ⟨rfl, rfl, rfl, rfl⟩ (by simp) (by simp)
  case openSession off des props =>
    unfold openSession
    dsimp only
    split
    · exact .quiet_one (.openFailed _ _) ⟨rfl, rfl, rfl, rfl⟩ rfl trivial
    · split
      · exact .quiet_one (.openFailed _ _) ⟨rfl, rfl, rfl, rfl⟩ rfl trivial
      · exact .opening c.ops [_] rfl rfl rfl rfl rfl (ev_ok (e := .frame _ _) trivial)
  case forceClose =>
    unfold forceClose
    have h' := setError_eq ({ c with state := .drop }.note .ioClosed) .connectionDropped
    refine .failed .connectionDropped (fun t => setError_objs_of c ({ c with state := .drop }.note .ioClosed) _ rfl rfl h ?_ t) h'.1 h'.2.1 h'.2.2
    exact CMicro.reg (.note .ioClosed trivial) (CMicro.reg (.state _) h)
  case close e =>
    exact .quiet [.frame 0 (.close { error := e }), .ioClosed] ⟨rfl, rfl, rfl, rfl⟩ (by simp [close, post, note]) (by
      intro x hx
      simp only [List.mem_cons, List.not_mem_nil, or_false] at hx
      rcases hx with rfl | rfl <;> exact ⟨by intros; simp, by intros; simp, by intro _ _ h; cases h⟩)
  case poll =>
    refine .quiet _ ⟨rfl, rfl, rfl, rfl⟩ rfl ?_
    intro x hx
    obtain ⟨q, _, rfl⟩ := List.mem_map.1 hx
    exact ⟨by intros; simp, by intros; simp, by intro _ _ h; cases h⟩
  case stop e =>
    cases e with
    | none => exact .quiet_one (.called .disconnected) ⟨rfl, rfl, rfl, rfl⟩ rfl trivial
    | some e => exact .quiet_one (.called (.protocolError e)) ⟨rfl, rfl, rfl, rfl⟩ rfl trivial
  case fail e => exact setError_shape c e

end Conn
end Amqp.Rt
