import Verif.Lemmas.Connection
/-!
# Invariants of connections

Every session object of a connection is a reachable session; the slab and the channel map refer to the right objects; and
the registered ones have not failed.
-/

namespace Amqp.Rt
namespace Conn

theorem Session_reachable_step {x : Session} (h : Session.Reachable x) (st : Step) : Session.Reachable (x.step st) := by
  obtain ⟨s₀, steps, hf, rfl⟩ := h
  exact ⟨s₀, steps ++ [st], hf, by simp [Session.run, List.foldl_append]⟩

theorem obj?_mem {c : Conn} {s : Ref} {x : Session} (h : c.obj? s = some x) : x ∈ c.objs := List.mem_of_getElem? h

/-- The session objects: reachable, and with the connection's frame size. -/
def ObjsOk (c : Conn) : Prop := ∀ x ∈ c.objs, Session.Reachable x ∧ x.maxFrameSize = c.maxFrameSize

theorem objsOk_new {c : Conn} (h : c.ObjsOk) (id : Nat) (b : Bool) (ch : UInt16) (f : Begin) :
    ∀ x ∈ c.objs ++ [Session.new id b c.maxFrameSize ch f], Session.Reachable x ∧ x.maxFrameSize = c.maxFrameSize := by
  intro x hx
  rcases List.mem_append.1 hx with hx | hx
  · exact h x hx
  · rw [List.mem_singleton.1 hx]
    exact ⟨⟨_, [], ⟨_, _, _, _, _, rfl⟩, rfl⟩, rfl⟩

theorem _root_.Amqp.Rt.CMicro.objsOk {c d : Conn} (m : CMicro c d) (h : c.ObjsOk) : d.ObjsOk := by
  cases m
  case session s x st hx =>
    obtain ⟨evs, _, h1, _, _, _, h5, _⟩ := onSession_eq st hx
    intro y hy
    rw [h1] at hy
    rw [h5]
    rcases List.mem_or_eq_of_mem_set hy with hy | rfl
    · exact h y hy
    · have := h x (obj?_mem hx)
      exact ⟨Session_reachable_step this.1 st, (x.step_fixed st).2.2.1.trans this.2⟩
  case register ch b => exact objsOk_new h _ _ _ _
  case complete tok op ch b hs =>
    unfold completeLocal
    rw [hs]
    exact objsOk_new h _ _ _ _
  case unregister ch => unfold unregister; split <;> exact h
  all_goals exact h

theorem Reachable.objsOk {c : Conn} (h : Reachable c) : c.ObjsOk :=
  h.invariant (P := ObjsOk) (fun _ x hx => by cases hx) (fun _ _ m => m.objsOk)

/-! ## Registration -/

/-- The session last begun on a channel, by the log. -/
def lastBegun (log : List CEv) (ch : UInt16) : Option Ref :=
  (log.filterMap fun
    | .begun c s => if c = ch then some s else none
    | _ => none).getLast?

theorem lastBegun_append (l : List CEv) (evs : List CEv) (ch : UInt16) (h : ∀ e ∈ evs, ∀ c s, e ≠ .begun c s) :
    lastBegun (l ++ evs) ch = lastBegun l ch := by
  unfold lastBegun
  rw [List.filterMap_append, List.filterMap_eq_nil_iff (l := evs).2, List.append_nil]
  intro e he
  have := h e he
  cases e <;> first | rfl | exact absurd rfl (this _ _)

theorem lastBegun_begun (l : List CEv) (ch ch' : UInt16) (s : Ref) :
    lastBegun (l ++ [.begun ch' s]) ch = if ch' = ch then some s else lastBegun l ch := by
  unfold lastBegun
  rw [List.filterMap_append]
  by_cases h : ch' = ch
  · simp [h]
  · simp [h]

/-- The slab entry `tok` is session `s`, which is `x`. -/
def Registered (c : Conn) (tok : Nat) (s : Ref) (x : Session) : Prop :=
  ∃ st, c.sessions.get tok = some st ∧ st.ref? = some s ∧ c.obj? s = some x

/-- The slab and the channel map are right. -/
structure Reg (c : Conn) : Prop where
  wf : c.sessions.Wf
  /-- Entries refer to objects, whose local channel is the key. -/
  slab : ∀ tok st s, c.sessions.get tok = some st → st.ref? = some s → ∃ x, c.obj? s = some x ∧ x.id = tok
  /-- The map refers to entries, whose remote channel is the key, and to the last one begun on it. -/
  map : ∀ ch tok, c.sessionsMap.get ch = some tok →
    ∃ s x, c.Registered tok s x ∧ x.remoteChannelId = ch ∧ lastBegun c.log ch = some s

theorem reg_of_eq {c d : Conn} (h : c.Reg) (h1 : d.sessions = c.sessions) (h2 : d.sessionsMap = c.sessionsMap)
    (h3 : d.objs = c.objs) (h4 : ∀ ch, lastBegun d.log ch = lastBegun c.log ch) : d.Reg := by
  constructor
  · rw [h1]; exact h.wf
  · intro tok st s a b
    obtain ⟨x, hx, hid⟩ := h.slab tok st s (by rw [← h1]; exact a) b
    exact ⟨x, by unfold obj? at *; rw [h3]; exact hx, hid⟩
  · intro ch tok a
    obtain ⟨s, x, ⟨st, hg, hr, hx⟩, hc, hl⟩ := h.map ch tok (by rw [← h2]; exact a)
    exact ⟨s, x, ⟨st, by rw [h1]; exact hg, hr, by unfold obj? at *; rw [h3]; exact hx⟩, hc, by rw [h4]; exact hl⟩

theorem later_ref {a b : Slab SesState} (h : Later a b) {k : Nat} {st : SesState} {s : Ref} (hg : a.get k = some st)
    (hr : st.ref? = some s) : ∃ st', b.get k = some st' ∧ st'.ref? = some s := by
  rcases h.2 k with h1 | ⟨s', h1, h2⟩
  · exact ⟨st, by rw [h1]; exact hg, hr⟩
  · rw [h1] at hg
    cases hg
    exact ⟨_, h2, hr⟩

theorem later_ref' {a b : Slab SesState} (h : Later a b) {k : Nat} {st : SesState} {s : Ref} (hg : b.get k = some st)
    (hr : st.ref? = some s) : ∃ st', a.get k = some st' ∧ st'.ref? = some s := by
  rcases h.2 k with h1 | ⟨s', h1, h2⟩
  · exact ⟨st, by rw [← h1]; exact hg, hr⟩
  · rw [h2] at hg
    cases hg
    exact ⟨_, h1, hr⟩

theorem obj?_lt {c : Conn} {s : Ref} {x : Session} (h : c.obj? s = some x) : s < c.objs.length := by
  unfold obj? at h
  rcases Nat.lt_or_ge s c.objs.length with hl | hl
  · exact hl
  · rw [List.getElem?_eq_none hl] at h; cases h

theorem obj?_append {c d : Conn} {y : Session} (h : d.objs = c.objs ++ [y]) (s : Ref) :
    d.obj? s = if s = c.objs.length then some y else c.obj? s := by
  unfold obj?
  rw [h]
  by_cases hs : s = c.objs.length
  · subst hs; simp
  · simp only [hs, if_false]
    rcases Nat.lt_or_ge s c.objs.length with hl | hl
    · rw [List.getElem?_append_left hl]
    · rw [List.getElem?_eq_none hl, List.getElem?_eq_none]
      rw [List.length_append, List.length_singleton]
      exact Nat.lt_of_le_of_ne hl (Ne.symm hs)

/-- A session made: `registerRemote` and `completeLocal`. -/
theorem reg_make {c d : Conn} (h : c.Reg) (tok : Nat) (ch : UInt16) (y : Session) (hid : y.id = tok)
    (hch : y.remoteChannelId = ch) (hwf : d.sessions.Wf)
    (hfree : ∀ s x, ¬ c.Registered tok s x)
    (hs : ∀ k, d.sessions.get k = if k = tok then some (.established c.objs.length) else c.sessions.get k)
    (hm : d.sessionsMap = c.sessionsMap.insert ch tok) (ho : d.objs = c.objs ++ [y])
    (hl : ∀ a, lastBegun d.log a = if ch = a then some c.objs.length else lastBegun c.log a) : d.Reg := by
  have old : ∀ {s : Ref} {x : Session}, c.obj? s = some x → d.obj? s = some x := by
    intro s x hx
    rw [obj?_append ho]
    have := obj?_lt hx
    simp [show s ≠ c.objs.length from Nat.ne_of_lt this, hx]
  constructor
  · exact hwf
  · intro k st s hg hr
    rw [hs] at hg
    by_cases hk : k = tok
    · simp only [hk, if_true] at hg
      cases hg
      simp only [SesState.ref?, Option.some.injEq] at hr
      subst hr
      exact ⟨y, by rw [obj?_append ho]; simp, by rw [hid, hk]⟩
    · simp only [hk, if_false] at hg
      obtain ⟨x, hx, hi⟩ := h.slab k st s hg hr
      exact ⟨x, old hx, hi⟩
  · intro a k ha
    rw [hm, Map.get_insert] at ha
    by_cases hc : ch = a
    · simp only [hc, if_true, Option.some.injEq] at ha
      subst ha
      exact ⟨c.objs.length, y, ⟨.established c.objs.length, by rw [hs]; simp, rfl, by rw [obj?_append ho]; simp⟩, by rw [hch, hc], by rw [hl]; simp [hc]⟩
    · simp only [hc, if_false] at ha
      obtain ⟨s, x, ⟨st, hg, hr, hx⟩, hcx, hlx⟩ := h.map a k ha
      have hk : k ≠ tok := by
        rintro rfl
        exact hfree s x ⟨st, hg, hr, hx⟩
      exact ⟨s, x, ⟨st, by rw [hs]; simp [hk, hg], hr, old hx⟩, hcx, by rw [hl]; simp [hc, hlx]⟩

theorem _root_.Amqp.Rt.CMicro.reg {c d : Conn} (m : CMicro c d) (h : c.Reg) : d.Reg := by
  cases m
  case note e he =>
    refine reg_of_eq h rfl rfl rfl fun ch => lastBegun_append _ _ _ ?_
    intro x hx a s hh
    rw [List.mem_singleton.1 hx] at hh
    rw [hh] at he
    exact he
  case calls l hl =>
    refine reg_of_eq h rfl rfl rfl fun ch => lastBegun_append _ _ _ ?_
    intro x hx a s hh
    obtain ⟨_, _, h'⟩ := hl x hx
    rw [h'] at hh
    cases hh
  case session s x st hx =>
    obtain ⟨evs, _, h1, h2, _, _, _, _, _, h8, _, h10⟩ := onSession_eq st hx
    have hobj := obj?_set (d := c.onSession s st) hx h1
    have keep : ∀ {t : Ref} {y : Session}, c.obj? t = some y →
        ∃ y', (c.onSession s st).obj? t = some y' ∧ y'.id = y.id ∧ y'.remoteChannelId = y.remoteChannelId := by
      intro t y hy
      rw [hobj]
      by_cases ht : t = s
      · subst ht
        rw [hx] at hy; cases hy
        exact ⟨x.step st, by simp, (x.step_fixed st).1, (x.step_fixed st).2.1⟩
      · exact ⟨y, by simp [ht, hy], rfl, rfl⟩
    constructor
    · exact h10.1 h.wf
    · intro tok st' t hg hr
      obtain ⟨st₀, hg₀, hr₀⟩ := later_ref' h10 hg hr
      obtain ⟨y, hy, hid⟩ := h.slab tok st₀ t hg₀ hr₀
      obtain ⟨y', hy', hi, _⟩ := keep hy
      exact ⟨y', hy', hi.trans hid⟩
    · intro ch tok hm
      rw [h2] at hm
      obtain ⟨t, y, ⟨st₀, hg, hr, hy⟩, hc, hl⟩ := h.map ch tok hm
      obtain ⟨y', hy', _, hc'⟩ := keep hy
      obtain ⟨st', hg', hr'⟩ := later_ref h10 hg hr
      refine ⟨t, y', ⟨st', hg', hr', hy'⟩, hc'.trans hc, ?_⟩
      rw [h8, lastBegun_append, hl]
      intro e he a b hh
      obtain ⟨_, _, h'⟩ := List.mem_map.1 he
      rw [hh] at h'
      cases h'
  case register ch b =>
    refine reg_make h c.sessions.vacantKey ch _ rfl rfl (h.wf.insert _) ?_ ?_ rfl rfl ?_
    · rintro s x ⟨st, hg, _⟩
      rw [h.wf.vacantKey] at hg; cases hg
    · intro k
      show (c.sessions.insert _).get k = _
      rw [Slab.get_insert h.wf]
      by_cases hk : k = c.sessions.vacantKey
      · simp [hk]
      · simp [hk, Ne.symm hk]
    · intro a
      show lastBegun ((c.log ++ [_]) ++ [_]) a = _
      rw [lastBegun_append, lastBegun_begun]
      simp
  case complete tok op ch b hs =>
    have hc : c.sessions.contains tok = true := by simp [Slab.contains, hs]
    have e : c.completeLocal tok ch b = ({ c.note (.begun ch c.objs.length) with
        objs := c.objs ++ [Session.new tok true c.maxFrameSize ch b]
        sessions := c.sessions.set tok (.established c.objs.length)
        sessionsMap := c.sessionsMap.insert ch tok }).note (.opened op c.objs.length) := by
      unfold completeLocal; rw [hs]
    rw [e]
    refine reg_make h tok ch _ rfl rfl (h.wf.set _ _) ?_ ?_ rfl rfl ?_
    · rintro s x ⟨st, hg, hr, _⟩
      rw [hs] at hg; cases hg; cases hr
    · intro k
      show (c.sessions.set tok _).get k = _
      rw [Slab.get_set _ _ _ _ hc]
      by_cases hk : tok = k
      · simp [hk]
      · simp [hk, Ne.symm hk]
    · intro a
      show lastBegun ((c.log ++ [_]) ++ [_]) a = _
      rw [lastBegun_append, lastBegun_begun]
      simp
  case unregister ch =>
    unfold unregister
    split
    · next tok hm =>
      constructor
      · exact h.wf.remove tok
      · intro k st s hg hr
        dsimp only at hg
        rw [Slab.get_remove] at hg
        by_cases hk : tok = k
        · simp [hk] at hg
        · simp only [hk, if_false] at hg
          exact h.slab k st s hg hr
      · intro a k ha
        dsimp only at ha
        rw [Map.get_erase] at ha
        by_cases hc : ch = a
        · simp [hc] at ha
        · simp only [hc, if_false] at ha
          obtain ⟨s, x, ⟨st, hg, hr, hx⟩, hcx, hlx⟩ := h.map a k ha
          have hk : tok ≠ k := by
            rintro rfl
            obtain ⟨s', x', ⟨st', hg', hr', hx'⟩, hcx', _⟩ := h.map ch tok hm
            rw [hg] at hg'; cases hg'
            rw [hr] at hr'; cases hr'
            rw [hx] at hx'; cases hx'
            exact hc (hcx'.symm.trans hcx)
          exact ⟨s, x, ⟨st, by dsimp only; rw [Slab.get_remove]; simp [hk, hg], hr, hx⟩, hcx, hlx⟩
    · exact h
  case clear =>
    constructor
    · exact Slab.wf_empty
    · intro k st s hg; simp [Slab.get_empty] at hg
    · intro a k ha; simp at ha
  case opening op off des props hlt =>
    refine reg_of_eq (c := { c with sessions := c.sessions.insert (.opening op) }) ?_ rfl rfl rfl
      (fun ch => lastBegun_append _ _ _ (by intro x hx a s hh; rw [List.mem_singleton.1 hx] at hh; cases hh))
    constructor
    · exact h.wf.insert _
    · intro k st s hg hr
      dsimp only at hg
      rw [Slab.get_insert h.wf] at hg
      by_cases hk : c.sessions.vacantKey = k
      · simp only [hk, if_true] at hg
        cases hg; cases hr
      · simp only [hk, if_false] at hg
        exact h.slab k st s hg hr
    · intro a k ha
      obtain ⟨s, x, ⟨st, hg, hr, hx⟩, hcx, hlx⟩ := h.map a k ha
      have hk : c.sessions.vacantKey ≠ k := by
        rintro rfl
        rw [h.wf.vacantKey] at hg; cases hg
      exact ⟨s, x, ⟨st, by dsimp only; rw [Slab.get_insert h.wf]; simp [hk, hg], hr, hx⟩, hcx, hlx⟩
  case poll =>
    refine reg_of_eq h rfl rfl rfl fun ch => lastBegun_append _ _ _ ?_
    intro x hx a s hh
    obtain ⟨_, _, h'⟩ := List.mem_map.1 hx
    rw [hh] at h'
    cases h'
  all_goals exact reg_of_eq h rfl rfl rfl fun _ => rfl

theorem Reachable.reg {c : Conn} (h : Reachable c) : c.Reg :=
  h.invariant (P := Reg) (fun _ => ⟨Slab.wf_empty, fun k st s hg => by simp [Conn.new, Slab.get_empty] at hg,
    fun a k ha => by simp [Conn.new] at ha⟩) (fun _ _ m => m.reg)

end Conn
end Amqp.Rt
