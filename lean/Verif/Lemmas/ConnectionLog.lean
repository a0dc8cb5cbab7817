import Verif.Lemmas.ConnectionStep
import Verif.Spec.Connection
/-!
# The registered sessions and the history

Who the channel map has for a channel, what has not failed, and the control queue, in terms of the history.
-/

namespace Amqp.Rt
namespace Conn

theorem speak_foldl_same (ch : UInt16) (l : List CEv) (cur : Option Ref)
    (h : ∀ e ∈ l, (∀ s, e ≠ .begun ch s) ∧ ∀ f, e ≠ .peer ch (.end_ f)) : l.foldl (speak ch) cur = cur := by
  induction l generalizing cur with
  | nil => rfl
  | cons e l ih =>
    rw [List.foldl_cons]
    have he := h e (by simp)
    have : speak ch cur e = cur := by
      cases e
      case begun c s =>
        by_cases hc : c = ch
        · subst hc; exact absurd rfl (he.1 s)
        · simp [speak, hc]
      case peer c f =>
        cases f
        case end_ f =>
          by_cases hc : c = ch
          · subst hc; exact absurd rfl (he.2 f)
          · simp [speak, hc]
        all_goals rfl
      all_goals rfl
    rw [this]
    exact ih _ fun e he => h e (by simp [he])

/-- Events on a channel nobody is spoken to on, that do not begin a session, leave it so. -/
theorem speak_foldl_none (ch : UInt16) (l : List CEv) (h : ∀ e ∈ l, ∀ s, e ≠ .begun ch s) :
    l.foldl (speak ch) none = none := by
  induction l with
  | nil => rfl
  | cons e l ih =>
    rw [List.foldl_cons]
    have he := h e (by simp)
    have : speak ch none e = none := by
      cases e
      case begun c s =>
        by_cases hc : c = ch
        · subst hc; exact absurd rfl (he s)
        · simp [speak, hc]
      case peer c f => cases f <;> simp [speak]
      all_goals rfl
    rw [this]
    exact ih fun e he => h e (by simp [he])

theorem speaking_append (l l' : List CEv) (ch : UInt16) : speaking (l ++ l') ch = l'.foldl (speak ch) (speaking l ch) := by
  unfold speaking; rw [List.foldl_append]

/-- The session the maps have for a channel. -/
def mapped (c : Conn) (ch : UInt16) : Option Ref := ((c.sessionsMap.get ch).bind c.sessions.get).bind SesState.ref?

theorem mapped_eq {c d : Conn} (h1 : d.sessions = c.sessions) (h2 : d.sessionsMap = c.sessionsMap) (ch : UInt16) :
    d.mapped ch = c.mapped ch := by unfold mapped; rw [h1, h2]

theorem Later.ref_eq {a b : Slab SesState} (h : Later a b) (k : Nat) :
    (b.get k).bind SesState.ref? = (a.get k).bind SesState.ref? := by
  rcases h.2 k with h1 | ⟨s, h1, h2⟩
  · rw [h1]
  · rw [h1, h2]; rfl

theorem bind_bind_ref (m : Map UInt16 Nat) (s : Slab SesState) (ch : UInt16) :
    ((m.get ch).bind s.get).bind SesState.ref? = (m.get ch).bind fun k => (s.get k).bind SesState.ref? := by
  cases m.get ch <;> rfl

theorem mapped_later {c d : Conn} (h1 : Later c.sessions d.sessions) (h2 : d.sessionsMap = c.sessionsMap) (ch : UInt16) :
    d.mapped ch = c.mapped ch := by
  unfold mapped
  rw [bind_bind_ref, bind_bind_ref, h2]
  congr 1
  funext k
  exact h1.ref_eq k

/-- A channel's entry refers to a registered session. -/
theorem Reg.mapped_some {c : Conn} (h : c.Reg) {ch : UInt16} {tok : Nat} (hm : c.sessionsMap.get ch = some tok) :
    ∃ s x, c.mapped ch = some s ∧ c.Registered tok s x ∧ x.remoteChannelId = ch ∧ x.id = tok := by
  obtain ⟨s, x, ⟨st, hg, hr, hx⟩, hc, _⟩ := h.map ch tok hm
  obtain ⟨y, hy, hid⟩ := h.slab tok st s hg hr
  rw [hx] at hy; cases hy
  refine ⟨s, x, ?_, ⟨st, hg, hr, hx⟩, hc, hid⟩
  unfold mapped
  rw [hm]
  show (c.sessions.get tok).bind SesState.ref? = _
  rw [hg]; exact hr

/-- Distinct channels have distinct entries. -/
theorem Reg.map_inj {c : Conn} (h : c.Reg) {ch ch' : UInt16} {tok : Nat} (h1 : c.sessionsMap.get ch = some tok)
    (h2 : c.sessionsMap.get ch' = some tok) : ch = ch' := by
  obtain ⟨s, x, ⟨st, hg, hr, hx⟩, hc, _⟩ := h.map ch tok h1
  obtain ⟨s', x', ⟨st', hg', hr', hx'⟩, hc', _⟩ := h.map ch' tok h2
  rw [hg] at hg'; cases hg'
  rw [hr] at hr'; cases hr'
  rw [hx] at hx'; cases hx'
  exact hc.symm.trans hc'

/-- While the connection has not failed, the map has for a channel the session the history says. -/
theorem Reachable.speaking {c : Conn} (h : Reachable c) (he : c.error = none) (ch : UInt16) :
    Amqp.Rt.speaking c.log ch = c.mapped ch := by
  revert he
  refine h.induct (P := fun c => c.error = none → Amqp.Rt.speaking c.log ch = c.mapped ch) ?_ ?_
  · intro cfg _; rfl
  · intro c st hr ih he
    have hreg := hr.reg
    have quietly : ∀ {d : Conn} (l : List CEv), d.log = c.log ++ l → c.error = none →
        (∀ e ∈ l, (∀ ch s, e ≠ .begun ch s) ∧ (∀ e', e ≠ .failed e') ∧ ∀ ch f, e ≠ .peer ch (.end_ f)) →
        Amqp.Rt.speaking d.log ch = c.mapped ch := by
      intro d l hl he hp
      rw [hl, speaking_append, ih he]
      exact speak_foldl_same _ _ _ fun e h => ⟨(hp e h).1 ch, (hp e h).2.2 ch⟩
    cases step_shape hreg st with
    | quiet l h hl hp =>
      obtain ⟨_, h2, h3, h4⟩ := h
      have he' : c.error = none := by rw [← h4]; exact he
      rw [hl, speaking_append, ih he', mapped_eq h2 h3]
      by_cases hm : c.sessionsMap.get ch = none
      · have : c.mapped ch = none := by unfold mapped; rw [hm]; rfl
        rw [this]
        exact speak_foldl_none _ _ fun e h => (hp e h).1 ch
      · refine speak_foldl_same _ _ _ fun e h => ⟨(hp e h).1 ch, fun f hf => ?_⟩
        rcases (hp e h).2.2 ch f hf with h | h
        · rw [he'] at h; cases h
        · exact hm h
    | session s x st l hx ho hs hm he' hst hl hp =>
      rw [mapped_later hs hm]
      exact quietly l hl (by rw [← he']; exact he) hp
    | ended ch' f tok s x st l₁ l₂ sl hm hr ho hst hs hs' hm' he' he'' hl hp =>
      rw [hl, speaking_append, speaking_append, speaking_append, ih he']
      have h2 : ∀ e ∈ l₂, (∀ s, e ≠ .begun ch s) ∧ ∀ f, e ≠ .peer ch (.end_ f) := fun e h =>
        ⟨(hp e (by simp [h])).1 ch, (hp e (by simp [h])).2.2 ch⟩
      have h1 : ∀ e ∈ l₁, (∀ s, e ≠ .begun ch s) ∧ ∀ f, e ≠ .peer ch (.end_ f) := fun e h =>
        ⟨(hp e (by simp [h])).1 ch, (hp e (by simp [h])).2.2 ch⟩
      rw [speak_foldl_same _ l₁ _ h1, speak_foldl_same _ l₂ _ h2]
      show speak ch (c.mapped ch) (.peer ch' (.end_ f)) = _
      unfold mapped
      rw [hm', Map.get_erase, hs']
      by_cases hc : ch' = ch
      · simp [speak, hc]
      · simp only [speak, hc, if_false]
        rw [bind_bind_ref, bind_bind_ref]
        cases hg : c.sessionsMap.get ch with
        | none => rfl
        | some k =>
          have hk : tok ≠ k := by
            rintro rfl
            exact hc (hreg.map_inj hm hg)
          show (c.sessions.get k).bind _ = ((sl.remove tok).get k).bind _
          rw [Slab.get_remove]
          simp only [hk, if_false]
          rw [hs.ref_eq]
    | begun ch' tok b isL l₁ l₂ hfree ho hs hm he' hl hp =>
      rw [hl, speaking_append, speaking_append, speaking_append, ih (by rw [← he']; exact he)]
      have h2 : ∀ e ∈ l₂, (∀ s, e ≠ .begun ch s) ∧ ∀ f, e ≠ .peer ch (.end_ f) := fun e h =>
        ⟨(hp e (by simp [h])).1 ch, (hp e (by simp [h])).2.2 ch⟩
      have h1 : ∀ e ∈ l₁, (∀ s, e ≠ .begun ch s) ∧ ∀ f, e ≠ .peer ch (.end_ f) := fun e h =>
        ⟨(hp e (by simp [h])).1 ch, (hp e (by simp [h])).2.2 ch⟩
      rw [speak_foldl_same _ l₁ _ h1, speak_foldl_same _ l₂ _ h2]
      show speak ch (c.mapped ch) (.begun ch' _) = _
      unfold mapped
      rw [hm, Map.get_insert]
      by_cases hc : ch' = ch
      · simp [speak, hc, hs, SesState.ref?]
      · simp only [speak, hc, if_false]
        rw [bind_bind_ref, bind_bind_ref]
        cases hg : c.sessionsMap.get ch with
        | none => rfl
        | some k =>
          show (c.sessions.get k).bind _ = ((c.step st).sessions.get k).bind _
          rw [hs]
          obtain ⟨s, x, _, hreg', _⟩ := hreg.mapped_some hg
          have hk : k ≠ tok := by
            rintro rfl
            exact hfree s x hreg'
          simp [hk]
    | opening op l ho hs hm he' hl hp =>
      have he0 : c.error = none := by rw [← he']; exact he
      rw [quietly l hl he0 hp]
      unfold mapped
      rw [hm, hs, bind_bind_ref, bind_bind_ref]
      cases hg : c.sessionsMap.get ch with
      | none => rfl
      | some k =>
        show (c.sessions.get k).bind _ = ((c.sessions.insert _).get k).bind _
        obtain ⟨s, x, _, ⟨st', hg', _⟩, _⟩ := hreg.mapped_some hg
        rw [Slab.get_insert hreg.wf]
        have hk : c.sessions.vacantKey ≠ k := by
          rintro rfl
          rw [hreg.wf.vacantKey] at hg'; cases hg'
        simp [hk]
    | failed e ho hs hm he' => rw [he'] at he; cases he

/-! ## Registered sessions have not failed -/

theorem step_fail_error (x : Session) (e : PErr) : ((x.step (.fail e)).error) = some e := by
  show (x.setError e).error = some e
  unfold Session.setError Session.clearLinks Session.failLinks
  refine (Session.foldl_field Session.error ?_ _ _).trans ((Session.foldl_field Session.error ?_ _ _).trans ?_)
  · intro s x; unfold Session.clearLink Session.dropLink; (repeat' split) <;> simp
  · intro s x; exact Session.failLink_error _ _ _
  · simp [Session.drainPending]

theorem Reachable.noError {c : Conn} (h : Reachable c) :
    ∀ tok s x, c.Registered tok s x → x.error = none := by
  refine h.induct (P := fun c => ∀ tok s x, c.Registered tok s x → x.error = none) ?_ ?_
  · rintro cfg tok s x ⟨st, hg, _⟩
    simp [Conn.new, Slab.get_empty] at hg
  · rintro c st hr ih tok s x ⟨state, hg, href, hx⟩
    have hreg := hr.reg
    cases step_shape hreg st with
    | quiet l h hl hp =>
      obtain ⟨h1, h2, _⟩ := h
      exact ih tok s x ⟨state, by rw [← h2]; exact hg, href, by unfold obj? at *; rw [← h1]; exact hx⟩
    | session t y st' l hy ho hs hm he' hst hl hp =>
      obtain ⟨st0, hg0, hr0⟩ := later_ref' hs hg href
      rw [obj?_set hy ho] at hx
      by_cases ht : s = t
      · subst ht
        simp only [if_true, Option.some.injEq] at hx
        subst hx
        rw [Session.step_error _ _ hst]
        exact ih tok s y ⟨st0, hg0, hr0, hy⟩
      · simp only [ht, if_false] at hx
        exact ih tok s x ⟨st0, hg0, hr0, hx⟩
    | ended ch' f tok' t y st' l₁ l₂ sl hm hr' ho hst hs hs' hm' he' he'' hl hp =>
      rw [hs', Slab.get_remove] at hg
      by_cases hk : tok' = tok
      · simp [hk] at hg
      · simp only [hk, if_false] at hg
        obtain ⟨st0, hg0, hr0⟩ := later_ref' hs hg href
        obtain ⟨sty, hgy, hry, hy⟩ := hr'
        rw [obj?_set hy ho] at hx
        by_cases ht : s = t
        · subst ht
          obtain ⟨z, hz, hid⟩ := hreg.slab tok st0 s hg0 hr0
          obtain ⟨z', hz', hid'⟩ := hreg.slab tok' sty s hgy hry
          rw [hz] at hz'; cases hz'
          exact absurd (hid'.symm.trans hid) hk
        · simp only [ht, if_false] at hx
          exact ih tok s x ⟨st0, hg0, hr0, hx⟩
    | begun ch' tok' b isL l₁ l₂ hfree ho hs hm he' hl hp =>
      rw [hs] at hg
      rw [obj?_append ho] at hx
      by_cases hk : tok = tok'
      · simp only [hk, if_true, Option.some.injEq] at hg
        subst hg
        cases href
        simp only [if_true, Option.some.injEq] at hx
        subst hx
        rfl
      · simp only [hk, if_false] at hg
        obtain ⟨z, hz, _⟩ := hreg.slab tok state s hg href
        have := obj?_lt hz
        simp only [show s ≠ c.objs.length from Nat.ne_of_lt this, if_false] at hx
        exact ih tok s x ⟨state, hg, href, hx⟩
    | opening op l ho hs hm he' hl hp =>
      rw [hs, Slab.get_insert hreg.wf] at hg
      by_cases hk : c.sessions.vacantKey = tok
      · simp only [hk, if_true, Option.some.injEq] at hg
        subst hg
        cases href
      · simp only [hk, if_false] at hg
        exact ih tok s x ⟨state, hg, href, by unfold obj? at *; rw [← ho]; exact hx⟩
    | failed e ho hs hm he' =>
      rw [hs] at hg
      simp [Slab.get_empty] at hg

/-! ## Control frames -/

theorem queuedCtl_append (l l' : List CEv) : queuedCtl (l ++ l') = queuedCtl l ++ queuedCtl l' := List.filterMap_append
theorem handedCtl_append (l l' : List CEv) : handedCtl (l ++ l') = handedCtl l ++ handedCtl l' := List.filterMap_append

theorem queuedCtl_ses (s : Ref) (evs : List Ev) : queuedCtl (evs.map (.ses s)) = (evs.filterMap ctlOf).map (s, ·) := by
  unfold queuedCtl
  rw [List.filterMap_map, List.map_filterMap]
  congr 1
  funext e
  cases e <;> rfl

theorem handedCtl_ses (s : Ref) (evs : List Ev) : handedCtl (evs.map (.ses s)) = [] := by
  unfold handedCtl
  rw [List.filterMap_map, List.filterMap_eq_nil_iff]
  intro e _
  rfl

theorem Reachable.control {c : Conn} (h : Reachable c) : queuedCtl c.log = handedCtl c.log ++ c.queue := by
  refine h.invariant (P := fun c => queuedCtl c.log = handedCtl c.log ++ c.queue) (fun _ => rfl) ?_
  intro c d m h
  have app : ∀ (l : List CEv), queuedCtl l = [] → handedCtl l = [] →
      queuedCtl (c.log ++ l) = handedCtl (c.log ++ l) ++ c.queue := by
    intro l h1 h2
    rw [queuedCtl_append, handedCtl_append, h1, h2]
    simpa using h
  cases m
  case note e he =>
    refine app [e] ?_ ?_
    · cases e <;> first | rfl | exact he.elim
    · cases e <;> first | rfl | exact he.elim | skip
      case called k => cases k <;> first | rfl | exact he.elim
  case calls l hl =>
    refine app l (List.filterMap_eq_nil_iff.2 ?_) (List.filterMap_eq_nil_iff.2 ?_)
    all_goals
      intro e he
      obtain ⟨s, t, rfl⟩ := hl e he
      rfl
  case session s x st hx =>
    obtain ⟨evs, _, _, _, _, _, _, _, _, h8, h9, _⟩ := onSession_eq st hx
    rw [h8, h9, queuedCtl_append, handedCtl_append, queuedCtl_ses, handedCtl_ses, h]
    simp
  case register ch b =>
    show queuedCtl ((c.log ++ [_]) ++ [_]) = handedCtl ((c.log ++ [_]) ++ [_]) ++ c.queue
    rw [List.append_assoc]
    exact app _ rfl rfl
  case complete tok op ch b hs =>
    unfold completeLocal
    rw [hs]
    show queuedCtl ((c.log ++ [_]) ++ [_]) = handedCtl ((c.log ++ [_]) ++ [_]) ++ c.queue
    rw [List.append_assoc]
    exact app _ rfl rfl
  case unregister ch => unfold unregister; split <;> exact h
  case opening op off des props hlt => exact app [_] rfl rfl
  case poll =>
    show queuedCtl (c.log ++ _) = handedCtl (c.log ++ _) ++ []
    rw [queuedCtl_append, handedCtl_append, h]
    have h1 : ∀ q : List (Ref × Control), queuedCtl (q.map fun q => .called (.queued q.1 q.2)) = [] := by
      intro q; unfold queuedCtl; rw [List.filterMap_map, List.filterMap_eq_nil_iff]; intro _ _; rfl
    have h2 : ∀ q : List (Ref × Control), handedCtl (q.map fun q => .called (.queued q.1 q.2)) = q := by
      intro q; unfold handedCtl; rw [List.filterMap_map]
      exact List.filterMap_some
    rw [h1, h2]
  all_goals exact h

/-! ## Closing entries -/

theorem absorb_closing (s : Ref) (evs : List Ev) (c : Conn) (k : Nat) (t : Ref)
    (h : (evs.foldl (absorb s) c).sessions.get k = some (.closing t)) :
    c.sessions.get k = some (.closing t) ∨ .closeSession k ∈ evs := by
  induction evs generalizing c with
  | nil => exact .inl h
  | cons e evs ih =>
    rcases ih _ h with h | h
    · cases e
      case closeSession j _ =>
        unfold absorb at h
        dsimp only at h
        unfold closeSession at h
        split at h
        · next s' hs =>
          dsimp only at h
          have hc : (c.note (.ses s (.closeSession j))).sessions.contains j = true := by
            have : c.sessions.get j = some (.established s') := hs
            simp [Slab.contains, note, this]
          rw [Slab.get_set _ _ _ _ hc] at h
          by_cases hk : j = k
          · subst hk; exact .inr (by simp)
          · simp only [hk, if_false] at h; exact .inl h
        · exact .inl h
      all_goals exact .inl h
    · exact .inr (by simp [h])

/-- An entry is closing only because some session asked for that entry to be closed. -/
theorem Reachable.closing {c : Conn} (h : Reachable c) :
    ∀ k t, c.sessions.get k = some (.closing t) → ∃ s, .ses s (.closeSession k) ∈ c.log := by
  refine h.invariant (P := fun c => c.sessions.Wf ∧ ∀ k t, c.sessions.get k = some (.closing t) → ∃ s, .ses s (.closeSession k) ∈ c.log)
    (fun _ => ⟨Slab.wf_empty, fun k t h => by simp [Conn.new, Slab.get_empty] at h⟩) ?_ |>.2
  rintro c d m ⟨hw, ih⟩
  have grow : ∀ (l : List CEv) k t, c.sessions.get k = some (.closing t) → ∃ s, CEv.ses s (.closeSession k) ∈ c.log ++ l := by
    intro l k t h
    obtain ⟨s, hs⟩ := ih k t h
    exact ⟨s, List.mem_append_left _ hs⟩
  cases m
  case note e he => exact ⟨hw, grow _⟩
  case calls l hl => exact ⟨hw, grow _⟩
  case session s x st hx =>
    obtain ⟨evs, he, _, _, _, _, _, _, _, h8, _, h10⟩ := onSession_eq st hx
    refine ⟨h10.1 hw, fun k t h => ?_⟩
    have hd : c.onSession s st = evs.foldl (absorb s) { c with objs := c.objs.set s (x.step st) } := by
      unfold onSession; rw [hx]; dsimp only
      rw [he, List.drop_left]
    rw [hd] at h
    rw [h8]
    rcases absorb_closing s evs _ k t h with h | h
    · exact grow _ k t h
    · exact ⟨s, List.mem_append_right _ (List.mem_map_of_mem h)⟩
  case register ch b =>
    refine ⟨hw.insert _, fun k t h => ?_⟩
    have h : (c.sessions.insert (.established c.objs.length)).get k = some (.closing t) := h
    rw [Slab.get_insert hw] at h
    show ∃ s, _ ∈ (c.log ++ [_]) ++ [_]
    rw [List.append_assoc]
    split at h
    · cases h
    · exact grow _ k t h
  case complete tok op ch b hs =>
    unfold completeLocal
    rw [hs]
    refine ⟨hw.set _ _, fun k t h => ?_⟩
    have h : (c.sessions.set tok (.established c.objs.length)).get k = some (.closing t) := h
    rw [Slab.get_set _ _ _ _ (by simp [Slab.contains, hs])] at h
    show ∃ s, _ ∈ (c.log ++ [_]) ++ [_]
    rw [List.append_assoc]
    split at h
    · cases h
    · exact grow _ k t h
  case unregister ch =>
    unfold unregister
    split
    · refine ⟨hw.remove _, fun k t h => ?_⟩
      dsimp only at h
      rw [Slab.get_remove] at h
      split at h
      · cases h
      · exact ih k t h
    · exact ⟨hw, ih⟩
  case clear => exact ⟨Slab.wf_empty, fun k t h => by simp [Slab.get_empty] at h⟩
  case opening op off des props hlt =>
    refine ⟨hw.insert _, fun k t h => ?_⟩
    have h : (c.sessions.insert (.opening op)).get k = some (.closing t) := h
    rw [Slab.get_insert hw] at h
    split at h
    · cases h
    · exact grow _ k t h
  case poll => exact ⟨hw, grow _⟩
  all_goals exact ⟨hw, ih⟩

end Conn
end Amqp.Rt
