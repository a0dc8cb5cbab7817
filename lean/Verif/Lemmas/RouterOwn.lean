import Verif.Lemmas.RouterTrace
/-!
# Deliveries in the router's hands
-/

namespace Amqp.Rt
open Session

/-- The message a call holds. -/
def RCall.msg : RCall → Option (Ref × Transfer)
  | .readying _ _ d t _ | .serving _ _ d t _ => some (d, t)
  | _ => none

/-- Whether the peer sent the message settled. -/
def presettled (t : Transfer) : Bool := t.head.settled.getD false

/-- The session went on; only deliveries in `D` were acted on. -/
structure Kept (D : Ref → Prop) (s s' : Session) : Prop where
  between : Between s'
  queues : QueuesPristine s'
  pristine : ∀ d b, ¬ D d → Pristine s d b → Pristine s' d b
  finished : ∀ d ds, Finished s d ds → Finished s' d ds
  log : ∀ e, e ∈ s.log → e ∈ s'.log

theorem Kept.trans {D D' : Ref → Prop} {s s' s'' : Session} (h : Kept D s s') (h' : Kept D' s' s'') :
    Kept (fun d => D d ∨ D' d) s s'' where
  between := h'.between
  queues := h'.queues
  pristine d b hd hp := h'.pristine d b (fun h => hd (.inr h)) (h.pristine d b (fun h => hd (.inl h)) hp)
  finished d ds hf := h'.finished d ds (h.finished d ds hf)
  log e he := h'.log e (h.log e he)

theorem Kept.mono {D D' : Ref → Prop} {s s' : Session} (h : Kept D s s') (hd : ∀ d, D d → D' d) : Kept D' s s' :=
  ⟨h.between, h.queues, fun d b hn => h.pristine d b fun h => hn (hd d h), h.finished, h.log⟩

theorem Kept.refl {s : Session} (hb : Between s) (hq : QueuesPristine s) : Kept (fun _ => False) s s :=
  ⟨hb, hq, fun _ _ _ h => h, fun _ _ h => h, fun _ h => h⟩

theorem Between.kept {s : Session} (hb : Between s) (hq : QueuesPristine s) (a : Step)
    (ha : ∀ d, a.actsOn d → ∀ r t, (d, t) ∉ queued s r) : Kept (fun d => a.actsOn d) s (s.step a) := by
  have h := (step_microsOn_held s a (A := fun d => a.actsOn d ∧ d < s.dlvs.length) fun d h₁ h₂ => ⟨h₁, h₂⟩).own hb
    (fun d h => h.2) hq fun r d t hm hA => ha d hA.1 r t hm
  exact ⟨h.1, h.2.1, fun d b hd => h.2.2.2 d b fun hA => hd hA.1, fun d ds hf => step_finished hf a,
    fun e he => Router.step_log_mem he a⟩

theorem Between.keptNone {s : Session} (hb : Between s) (hq : QueuesPristine s) (a : Step) (ha : ∀ d, ¬ a.actsOn d) :
    Kept (fun _ => False) s (s.step a) :=
  (hb.kept hq a fun d h => absurd h (ha d)).mono fun d h => ha d h

theorem Between.keptFinish {s : Session} (hb : Between s) (hq : QueuesPristine s) (r : Ref) (e : Option Error) :
    Kept (fun _ => False) s (s.finishAttach r e) := by
  rcases Router.finishAttach_step s r e with he | ⟨i, _, _, he⟩
  · rw [he]; exact .refl hb hq
  · rw [he]; exact hb.keptNone hq _ fun _ h => h

theorem Between.handed_not_queued {s : Session} (hb : Between s) {r d : Ref} {t : Transfer} (h : .handed r d t ∈ s.log)
    (r' : Ref) (t' : Transfer) : (d, t') ∉ queued s r' :=
  fun hq => hb.own.queued_ne hq (mem_handedOn.mpr h)

/-- A delivery that nobody handled: at most rejected when dropped. -/
def Abandoned (s : Session) (d : Ref) (settled : Bool) : Prop :=
  Finished s d [] ∨ (settled = false ∧ Finished s d [(true, dropRejection)])

theorem Kept.abandoned {D : Ref → Prop} {s s' : Session} (h : Kept D s s') {d : Ref} {b : Bool} (ha : Abandoned s d b) :
    Abandoned s' d b :=
  ha.imp (h.finished d _) fun ⟨h₁, h₂⟩ => ⟨h₁, h.finished d _ h₂⟩

namespace Router

structure Owned (σ : Router) : Prop where
  between : Between σ.sess
  queues : QueuesPristine σ.sess
  held : ∀ c ∈ σ.calls, ∀ d t, c.msg = some (d, t) → Pristine σ.sess d (presettled t)
  done : ∀ r srv d t h, .answered r srv d t h ∈ σ.log →
    Finished σ.sess d (if presettled t then [] else [(true, h.state)])
  gone : ∀ r d t, .fetched r d t ∈ σ.log → (∃ c ∈ σ.calls, c.msg = some (d, t)) ∨
    (∃ r' srv h, .answered r' srv d t h ∈ σ.log) ∨ Abandoned σ.sess d (presettled t)

def holdsOf (d : Ref) (c : RCall) : Bool := readyingOf d c || servingOf d c

theorem holdsOf_msg {d : Ref} {t : Transfer} {c : RCall} (h : c.msg = some (d, t)) : holdsOf d c = true := by
  cases c <;> simp_all [RCall.msg, holdsOf, readyingOf, servingOf]

theorem countP_holds (d : Ref) (l : List RCall) :
    l.countP (holdsOf d) = l.countP (readyingOf d) + l.countP (servingOf d) := by
  induction l with
  | nil => rfl
  | cons c l ih =>
    simp only [List.countP_cons, ih]
    have : (if holdsOf d c then 1 else 0) = (if readyingOf d c then 1 else 0) + if servingOf d c then 1 else 0 := by
      cases c <;> simp [holdsOf, readyingOf, servingOf]
    omega

/-- One call holds a delivery. -/
theorem Counted.holds {σ : Router} (h : Counted σ) (d : Ref) : σ.calls.countP (holdsOf d) ≤ 1 := by
  have := h.fetched d; have := h.readying d; have := h.serving d
  rw [countP_holds]
  omega

theorem holds_none {l : List RCall} {d : Ref} {i : Nat} {c a : RCall} (h : l.countP (holdsOf d) ≤ 1) (hc : l[i]? = some c)
    (hd : holdsOf d c = true) (ha : holdsOf d a = false) {c' : RCall} (hm : c' ∈ l.set i a) : holdsOf d c' = false := by
  have := countP_set (a := a) (holdsOf d) hc
  rw [hd, ha] at this
  simp only [Bool.false_eq_true, if_false, if_true] at this
  have h0 : (l.set i a).countP (holdsOf d) = 0 := by omega
  simpa using List.countP_eq_zero.mp h0 c' hm

theorem msg_none_holds {c : RCall} (h : c.msg = none) (d : Ref) : holdsOf d c = false := by
  cases c <;> first | rfl | cases h

theorem msg_holds {c : RCall} {d : Ref} {t : Transfer} (h : c.msg = some (d, t)) : c.holds = some d := by
  cases c <;> cases h <;> rfl

theorem holds_msg {c : RCall} {d : Ref} (h : c.holds = some d) : ∃ t, c.msg = some (d, t) := by
  cases c <;> cases h <;> exact ⟨_, rfl⟩

theorem holds_none_msg {c : RCall} (h : c.holds = none) : c.msg = none := by
  cases c <;> first | rfl | cases h

theorem unstarted_msg {c : RCall} (h : c.Unstarted) : c.msg = none := by
  cases c <;> first | rfl | exact h.elim

theorem allowed_owns {σ : Router} {st : Step} (ha : σ.allowed st = true) {d : Ref} (hd : st.actsOn d) : σ.owns d = false := by
  cases st <;> try exact hd.elim
  all_goals
    obtain rfl : _ = d := hd
    simpa only [allowed, Bool.not_eq_true'] using ha

theorem View.owned {σ σ' : Router} (h : View σ σ') (hcn : Counted σ) (htr : Traced σ) (hi : Owned σ) : Owned σ' := by
  have hb := hi.between
  have hq := hi.queues
  have go : ∀ i c a (D : Ref → Prop) evs, σ.calls[i]? = some c → σ'.calls = σ.calls.set i a → σ'.log = σ.log ++ evs →
      Kept D σ.sess σ'.sess → (∀ d, D d → (∃ t, c.msg = some (d, t)) ∧ a.msg = none) →
      (∀ d t, a.msg = some (d, t) → Pristine σ'.sess d (presettled t)) →
      (∀ r srv d t h, .answered r srv d t h ∈ evs → Finished σ'.sess d (if presettled t then [] else [(true, h.state)])) →
      (∀ d t, c.msg = some (d, t) → a.msg = some (d, t) ∨ (∃ r srv h, .answered r srv d t h ∈ evs) ∨
        Abandoned σ'.sess d (presettled t)) →
      (∀ r d t, .fetched r d t ∈ evs → a.msg = some (d, t)) → Owned σ' := by
    intro i c a D evs hc hcalls hl hk hD ha hans hgone hf
    have hilt : i < σ.calls.length := (List.getElem?_eq_some_iff.mp hc).1
    have hmem : a ∈ σ'.calls := by rw [hcalls]; exact List.mem_set hilt a
    refine ⟨hk.between, hk.queues, fun c' hm d t hmsg => ?_, fun r srv d t h' hm => ?_, fun r d t hm => ?_⟩
    · rw [hcalls] at hm
      by_cases hd : D d
      · exfalso
        obtain ⟨⟨t', ht'⟩, hna⟩ := hD d hd
        have h₁ := holds_none (hcn.holds d) hc (holdsOf_msg ht') (msg_none_holds hna d) hm
        have h₂ := holdsOf_msg hmsg
        rw [h₁] at h₂; cases h₂
      · rcases mem_set hm with hm | rfl
        · exact hk.pristine d _ hd (hi.held c' hm d t hmsg)
        · exact ha d t hmsg
    · rw [hl] at hm
      rcases List.mem_append.mp hm with hm | hm
      · exact hk.finished d _ (hi.done r srv d t h' hm)
      · exact hans r srv d t h' hm
    · rw [hl] at hm
      rcases List.mem_append.mp hm with hm | hm
      · rcases hi.gone r d t hm with ⟨c', hc', hmsg⟩ | ⟨r', srv, h', ha'⟩ | h'
        · obtain ⟨j, hj⟩ := List.mem_iff_getElem?.mp hc'
          by_cases hij : i = j
          · subst hij
            rw [hc] at hj; cases hj
            rcases hgone d t hmsg with h' | ⟨r', srv, h', he⟩ | h'
            · exact .inl ⟨a, hmem, h'⟩
            · exact .inr (.inl ⟨r', srv, h', by rw [hl]; exact List.mem_append_right _ he⟩)
            · exact .inr (.inr h')
          · refine .inl ⟨c', ?_, hmsg⟩
            rw [hcalls]
            refine List.mem_iff_getElem?.mpr ⟨j, ?_⟩
            rw [List.getElem?_set_ne hij, hj]
        · exact .inr (.inl ⟨r', srv, h', by rw [hl]; exact List.mem_append_left _ ha'⟩)
        · exact .inr (.inr (hk.abandoned h'))
      · exact .inl ⟨a, hmem, hf r d t hm⟩
  -- nothing is held before or after
  have idle : ∀ i c evs, σ.calls[i]? = some c → σ'.calls = σ.calls.set i .done → σ'.log = σ.log ++ evs → c.msg = none →
      Kept (fun _ => False) σ.sess σ'.sess → (∀ r srv d t h, .answered r srv d t h ∉ evs) → (∀ r d t, .fetched r d t ∉ evs) →
      Owned σ' := by
    intro i c evs hc hcalls hl hn hk h₁ h₂
    exact go i c .done _ evs hc hcalls hl hk (fun _ h => h.elim) (fun d t h => by cases h)
      (fun r srv d t h hm => absurd hm (h₁ r srv d t h)) (fun d t h => by rw [hn] at h; cases h)
      (fun r d t hm => absurd hm (h₂ r d t))
  have isHanded : ∀ (i : Nat) (c : RCall) (d : Ref) (t : Transfer), σ.calls[i]? = some c → c.msg = some (d, t) →
      ∃ r, .handed r d t ∈ σ.sess.log := by
    intro i c d t hc hm
    cases c <;> simp only [RCall.msg, Option.some.injEq, Prod.mk.injEq, reduceCtorEq] at hm
    · next r srv d' t' att =>
      obtain ⟨rfl, rfl⟩ := hm
      exact ⟨r, hcn.handed _ _ _ (htr.readying _ _ _ _ _ (List.mem_of_getElem? hc)).2⟩
    · next r srv d' t' att =>
      obtain ⟨rfl, rfl⟩ := hm
      obtain ⟨live, hinv⟩ := htr.serving _ _ _ _ _ (List.mem_of_getElem? hc)
      obtain ⟨pre, post, hl⟩ := List.append_of_mem hinv
      obtain ⟨_, hf, _⟩ := htr.ordered pre _ post hl
      exact ⟨r, hcn.handed _ _ _ (by rw [hl]; exact List.mem_append_left _ hf)⟩
  have takes : ∀ r d t, (σ.sess.getDelivery r).2 = some (d, t) →
      Kept (fun _ => False) σ.sess (σ.sess.step (.take r)) ∧ Pristine (σ.sess.step (.take r)) d (presettled t) := by
    intro r d t hg
    have hk := hb.keptNone hq (.take r) (fun _ h => h)
    exact ⟨hk, hk.pristine d _ (fun h => h) (hq r d t (getDelivery_some hg).1)⟩
  cases h
  case same => exact hi
  case others st opened ha =>
    clear go idle isHanded takes
    have hown : ∀ d, st.actsOn d → σ.owns d = false := fun d hd => allowed_owns ha hd
    have hnq : ∀ d, σ.owns d = false → ∀ r t, (d, t) ∉ queued σ.sess r := by
      intro d hd r t hm
      unfold queued at hm
      cases hr : σ.sess.rcv? r with
      | none => rw [hr] at hm; cases hm
      | some l =>
        rw [hr] at hm
        simp only [owns, Bool.or_eq_false_iff, List.any_eq_false] at hd
        exact hd.1 l (List.mem_of_getElem? hr) (List.any_eq_true.mpr ⟨(d, t), hm, by simp⟩)
    have hk := hb.kept hq st fun d hd => hnq d (hown d hd)
    refine ⟨hk.between, hk.queues, fun c hm d t hmsg => ?_, fun r srv d t h' hm => hk.finished d _ (hi.done r srv d t h' hm),
      fun r d t hm => ?_⟩
    · rcases List.mem_append.mp hm with hm | hm
      · refine hk.pristine d _ (fun hd => ?_) (hi.held c hm d t hmsg)
        have := hown d hd
        simp only [owns, Bool.or_eq_false_iff, List.any_eq_false] at this
        exact this.2 c hm (by rw [msg_holds hmsg]; simp)
      · rw [unstarted_msg (messages_unstarted hm)] at hmsg; cases hmsg
    · rcases hi.gone r d t hm with ⟨c', hc', hmsg⟩ | h' | h'
      · exact .inl ⟨c', List.mem_append_left _ hc', hmsg⟩
      · exact .inr (.inl h')
      · exact .inr (.inr (hk.abandoned h'))
  case routed i r frame path n hc hp hn =>
    exact go i _ (.creating r n) _ _ hc rfl rfl (.refl hb hq) (fun _ h => h.elim) (fun d t h => by cases h) (by simp)
      (fun d t h => by cases h) (by simp)
  case unrouted i r frame e hc hp => exact idle i _ _ hc rfl rfl rfl (hb.keptFinish hq r _) (by simp) (by simp)
  case failed i r n e hc => exact idle i _ [] hc rfl (by simp) rfl (hb.keptFinish hq r _) (by simp) (by simp)
  case made i r n hc hg => exact idle i _ _ hc rfl rfl rfl (hb.keptFinish hq r _) (by simp) (by simp)
  case madeFetch i r n d t hc hg =>
    obtain ⟨hk, hp⟩ := takes r d t hg
    refine go i _ (.readying r σ.srvs d t true) _ _ hc rfl rfl hk (fun _ h => h.elim) (fun d' t' h => ?_) (by simp)
      (fun d t h => by cases h) (fun r' d' t' hm => ?_)
    · cases h; exact hp
    · simp only [List.mem_cons, reduceCtorEq, REv.fetched.injEq, List.not_mem_nil, or_false, false_or] at hm
      obtain ⟨_, rfl, rfl⟩ := hm; rfl
  case fetch i r srv d t hc hh hg =>
    obtain ⟨hk, hp⟩ := takes r d t hg
    refine go i _ (.readying r srv d t false) _ _ hc rfl rfl hk (fun _ h => h.elim) (fun d' t' h => ?_) (by simp)
      (fun d t h => by cases h) (fun r' d' t' hm => ?_)
    · cases h; exact hp
    · cases List.mem_singleton.mp hm; rfl
  case idle i r hc => exact idle i _ [] hc rfl (by simp) rfl (.refl hb hq) (by simp) (by simp)
  case released i c rs hc hr =>
    refine idle i _ _ hc rfl rfl ?_ (.refl hb hq) (by simp) (by simp)
    rcases hr with rfl | ⟨r, rfl, rfl⟩ <;> rfl
  case unready i r srv d t att e hc =>
    obtain ⟨r', hhand⟩ := isHanded i _ d t hc rfl
    have hp := hi.held _ (List.mem_of_getElem? hc) d t rfl
    have k₁ := hb.keptNone hq (.closeReceiver r e) (fun _ h => h)
    have hp₁ := k₁.pristine d _ (fun h => h) hp
    have k₂ := k₁.between.kept k₁.queues (.dropDelivery d) (fun d' hd => by
      cases hd; exact k₁.between.handed_not_queued (k₁.log _ hhand))
    have hab : Abandoned ((σ.sess.step (.closeReceiver r e)).step (.dropDelivery d)) d (presettled t) := hp₁.dropped
    have k₁₂ := k₁.trans k₂
    cases att
    · refine go i _ .done _ [] hc rfl (by simp) k₁₂ (fun d' h => ?_) (fun d t h => by cases h) (by simp) (fun d' t' h => ?_)
        (by simp)
      · rcases h with h | h
        · exact h.elim
        · cases h; exact ⟨⟨t, rfl⟩, rfl⟩
      · cases h; exact .inr (.inr hab)
    · have k₃ := k₂.between.keptFinish k₂.queues r none
      refine go i _ .done _ [] hc rfl (by simp) (k₁₂.trans k₃) (fun d' h => ?_) (fun d t h => by cases h) (by simp)
        (fun d' t' h => ?_) (by simp)
      · rcases h with (h | h) | h
        · exact h.elim
        · cases h; exact ⟨⟨t, rfl⟩, rfl⟩
        · exact h.elim
      · cases h; exact .inr (.inr (k₃.abandoned hab))
  case invoked i r srv d t att s hc hs =>
    have hp := hi.held _ (List.mem_of_getElem? hc) d t rfl
    have hk : Kept (fun _ => False) σ.sess s := by
      rcases hs with rfl | rfl
      · exact .refl hb hq
      · exact hb.keptNone hq _ (fun _ h => h)
    refine go i _ (.serving r srv d t att) _ _ hc rfl rfl hk (fun _ h => h.elim) (fun d' t' h => ?_) (by simp)
      (fun d' t' h => ?_) (by simp)
    · cases h; exact hk.pristine d _ (fun h => h) hp
    · cases h; exact .inl rfl
  case answered i r srv d t att h hc =>
    obtain ⟨r', hhand⟩ := isHanded i _ d t hc rfl
    have hp := hi.held _ (List.mem_of_getElem? hc) d t rfl
    have k₁ := hb.kept hq (.settle d h.state) (fun d' hd => by cases hd; exact hb.handed_not_queued hhand)
    have k₂ := k₁.between.kept k₁.queues (.dropDelivery d) (fun d' hd => by
      cases hd; exact k₁.between.handed_not_queued (k₁.log _ hhand))
    have hfin := hp.settled h.state
    have k₁₂ := k₁.trans k₂
    cases att
    · refine go i _ .done _ [_] hc rfl rfl k₁₂ (fun d' h => ?_) (fun d t h => by cases h) (fun r' srv' d' t' h' hm => ?_)
        (fun d' t' h' => ?_) (by simp)
      · rcases h with h | h <;> (cases h; exact ⟨⟨t, rfl⟩, rfl⟩)
      · cases List.mem_singleton.mp hm; exact hfin
      · cases h'; exact .inr (.inl ⟨r, srv, h, by simp⟩)
    · have k₃ := k₂.between.keptFinish k₂.queues r none
      refine go i _ .done _ [_] hc rfl rfl (k₁₂.trans k₃) (fun d' h => ?_) (fun d t h => by cases h)
        (fun r' srv' d' t' h' hm => ?_) (fun d' t' h' => ?_) (by simp)
      · rcases h with (h | h) | h
        · cases h; exact ⟨⟨t, rfl⟩, rfl⟩
        · cases h; exact ⟨⟨t, rfl⟩, rfl⟩
        · exact h.elim
      · cases List.mem_singleton.mp hm; exact k₃.finished _ _ hfin
      · cases h'; exact .inr (.inl ⟨r, srv, h, by simp⟩)
  case dropped i c d hc hd =>
    obtain ⟨t, hmsg⟩ := holds_msg hd
    obtain ⟨r', hhand⟩ := isHanded i _ d t hc hmsg
    have hp := hi.held _ (List.mem_of_getElem? hc) d t hmsg
    have k := hb.kept hq (.dropDelivery d) (fun d' hd => by cases hd; exact hb.handed_not_queued hhand)
    refine go i _ .done _ [] hc rfl (by simp) k (fun d' h => ?_) (fun d t h => by cases h) (by simp) (fun d' t' h => ?_)
      (by simp)
    · cases h; exact ⟨⟨t, hmsg⟩, rfl⟩
    · rw [hmsg] at h; cases h; exact .inr (.inr hp.dropped)
  case cancelled i c hc hd =>
    exact idle i _ [] hc rfl (by simp) (holds_none_msg hd) (.refl hb hq) (by simp) (by simp)

theorem Reachable.owned {σ : Router} (h : Reachable σ) : Owned σ := by
  have key : ∀ σ, Reachable σ → ∀ st, Reachable (σ.step st) := by
    rintro σ ⟨σ₀, steps, hf, rfl⟩ st
    exact ⟨σ₀, steps ++ [st], hf, by simp [run]⟩
  obtain ⟨σ₀, steps, hf, rfl⟩ := h
  have h₀ : Reachable σ₀ := ⟨σ₀, [], hf, rfl⟩
  have o₀ : Owned σ₀ := by
    obtain ⟨hs, hh, hn, hc, hl⟩ := hf
    have hrcvs : σ₀.sess.rcvs = [] := by obtain ⟨_, _, _, _, _, h⟩ := hs; rw [h]; rfl
    refine ⟨h₀.sess.between, fun r d t hm => ?_, ?_, ?_, ?_⟩
    · simp [queued, rcv?, hrcvs] at hm
    all_goals simp [hc, hl]
  clear hf
  induction steps generalizing σ₀ with
  | nil => exact o₀
  | cons st steps ih =>
    exact ih (σ₀.step st) (key _ h₀ st) ((step_view σ₀ st).owned h₀.counted h₀.traced o₀)

end Router
end Amqp.Rt
