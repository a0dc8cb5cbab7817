import Verif.Lemmas.RouterOffer
import Verif.Spec.Router
/-!
# The order of the router's events
-/

namespace Amqp.Rt
open Session

/-! ## The handler of a link -/

theorem HandlerNow.created {evs : List REv} {r srv : Ref} (h : HandlerNow evs r srv) : ∃ n, .created r srv n ∈ evs := by
  obtain ⟨pre, n, post, rfl, _⟩ := h
  exact ⟨n, by simp⟩

theorem handlerNow_append {evs more : List REv} {r srv : Ref} (h : ∀ n, .created r srv n ∉ more) :
    HandlerNow (evs ++ more) r srv ↔ HandlerNow evs r srv ∧ .released r ∉ more := by
  constructor
  · rintro ⟨pre, n, post, he, hp⟩
    rcases List.append_eq_append_iff.mp he with ⟨a, rfl, hm⟩ | ⟨a, ha, hm⟩
    · exact absurd (hm ▸ by simp) (h n)
    · cases a with
      | nil =>
        simp only [List.nil_append] at hm
        exact absurd (hm ▸ List.mem_cons_self) (h n)
      | cons x a =>
        injection hm with hx hpost
        replace hpost : post = a ++ more := hpost
        subst hx hpost
        simp only [List.mem_append, not_or] at hp
        exact ⟨⟨pre, n, a, ha, hp.1⟩, hp.2⟩
  · rintro ⟨⟨pre, n, post, rfl, hp⟩, hm⟩
    exact ⟨pre, n, post ++ more, by simp, by simp [hp, hm]⟩

theorem handlerNow_new (evs : List REv) (r srv n : Ref) : HandlerNow (evs ++ [.created r srv n]) r srv :=
  ⟨evs, n, [], rfl, by simp⟩

namespace Router

def creatingOf (r : Ref) : RCall → Bool | .creating r' _ => r' == r | _ => false
def createdOf (r : Ref) : REv → Bool | .created r' _ _ => r' == r | _ => false

/-- What happened was allowed, and the state remembers it. -/
structure Traced (σ : Router) : Prop where
  ordered : ∀ pre e post, σ.log = pre ++ e :: post → MayHappen σ.route pre e
  table : ∀ r srv, σ.handlers.get r = some (some srv) ↔ HandlerNow σ.log r srv
  creating : ∀ r n, .creating r n ∈ σ.calls →
    ∃ f path, .asked r f ∈ σ.log ∧ f.target.bind Target.address = some path ∧ σ.route path = some n
  making : ∀ r, σ.calls.countP (creatingOf r) + σ.log.countP (createdOf r) ≤ σ.log.countP (askedOf r)
  readying : ∀ r srv d t att, .readying r srv d t att ∈ σ.calls → (∃ n, .created r srv n ∈ σ.log) ∧ .fetched r d t ∈ σ.log
  serving : ∀ r srv d t att, .serving r srv d t att ∈ σ.calls → ∃ live, .invoked r srv d t live ∈ σ.log
  srvs : ∀ r srv n, .created r srv n ∈ σ.log → srv < σ.srvs

theorem not_before {p : REv → Bool} {pre : List REv} {e : REv} (h : (pre ++ [e]).countP p ≤ 1) (he : p e = true) {x : REv}
    (hx : x ∈ pre) : p x = false := by
  rw [List.countP_append] at h
  simp only [List.countP_cons, List.countP_nil, he, if_true] at h
  have h0 : pre.countP p = 0 := by omega
  simpa using List.countP_eq_zero.mp h0 x hx

theorem ordered_append {route : Str → Option Nat} {log : List REv} {e : REv}
    (h : ∀ pre e post, log = pre ++ e :: post → MayHappen route pre e) (he : MayHappen route log e) :
    ∀ pre e' post, log ++ [e] = pre ++ e' :: post → MayHappen route pre e' := by
  intro pre e' post hl
  rcases List.append_eq_append_iff.mp hl with ⟨a, rfl, hm⟩ | ⟨a, ha, hm⟩
  · cases a with
    | nil =>
      simp only [List.nil_append, List.cons.injEq] at hm
      obtain ⟨rfl, _⟩ := hm
      simpa using he
    | cons x a =>
      have := congrArg List.length hm
      simp at this
  · cases a with
    | nil =>
      simp only [List.nil_append, List.cons.injEq] at hm
      obtain ⟨rfl, _⟩ := hm
      simp only [List.append_nil] at ha
      exact ha ▸ he
    | cons x a =>
      injection hm with hx hpost
      subst hx
      exact h pre e' a ha

theorem ordered_appends {route : Str → Option Nat} {log : List REv} {evs : List REv}
    (h : ∀ pre e post, log = pre ++ e :: post → MayHappen route pre e)
    (he : ∀ e ∈ evs, ∀ pre, MayHappen route pre e) :
    ∀ pre e' post, log ++ evs = pre ++ e' :: post → MayHappen route pre e' := by
  induction evs generalizing log with
  | nil => simpa using h
  | cons e evs ih =>
    have := ih (log := log ++ [e]) (ordered_append h (he e (by simp) _)) fun e' h' => he e' (by simp [h'])
    simpa using this

theorem get_foldl_erase (m : Map Ref (Option Ref)) (rs : List Ref) (r : Ref) :
    (rs.foldl Map.erase m).get r = if r ∈ rs then none else m.get r := by
  induction rs generalizing m with
  | nil => simp
  | cons x rs ih =>
    rw [List.foldl_cons, ih, Map.get_erase]
    by_cases h₁ : r ∈ rs <;> by_cases h₂ : x = r
    · simp [h₁]
    · simp [h₁]
    · simp [h₂]
    · simp [h₁, h₂, Ne.symm h₂]

theorem View.traced {σ σ' : Router} (h : View σ σ') (hcn : Counted σ) (hcn' : Counted σ') (hof' : Offered σ') (hi : Traced σ) :
    Traced σ' := by
  have hroute := h.route
  have hmk := hi.making
  -- a call goes on or ends and something is noted, but no handler is made
  have plain : ∀ i c a evs, σ.calls[i]? = some c → σ'.calls = σ.calls.set i a → σ'.log = σ.log ++ evs →
      σ'.handlers = σ.handlers → σ.srvs ≤ σ'.srvs →
      (∀ pre e post, σ'.log = pre ++ e :: post → MayHappen σ.route pre e) →
      (∀ r srv n, .created r srv n ∉ evs) → (∀ r, .released r ∉ evs) →
      (∀ r n, a ≠ .creating r n) →
      (∀ r srv d t att, a = .readying r srv d t att → (∃ n, .created r srv n ∈ σ'.log) ∧ .fetched r d t ∈ σ'.log) →
      (∀ r srv d t att, a = .serving r srv d t att → ∃ live, .invoked r srv d t live ∈ σ'.log) → Traced σ' := by
    intro i c a evs hc hcalls hl hh hs ho hncr hnrel ha₁ ha₂ ha₃
    refine ⟨hroute ▸ ho, fun r srv => ?_, fun r n hm => ?_, fun r => ?_, fun r srv d t att hm => ?_,
      fun r srv d t att hm => ?_, fun r srv n hm => ?_⟩
    · rw [hh, hl, handlerNow_append (fun n => hncr r srv n), hi.table]
      simp [hnrel r]
    · rw [hcalls] at hm
      rcases mem_set hm with hm | hm
      · obtain ⟨f, path, h₁, h₂⟩ := hi.creating r n hm
        exact ⟨f, path, hl ▸ List.mem_append_left _ h₁, hroute ▸ h₂⟩
      · exact absurd hm.symm (ha₁ r n)
    · have h₁ := countP_set (a := a) (creatingOf r) hc
      have hz : evs.countP (createdOf r) = 0 := List.countP_eq_zero.mpr fun e he => by
        cases e <;> simp [createdOf]
        next r' srv n => exact absurd he (hncr r' srv n)
      have hfa : creatingOf r a = false := by
        cases a <;> first | rfl | exact absurd rfl (ha₁ _ _)
      have := hmk r
      rw [hcalls, hl, List.countP_append, List.countP_append, hz]
      simp only [hfa, Bool.false_eq_true, if_false] at h₁
      omega
    · rw [hcalls] at hm
      rcases mem_set hm with hm | hm
      · obtain ⟨⟨n, h₁⟩, h₂⟩ := hi.readying r srv d t att hm
        exact ⟨⟨n, hl ▸ List.mem_append_left _ h₁⟩, hl ▸ List.mem_append_left _ h₂⟩
      · exact ha₂ _ _ _ _ _ hm.symm
    · rw [hcalls] at hm
      rcases mem_set hm with hm | hm
      · obtain ⟨live, h₁⟩ := hi.serving r srv d t att hm
        exact ⟨live, hl ▸ List.mem_append_left _ h₁⟩
      · exact ha₃ _ _ _ _ _ hm.symm
    · rw [hl] at hm
      rcases List.mem_append.mp hm with hm | hm
      · exact Nat.lt_of_lt_of_le (hi.srvs r srv n hm) hs
      · exact absurd hm (hncr r srv n)
  have n₁ : ∀ r n, RCall.done ≠ .creating r n := fun _ _ h => RCall.noConfusion h
  have n₂ : ∀ r srv d t att, RCall.done ≠ .readying r srv d t att := fun _ _ _ _ _ h => RCall.noConfusion h
  have n₃ : ∀ r srv d t att, RCall.done ≠ .serving r srv d t att := fun _ _ _ _ _ h => RCall.noConfusion h
  have n₄ : ∀ r srv d t att r' n, RCall.readying r srv d t att ≠ .creating r' n := fun _ _ _ _ _ _ _ h => RCall.noConfusion h
  have n₅ : ∀ r srv d t att r' n, RCall.serving r srv d t att ≠ .creating r' n := fun _ _ _ _ _ _ _ h => RCall.noConfusion h
  have n₆ : ∀ r srv d t att r' srv' d' t' att', RCall.readying r srv d t att ≠ .serving r' srv' d' t' att' :=
    fun _ _ _ _ _ _ _ _ _ _ h => RCall.noConfusion h
  have n₇ : ∀ r srv d t att r' srv' d' t' att', RCall.serving r srv d t att ≠ .readying r' srv' d' t' att' :=
    fun _ _ _ _ _ _ _ _ _ _ h => RCall.noConfusion h
  -- a link is offered
  have asks : ∀ r (f : Attach), σ'.log = σ.log ++ [.asked r f] →
      ∀ pre e post, σ'.log = pre ++ e :: post → MayHappen σ.route pre e := by
    intro r f hl
    rw [hl]
    refine ordered_append hi.ordered fun f' hm => ?_
    have h1 := hof'.once r
    rw [hl] at h1
    have := not_before (p := askedOf r) (e := .asked r f) (by omega) (by simp [askedOf]) hm
    simp [askedOf] at this
  -- a handler is made
  have makes : ∀ (i : Nat) (r : Ref) (n : Nat), σ.calls[i]? = some (.creating r n) → MayHappen σ.route σ.log (.created r σ.srvs n) ∧
      ∀ srv' n', .created r srv' n' ∉ σ.log := by
    intro i r n hc
    have hasked := hi.creating r n (List.mem_of_getElem? hc)
    have none' : ∀ srv' n', .created r srv' n' ∉ σ.log := by
      intro srv' n' hm
      have h₁ : 0 < σ.log.countP (createdOf r) := List.countP_pos_iff.mpr ⟨_, hm, by simp [createdOf]⟩
      have h₂ : 0 < σ.calls.countP (creatingOf r) :=
        List.countP_pos_iff.mpr ⟨_, List.mem_of_getElem? hc, by simp [creatingOf]⟩
      have h₃ := hmk r
      have h₄ := hof'.once r
      have h₅ : σ.log.countP (askedOf r) ≤ σ'.log.countP (askedOf r) := by
        obtain ⟨evs, he⟩ := h.log
        rw [he, List.countP_append]; omega
      omega
    exact ⟨⟨hasked, none', fun r' n' hm => Nat.lt_irrefl _ (hi.srvs r' _ n' hm)⟩, none'⟩
  have made : ∀ (i : Nat) (r : Ref) (n : Nat) (c : RCall) (evs : List REv), σ.calls[i]? = some (.creating r n) → σ'.calls = σ.calls.set i c →
      σ'.log = σ.log ++ .created r σ.srvs n :: evs → σ'.handlers = σ.handlers.insert r (some σ.srvs) →
      σ'.srvs = σ.srvs + 1 → (∀ r srv n, .created r srv n ∉ evs) → (∀ r, .released r ∉ evs) →
      (∀ pre e post, σ'.log = pre ++ e :: post → MayHappen σ.route pre e) →
      (∀ r n, c ≠ .creating r n) → (∀ r srv d t att, c ≠ .serving r srv d t att) →
      (∀ r srv d t att, c = .readying r srv d t att → (∃ n, .created r srv n ∈ σ'.log) ∧ .fetched r d t ∈ σ'.log) →
      Traced σ' := by
    intro i r n c evs hc hcalls hl hh hs hncr hnrel ho ha₁ ha₃ ha₂
    have none' := (makes i r n hc).2
    have hl' : σ'.log = (σ.log ++ [.created r σ.srvs n]) ++ evs := by rw [hl]; simp
    refine ⟨hroute ▸ ho, fun r' srv => ?_, fun r' n' hm => ?_, fun r' => ?_, fun r' srv d t att hm => ?_,
      fun r' srv d t att hm => ?_, fun r' srv n' hm => ?_⟩
    · rw [hh, Map.get_insert, hl', handlerNow_append (fun n => hncr r' srv n)]
      simp only [hnrel r', not_false_eq_true, and_true]
      by_cases hr : r = r'
      · subst hr
        rw [if_pos rfl]
        constructor
        · intro h
          simp only [Option.some.injEq] at h
          subst h
          exact handlerNow_new _ _ _ _
        · intro h
          obtain ⟨n'', hm⟩ := h.created
          rcases List.mem_append.mp hm with hm | hm
          · exact absurd hm (none' _ _)
          · cases List.mem_singleton.mp hm; rfl
      · rw [if_neg hr, hi.table, handlerNow_append (by simp; exact fun n h => absurd h.symm hr)]
        simp
    · rw [hcalls] at hm
      rcases mem_set hm with hm | hm
      · obtain ⟨f, path, h₁, h₂⟩ := hi.creating r' n' hm
        exact ⟨f, path, hl ▸ List.mem_append_left _ h₁, hroute ▸ h₂⟩
      · exact absurd hm.symm (ha₁ r' n')
    · have h₁ := countP_set (a := c) (creatingOf r') hc
      have hz : evs.countP (createdOf r') = 0 := List.countP_eq_zero.mpr fun e he => by
        cases e <;> simp [createdOf]
        next r' srv n => exact absurd he (hncr r' srv n)
      have hfa : creatingOf r' c = false := by
        cases c <;> first | rfl | exact absurd rfl (ha₁ _ _)
      have := hmk r'
      rw [hcalls, hl', List.countP_append, List.countP_append, List.countP_append, List.countP_append, hz]
      have he : ([REv.created r σ.srvs n].countP (createdOf r')) = if creatingOf r' (.creating r n) then 1 else 0 := by
        simp [createdOf, creatingOf]
      simp only [hfa, Bool.false_eq_true, if_false] at h₁
      omega
    · rw [hcalls] at hm
      rcases mem_set hm with hm | hm
      · obtain ⟨⟨n, h₁⟩, h₂⟩ := hi.readying r' srv d t att hm
        exact ⟨⟨n, hl ▸ List.mem_append_left _ h₁⟩, hl ▸ List.mem_append_left _ h₂⟩
      · exact ha₂ _ _ _ _ _ hm.symm
    · rw [hcalls] at hm
      rcases mem_set hm with hm | hm
      · obtain ⟨live, h₁⟩ := hi.serving r' srv d t att hm
        exact ⟨live, hl ▸ List.mem_append_left _ h₁⟩
      · exact absurd hm.symm (ha₃ _ _ _ _ _)
    · rw [hl'] at hm
      rw [hs]
      rcases List.mem_append.mp hm with hm | hm
      · rcases List.mem_append.mp hm with hm | hm
        · exact Nat.lt_succ_of_lt (hi.srvs r' srv n' hm)
        · cases List.mem_singleton.mp hm; exact Nat.lt_succ_self _
      · exact absurd hm (hncr r' srv n')
  -- a message is taken
  have fetches : ∀ r d t, σ'.log.countP (fetchedOf d) ≤ 1 → ∀ log, σ'.log = log ++ [.fetched r d t] →
      ∀ r' t', .fetched r' d t' ∉ log := by
    intro r d t h1 log hl r' t' hm
    rw [hl] at h1
    have := not_before h1 (by simp [fetchedOf]) hm
    simp [fetchedOf] at this
  cases h
  case same => exact hi
  case others st opened ha =>
    have unst : ∀ {c}, c ∈ σ.calls ++ σ.sess.messages opened st → ¬ c.Unstarted → c ∈ σ.calls := fun hm hn =>
      (List.mem_append.mp hm).resolve_right fun h => hn (messages_unstarted h)
    refine ⟨hi.ordered, hi.table, fun r n hm => hi.creating r n (unst hm fun h => h), fun r => ?_,
      fun r srv d t att hm => hi.readying r srv d t att (unst hm fun h => h),
      fun r srv d t att hm => hi.serving r srv d t att (unst hm fun h => h), hi.srvs⟩
    rw [List.countP_append, countP_messages (fun c hu => by cases c <;> first | rfl | cases hu)]
    exact hmk r
  case routed i r frame path n hc hp hn =>
    have hfresh : ∀ srv n, .created r srv n ∉ σ.log := by
      intro srv n' hm
      have h₁ : 0 < σ.log.countP (createdOf r) := List.countP_pos_iff.mpr ⟨_, hm, by simp [createdOf]⟩
      have h₃ := hmk r
      have h₄ := hof'.once r
      simp only [List.countP_append] at h₄
      have : [REv.asked r frame].countP (askedOf r) = 1 := by simp [askedOf]
      omega
    refine ⟨asks r frame rfl, fun r' srv => ?_, fun r' n' hm => ?_, fun r' => ?_, fun r' srv d t att hm => ?_,
      fun r' srv d t att hm => ?_, fun r' srv n' hm => ?_⟩
    · dsimp only
      rw [Map.get_insert, handlerNow_append (by simp)]
      by_cases hr : r = r'
      · subst hr
        rw [if_pos rfl]
        constructor
        · intro h; cases h
        · rintro ⟨h, _⟩
          obtain ⟨n'', hm⟩ := h.created
          exact absurd hm (hfresh _ _)
      · rw [if_neg hr, hi.table]; simp
    · rcases mem_set hm with hm | hm
      · obtain ⟨f, p, h₁, h₂⟩ := hi.creating r' n' hm
        exact ⟨f, p, List.mem_append_left _ h₁, h₂⟩
      · cases hm
        exact ⟨frame, path, by simp, hp, hn⟩
    · have h₁ := countP_set (a := .creating r n) (creatingOf r') hc
      have := hmk r'
      dsimp only
      rw [List.countP_append, List.countP_append]
      have he : [REv.asked r frame].countP (askedOf r') = if creatingOf r' (.creating r n) then 1 else 0 := by
        simp [askedOf, creatingOf]
      have hz : [REv.asked r frame].countP (createdOf r') = 0 := by simp [createdOf]
      have hca : creatingOf r' (.attached r frame) = false := rfl
      rw [hca] at h₁
      simp only [Bool.false_eq_true, if_false] at h₁
      omega
    · rcases mem_set hm with hm | hm
      · obtain ⟨⟨n, h₁⟩, h₂⟩ := hi.readying r' srv d t att hm
        exact ⟨⟨n, List.mem_append_left _ h₁⟩, List.mem_append_left _ h₂⟩
      · cases hm
    · rcases mem_set hm with hm | hm
      · obtain ⟨live, h₁⟩ := hi.serving r' srv d t att hm
        exact ⟨live, List.mem_append_left _ h₁⟩
      · cases hm
    · rcases List.mem_append.mp hm with hm | hm
      · exact hi.srvs r' srv n' hm
      · cases List.mem_singleton.mp hm
  case unrouted i r frame e hc hp =>
    exact plain i _ _ _ hc rfl rfl rfl (Nat.le_refl _) (asks r frame rfl) (by simp) (by simp) n₁ (fun _ _ _ _ _ h => absurd h (n₂ _ _ _ _ _)) (fun _ _ _ _ _ h => absurd h (n₃ _ _ _ _ _))
  case failed i r n e hc =>
    exact plain i _ _ [] hc rfl (by simp) rfl (Nat.le_refl _) hi.ordered (by simp) (by simp) n₁ (fun _ _ _ _ _ h => absurd h (n₂ _ _ _ _ _)) (fun _ _ _ _ _ h => absurd h (n₃ _ _ _ _ _))
  case made i r n hc hg =>
    exact made i r n _ [] hc rfl rfl rfl rfl (by simp) (by simp) (ordered_append hi.ordered (makes i r n hc).1) n₁ n₃
      (fun _ _ _ _ _ h => absurd h (n₂ _ _ _ _ _))
  case madeFetch i r n d t hc hg =>
    refine made i r n _ [.fetched r d t] hc rfl rfl rfl rfl (by simp) (by simp) ?_ (n₄ _ _ _ _ _) (n₆ _ _ _ _ _) ?_
    · have h₁ := ordered_append hi.ordered (makes i r n hc).1
      have h₂ := ordered_append (e := .fetched r d t) h₁ ⟨⟨_, handlerNow_new _ _ _ _⟩,
        fetches r d t (hcn'.fetched d) _ (by simp)⟩
      simpa using h₂
    · intro r' srv d' t' att hm
      cases hm
      exact ⟨⟨n, by simp⟩, by simp⟩
  case fetch i r srv d t hc hh hg =>
    have hnow := (hi.table r srv).mp hh
    refine plain i _ _ [.fetched r d t] hc rfl rfl rfl (Nat.le_refl _) ?_ (by simp) (by simp) (n₄ _ _ _ _ _) ?_
      (fun _ _ _ _ _ h => absurd h (n₆ _ _ _ _ _ _ _ _ _ _))
    · exact ordered_append hi.ordered ⟨⟨srv, hnow⟩, fetches r d t (hcn'.fetched d) _ rfl⟩
    · intro r' srv' d' t' att hm
      cases hm
      obtain ⟨n, hn⟩ := hnow.created
      exact ⟨⟨n, List.mem_append_left _ hn⟩, by simp⟩
  case idle i r hc =>
    exact plain i _ _ [] hc rfl (by simp) rfl (Nat.le_refl _) hi.ordered (by simp) (by simp) n₁ (fun _ _ _ _ _ h => absurd h (n₂ _ _ _ _ _)) (fun _ _ _ _ _ h => absurd h (n₃ _ _ _ _ _))
  case released i c rs hc hr =>
    refine ⟨ordered_appends hi.ordered (fun e he pre => ?_), fun r' srv => ?_, fun r' n' hm => ?_, fun r' => ?_,
      fun r' srv d t att hm => ?_, fun r' srv d t att hm => ?_, fun r' srv n' hm => ?_⟩
    · obtain ⟨x, _, rfl⟩ := List.mem_map.mp he; trivial
    · dsimp only
      rw [get_foldl_erase, handlerNow_append (by simp), ← hi.table]
      by_cases h : r' ∈ rs <;> simp [h]
    · rcases mem_set hm with hm | hm
      · obtain ⟨f, p, h₁, h₂⟩ := hi.creating r' n' hm
        exact ⟨f, p, List.mem_append_left _ h₁, h₂⟩
      · cases hm
    · have h₁ := countP_set (a := .done) (creatingOf r') hc
      have := hmk r'
      dsimp only
      rw [List.countP_append, List.countP_append]
      have hz : (rs.map REv.released).countP (createdOf r') = 0 :=
        List.countP_eq_zero.mpr fun e he => by obtain ⟨x, _, rfl⟩ := List.mem_map.mp he; simp [createdOf]
      have hca : creatingOf r' .done = false := rfl
      rw [hca] at h₁
      simp only [Bool.false_eq_true, if_false] at h₁
      omega
    · rcases mem_set hm with hm | hm
      · obtain ⟨⟨n, h₁⟩, h₂⟩ := hi.readying r' srv d t att hm
        exact ⟨⟨n, List.mem_append_left _ h₁⟩, List.mem_append_left _ h₂⟩
      · cases hm
    · rcases mem_set hm with hm | hm
      · obtain ⟨live, h₁⟩ := hi.serving r' srv d t att hm
        exact ⟨live, List.mem_append_left _ h₁⟩
      · cases hm
    · rcases List.mem_append.mp hm with hm | hm
      · exact hi.srvs r' srv n' hm
      · obtain ⟨_, _, h⟩ := List.mem_map.mp hm; cases h
  case unready i r srv d t att e hc =>
    exact plain i _ _ [] hc rfl (by simp) rfl (Nat.le_refl _) hi.ordered (by simp) (by simp) n₁ (fun _ _ _ _ _ h => absurd h (n₂ _ _ _ _ _)) (fun _ _ _ _ _ h => absurd h (n₃ _ _ _ _ _))
  case invoked i r srv d t att s hc hs =>
    obtain ⟨hn, hf⟩ := hi.readying r srv d t att (List.mem_of_getElem? hc)
    refine plain i _ _ [_] hc rfl rfl rfl (Nat.le_refl _) ?_ (by simp) (by simp) (n₅ _ _ _ _ _)
      (fun _ _ _ _ _ h => absurd h (n₇ _ _ _ _ _ _ _ _ _ _)) ?_
    · refine ordered_append hi.ordered ⟨hn, hf, fun r' srv' t' l hm => ?_, ?_⟩
      · have h₁ := hcn'.readying d
        have h₂ := hcn'.fetched d
        have := not_before (p := invokedOf d) (pre := σ.log)
          (e := .invoked r srv d t (σ.handlers.get r == some (some srv))) (by dsimp only at h₁ h₂; omega) (by simp [invokedOf]) hm
        simp [invokedOf] at this
      · rw [beq_iff_eq]; exact hi.table r srv
    · intro r' srv' d' t' att hm
      cases hm
      exact ⟨_, List.mem_append_right _ List.mem_cons_self⟩
  case answered i r srv d t att h hc =>
    refine plain i _ _ [_] hc rfl rfl rfl (Nat.le_refl _) ?_ (by simp) (by simp) n₁ (fun _ _ _ _ _ h => absurd h (n₂ _ _ _ _ _)) (fun _ _ _ _ _ h => absurd h (n₃ _ _ _ _ _))
    refine ordered_append hi.ordered ⟨hi.serving r srv d t att (List.mem_of_getElem? hc), fun r' srv' t' h' hm => ?_⟩
    have h₁ := hcn'.serving d
    have h₂ := hcn'.readying d
    have h₃ := hcn'.fetched d
    have := not_before (p := answeredOf d) (pre := σ.log) (e := .answered r srv d t h)
      (by dsimp only at h₁ h₂ h₃; omega) (by simp [answeredOf]) hm
    simp [answeredOf] at this
  case dropped i c d hc hd =>
    exact plain i _ _ [] hc rfl (by simp) rfl (Nat.le_refl _) hi.ordered (by simp) (by simp) n₁ (fun _ _ _ _ _ h => absurd h (n₂ _ _ _ _ _)) (fun _ _ _ _ _ h => absurd h (n₃ _ _ _ _ _))
  case cancelled i c hc hd =>
    exact plain i _ _ [] hc rfl (by simp) rfl (Nat.le_refl _) hi.ordered (by simp) (by simp) n₁ (fun _ _ _ _ _ h => absurd h (n₂ _ _ _ _ _)) (fun _ _ _ _ _ h => absurd h (n₃ _ _ _ _ _))

theorem Reachable.traced {σ : Router} (h : Reachable σ) : Traced σ := by
  refine (h.invariant (P := fun σ => (Session.Reachable σ.sess ∧ Counted σ ∧ Offered σ) ∧ Traced σ) ?_ ?_).2
  · rintro σ ⟨hf, hh, _, hc, hl⟩
    have hr : Reachable σ := ⟨σ, [], ⟨hf, hh, ‹_›, hc, hl⟩, rfl⟩
    refine ⟨⟨⟨_, [], hf, rfl⟩, hr.counted, hr.offered⟩, ?_⟩
    constructor
    · intro pre e post h; rw [hl] at h; exact absurd (congrArg List.length h) (by simp)
    · intro r srv
      rw [hh, hl]
      constructor
      · intro h; cases h
      · intro h; obtain ⟨n, hm⟩ := h.created; cases hm
    all_goals simp [hc, hl]
  · intro σ σ' h ⟨⟨hs, hc, ho⟩, ht⟩
    have h' : Session.Reachable σ'.sess ∧ Counted σ' ∧ Offered σ' := ⟨h.reachable hs, h.counted hs hc, h.offered hs ho⟩
    exact ⟨h', h.traced hc h'.2.1 h'.2.2 ht⟩

end Router
end Amqp.Rt
