import Mathlib.Data.List.Perm.Subperm
import Mathlib.Data.List.Nodup
import Verif.Lemmas.SessionCredit
/-!
# What happens to a send
-/

namespace Amqp.Rt
open Session

/-! ## Every send is charged once, and goes out at most once -/

inductive Phase
  | credit
  | window
  | over
deriving DecidableEq

def SendState.phase : SendState → Phase
  | .credit .. => .credit
  | .window .. => .window
  | _ => .over

@[simp] theorem Session.SendTask.wake_phase (m) (x : SendTask) : (SendTask.wake m x).st.phase = x.st.phase := by
  rcases x with ⟨req, st⟩
  cases st with
  | credit tag mail => cases mail <;> rfl
  | window tag mail => cases mail <;> rfl
  | done _ => rfl
  | cancelled => rfl

/-- The sends that used credit, and the link. -/
def tooks (log : List Ev) : List (Ref × Ref) := log.filterMap fun
  | .took t r => some (t, r)
  | _ => none

/-- The sends that went out, and the link. -/
def beguns (log : List Ev) : List (Ref × Ref) := log.filterMap fun
  | .begun t r _ => some (t, r)
  | _ => none

@[simp] theorem tooks_append (a b : List Ev) : tooks (a ++ b) = tooks a ++ tooks b := by simp [tooks]
@[simp] theorem beguns_append (a b : List Ev) : beguns (a ++ b) = beguns a ++ beguns b := by simp [beguns]

def Ev.Task : Ev → Prop
  | .took .. | .begun .. => True
  | _ => False

theorem tooks_quiet {evs : List Ev} (h : ∀ e ∈ evs, ¬ e.Task) : tooks evs = [] := by
  apply List.filterMap_eq_nil_iff.mpr
  intro e he
  cases e <;> first | rfl | exact (h _ he trivial).elim

theorem beguns_quiet {evs : List Ev} (h : ∀ e ∈ evs, ¬ e.Task) : beguns evs = [] := by
  apply List.filterMap_eq_nil_iff.mpr
  intro e he
  cases e <;> first | rfl | exact (h _ he trivial).elim

theorem Ev.Inert.not_task {e : Ev} (h : e.Inert) : ¬ e.Task := by
  cases e <;> first | exact fun h => h | exact h.elim

theorem frames_not_task (l : List Frame) : ∀ e ∈ l.map Ev.frame, ¬ e.Task := by
  simp only [List.mem_map, forall_exists_index, and_imp]
  rintro _ f _ rfl h
  exact h

/-- The phase of a send does not change except that it may be over. -/
def Calm (s s' : Session) : Prop :=
  s.sends.length ≤ s'.sends.length ∧
  ∀ (t : Ref) x', s'.sends[t]? = some x' →
    (∃ x, s.sends[t]? = some x ∧ x.req = x'.req ∧ (x'.st.phase = x.st.phase ∨ x'.st.phase = .over)) ∨
      (s.sends.length = t ∧ x'.st.phase ≠ .window)

theorem Calm.same {s s' : Session} (h : s'.sends = s.sends) : Calm s s' :=
  ⟨by rw [h]; exact Nat.le_refl _, fun t x hx => .inl ⟨x, by rw [← h]; exact hx, rfl, .inl rfl⟩⟩

theorem Calm.upd {s s' : Session} (hlen : s'.sends.length = s.sends.length) (p : Ref → Prop) [DecidablePred p]
    (f : SendTask → SendTask)
    (hf : ∀ x, (f x).req = x.req ∧ ((f x).st.phase = x.st.phase ∨ (f x).st.phase = .over))
    (h : ∀ t, s'.sends[t]? = if p t then s.sends[t]?.map f else s.sends[t]?) : Calm s s' := by
  refine ⟨Nat.le_of_eq hlen.symm, fun t x hx => .inl ?_⟩
  rw [h] at hx
  split at hx
  · obtain ⟨y, hy, rfl⟩ := Option.map_eq_some_iff.mp hx
    exact ⟨y, hy, (hf y).1.symm, (hf y).2⟩
  · exact ⟨x, hx, rfl, .inl rfl⟩

theorem Calm.grown {s s' : Session} (y : SendTask) (h : s'.sends = s.sends ++ [y]) (hy : y.st.phase ≠ .window) :
    Calm s s' := by
  refine ⟨by rw [h]; simp, fun t x hx => ?_⟩
  rw [h, List.getElem?_append] at hx
  split at hx
  · exact .inl ⟨x, hx, rfl, .inl rfl⟩
  · next hlt =>
    right
    rcases hk : t - s.sends.length with _ | k
    · rw [hk] at hx
      have : y = x := by simpa using hx
      subst this
      exact ⟨Nat.le_antisymm (Nat.le_of_not_lt hlt) (Nat.le_of_sub_eq_zero hk), hy⟩
    · rw [hk] at hx; simp at hx

inductive TaskView (s s' : Session) : Prop
  | quiet (evs) (hl : s'.log = s.log ++ evs) (he : ∀ e ∈ evs, ¬ e.Task) (hc : Calm s s')
  | park (t req) (x : SendTask) (hx : s.sends[t]? = some x) (hp : x.st.phase = .credit) (hr : x.req = req)
      (hl : s'.log = s.log ++ [.took t req.link]) (hlen : s'.sends.length = s.sends.length)
      (ht : ∀ t' : Ref, t ≠ t' → s'.sends[t']? = s.sends[t']?)
      (ht' : ∀ x', s'.sends[t]? = some x' → x'.req = req ∧ x'.st.phase = .window)
  | send (t req id evs) (x : SendTask) (hx : s.sends[t]? = some x) (hp : x.st.phase = .credit) (hr : x.req = req)
      (hl : s'.log = s.log ++ .took t req.link :: .begun t req.link id :: evs) (he : ∀ e ∈ evs, ¬ e.Task)
      (hlen : s'.sends.length = s.sends.length)
      (ht : ∀ t' : Ref, t ≠ t' → s'.sends[t']? = s.sends[t']?)
      (ht' : ∀ x', s'.sends[t]? = some x' → x'.req = req ∧ x'.st.phase = .over)
  | emit (t req id evs) (x : SendTask) (hx : s.sends[t]? = some x) (hp : x.st.phase = .window) (hr : x.req = req)
      (hl : s'.log = s.log ++ .begun t req.link id :: evs) (he : ∀ e ∈ evs, ¬ e.Task)
      (hlen : s'.sends.length = s.sends.length)
      (ht : ∀ t' : Ref, t ≠ t' → s'.sends[t']? = s.sends[t']?)
      (ht' : ∀ x', s'.sends[t]? = some x' → x'.req = req ∧ x'.st.phase = .over)

@[simp] theorem sndRemoteDetached_sends_length (s : Session) (r : Ref) (e : PErr) :
    (s.sndRemoteDetached r e).sends.length = s.sends.length := by
  unfold sndRemoteDetached; split <;> simp

@[simp] theorem applyFlow_sends_length (s : Session) (r : Ref) (f : Flow) :
    (s.applyFlow r f).sends.length = s.sends.length := by
  unfold applyFlow; dsimp only; split
  · split <;> simp
  · simp

@[simp] theorem emit_sends_length (s : Session) (t : Ref) (req : SendReq) (h : UInt32) (tag : Bytes) :
    (s.emit t req h tag).sends.length = s.sends.length := by
  unfold emit finishSend
  dsimp only
  split
  · simp
  · split <;> simp

theorem Micro.task {s s' : Session} (h : Micro s s') : TaskView s s' := by
  cases h
  case note e he => exact .quiet [e] rfl (by simpa using he.inert.not_task) (.same rfl)
  case sendRefused req e l hl _ => exact .quiet [] (by simp) (by simp) (.grown _ rfl (by simp [SendState.phase]))
  case sendNew req tag l hl _ _ _ _ => exact .quiet [] (by simp) (by simp) (.grown _ rfl (by simp [SendState.phase]))
  case sndFailed r e _ _ =>
    exact .quiet [] (by simp) (by simp) (.upd (by simp) _ _ (by simp) (sndRemoteDetached_get _ _ _))
  case flowLink r f _ =>
    exact .quiet [_] (by simp; rfl) (by simp [Ev.Task]) (.upd (by simp) _ _ (by simp) (applyFlow_get _ _ _))
  case drainWindow p m _ =>
    exact .quiet [] (by simp) (by simp) (.upd (by simp) _ _ (by simp) (wakeAll_get _ _ _))
  case parkCredit t req tag l ht hl h =>
    refine .quiet [] (by simp) (by simp) ⟨by simp, fun t' x' hx => .inl ?_⟩
    rw [modSnd_sends, modSend_get] at hx
    split at hx
    · next h =>
      subst h
      rw [ht] at hx
      obtain rfl : _ = x' := by simpa using hx
      exact ⟨_, ht, rfl, .inl rfl⟩
    · exact ⟨x', hx, rfl, .inl rfl⟩
  case parkWindow t req tag l ht hl h hp hw =>
    refine .park t req _ ht rfl rfl (by simp) (by simp) (fun t' hne => ?_) (fun x' hx => ?_)
    · exact (modSend_get _ _ _ _).trans (by simp [hne])
    · have hx := (modSend_get _ _ _ _).symm.trans hx
      rw [if_pos rfl, takeCredit_sends, ht] at hx
      obtain rfl : _ = x' := by simpa using hx
      exact ⟨rfl, rfl⟩
  case sendNow t req tag l ht hl h hp hw =>
    refine .send t req _ _ _ ht rfl rfl (by rw [emit_log]; simp only [takeCredit_log, List.append_assoc]; rfl)
      (frames_not_task _) (by simp) (fun t' hne => ?_) (fun x' hx => ?_)
    · exact (emit_get _ _ _ _ _ _).trans (by simp [hne])
    · have hx := (emit_get _ _ _ _ _ _).symm.trans hx
      rw [if_pos rfl, takeCredit_sends, ht] at hx
      obtain rfl : _ = x' := by simpa using hx
      exact ⟨rfl, rfl⟩
  case reparkWindow t req tag l ht hl hw =>
    refine .quiet [] (by simp) (by simp) ⟨by simp, fun t' x' hx => .inl ?_⟩
    have hx := (modSend_get _ _ _ _).symm.trans hx
    split at hx
    · next h =>
      subst h
      rw [ht] at hx
      obtain rfl : _ = x' := by simpa using hx
      exact ⟨_, ht, rfl, .inl rfl⟩
    · exact ⟨x', hx, rfl, .inl rfl⟩
  case emitParked t req tag l ht hl hw =>
    refine .emit t req _ _ _ ht rfl rfl (by rw [emit_log])
      (frames_not_task _) (by simp) (fun t' hne => ?_) (fun x' hx => ?_)
    · exact (emit_get _ _ _ _ _ _).trans (by simp [hne])
    · have hx := (emit_get _ _ _ _ _ _).symm.trans hx
      rw [if_pos rfl, ht] at hx
      obtain rfl : _ = x' := by simpa using hx
      exact ⟨rfl, rfl⟩
  case sendFailed t x e _ _ =>
    exact .quiet [] (by simp) (by simp) (.upd (by simp [finishSend]) _ _ (by simp [SendState.phase]) (fun t' => finishSend_get _ _ _ _))
  case sendCancel t =>
    refine .quiet [] (by simp) (by simp) (.upd (by simp [Session.sendCancel]) _ _ ?_ (sendCancel_get _ _))
    intro x
    split
    · exact ⟨rfl, .inl rfl⟩
    · exact ⟨rfl, .inr rfl⟩
  case settle d st _ =>
    rcases settle_log s d st with h | ⟨x, _, h⟩
    · exact .quiet [] (by simp [h]) (by simp) (.same (by simp))
    · exact .quiet _ h (by simp [Ev.Task]) (.same (by simp))
  case update d st _ =>
    rcases updateState_log s d st with h | ⟨x, _, h⟩
    · exact .quiet [] (by simp [h]) (by simp) (.same (by simp))
    · exact .quiet _ h (by simp [Ev.Task]) (.same (by simp))
  case dropDlv d _ =>
    rcases dropDelivery_log s d with h | ⟨x, _, h⟩
    · exact .quiet [] (by simp [h]) (by simp) (.same (by simp))
    · exact .quiet _ h (by simp [Ev.Task]) (.same (by simp))
  case flowSess f => exact .quiet [_] rfl (by simp [Ev.Task]) (.same rfl)
  case grant r n l hl => exact .quiet [_] rfl (by simp [Ev.Task]) (.same rfl)
  case recvNoCredit => exact .quiet [_] rfl (by simp [Ev.Task]) (.same rfl)
  case recvRefused => exact .quiet [_] rfl (by simp [Ev.Task]) (.same rfl)
  case recvMerge => exact .quiet [_] rfl (by simp [Ev.Task]) (.same rfl)
  case recvLast => exact .quiet [_] rfl (by simp [Ev.Task]) (.same rfl)
  case recvLost => exact .quiet [_] rfl (by simp [Ev.Task]) (.same rfl)
  case recvFirst => exact .quiet [_] (by simp; rfl) (by simp [Ev.Task]) (.same (by simp))
  case recvSingle => exact .quiet [_] (by simp; rfl) (by simp [Ev.Task]) (.same (by simp))
  case handed => exact .quiet [_] rfl (by simp [Ev.Task]) (.same rfl)
  all_goals exact .quiet [] (by first | rfl | simp) (by simp) (.same (by first | rfl | simp))

structure TaskInv (s : Session) : Prop where
  once : ((tooks s.log).map Prod.fst).Nodup
  out : ((beguns s.log).map Prod.fst).Nodup
  charged : ∀ p ∈ beguns s.log, p ∈ tooks s.log
  known : ∀ p ∈ tooks s.log, p.1 < s.sends.length
  credit : ∀ (t : Ref) x, s.sends[t]? = some x → x.st.phase = .credit → ∀ r, (t, r) ∉ tooks s.log
  window : ∀ (t : Ref) x, s.sends[t]? = some x → x.st.phase = .window →
    (t, x.req.link) ∈ tooks s.log ∧ ∀ r, (t, r) ∉ beguns s.log

theorem nodup_snoc {l : List (Ref × Ref)} (h : (l.map Prod.fst).Nodup) {t r : Ref} (ht : ∀ r', (t, r') ∉ l) :
    ((l ++ [(t, r)]).map Prod.fst).Nodup := by
  rw [List.map_append]
  refine List.nodup_append.mpr ⟨h, by simp, ?_⟩
  intro a ha b hb
  obtain ⟨p, hp, rfl⟩ := List.mem_map.mp ha
  simp only [List.map_cons, List.map_nil, List.mem_singleton] at hb
  subst hb
  rintro rfl
  exact ht p.2 hp

theorem Micro.taskInv {s s' : Session} (h : Micro s s') (hi : TaskInv s) : TaskInv s' := by
  cases h.task with
  | quiet evs hl he hc =>
    have h₁ : tooks s'.log = tooks s.log := by rw [hl, tooks_append, tooks_quiet he, List.append_nil]
    have h₂ : beguns s'.log = beguns s.log := by rw [hl, beguns_append, beguns_quiet he, List.append_nil]
    constructor
    · rw [h₁]; exact hi.once
    · rw [h₂]; exact hi.out
    · rw [h₁, h₂]; exact hi.charged
    · rw [h₁]; exact fun p hp => Nat.lt_of_lt_of_le (hi.known p hp) hc.1
    · intro t x' hx hp r
      rw [h₁]
      rcases hc.2 t x' hx with ⟨x, hx, hr, hph | hph⟩ | ⟨rfl, _⟩
      · exact hi.credit t x hx (hph.symm.trans hp) r
      · rw [hp] at hph; exact absurd hph (by simp)
      · intro hm; exact absurd (hi.known _ hm) (Nat.lt_irrefl _)
    · intro t x' hx hp
      rw [h₁, h₂]
      rcases hc.2 t x' hx with ⟨x, hx, hr, hph | hph⟩ | ⟨rfl, hph⟩
      · rw [← hr]; exact hi.window t x hx (hph.symm.trans hp)
      · rw [hp] at hph; exact absurd hph (by simp)
      · exact (hph hp).elim
  | park t req x hx hp hr hl hlen ht ht' =>
    have h₁ : tooks s'.log = tooks s.log ++ [(t, req.link)] := by rw [hl, tooks_append]; rfl
    have h₂ : beguns s'.log = beguns s.log := by rw [hl, beguns_append]; simp [beguns]
    have hno := hi.credit t x hx hp
    constructor
    · rw [h₁]; exact nodup_snoc hi.once hno
    · rw [h₂]; exact hi.out
    · rw [h₁, h₂]; exact fun p hp => List.mem_append_left _ (hi.charged p hp)
    · rw [h₁, hlen]
      intro p hp
      rcases List.mem_append.mp hp with hp | hp
      · exact hi.known p hp
      · simp only [List.mem_singleton] at hp
        subst hp
        exact (List.getElem?_eq_some_iff.mp hx).1
    · intro t' y hy hph r hm
      rw [h₁] at hm
      by_cases hne : t = t'
      · subst hne; rw [(ht' y hy).2] at hph; exact absurd hph (by simp)
      · rw [ht t' hne] at hy
        rcases List.mem_append.mp hm with hm | hm
        · exact hi.credit t' y hy hph r hm
        · simp only [List.mem_singleton, Prod.mk.injEq] at hm; exact hne hm.1.symm
    · intro t' y hy hph
      rw [h₁, h₂]
      by_cases hne : t = t'
      · subst hne
        rw [(ht' y hy).1]
        exact ⟨by simp, fun r hm => hno r (hi.charged _ hm)⟩
      · rw [ht t' hne] at hy
        have := hi.window t' y hy hph
        exact ⟨List.mem_append_left _ this.1, this.2⟩
  | send t req id evs x hx hp hr hl he hlen ht ht' =>
    have h₁ : tooks s'.log = tooks s.log ++ [(t, req.link)] := by
      have := tooks_quiet he
      rw [hl, tooks_append]
      simp only [tooks, List.filterMap_cons] at this ⊢
      rw [this]
    have h₂ : beguns s'.log = beguns s.log ++ [(t, req.link)] := by
      have := beguns_quiet he
      rw [hl, beguns_append]
      simp only [beguns, List.filterMap_cons] at this ⊢
      rw [this]
    have hno := hi.credit t x hx hp
    constructor
    · rw [h₁]; exact nodup_snoc hi.once hno
    · rw [h₂]; exact nodup_snoc hi.out (fun r hm => hno r (hi.charged _ hm))
    · rw [h₁, h₂]
      intro p hp
      rcases List.mem_append.mp hp with hp | hp
      · exact List.mem_append_left _ (hi.charged p hp)
      · exact List.mem_append_right _ hp
    · rw [h₁, hlen]
      intro p hp
      rcases List.mem_append.mp hp with hp | hp
      · exact hi.known p hp
      · simp only [List.mem_singleton] at hp
        subst hp
        exact (List.getElem?_eq_some_iff.mp hx).1
    · intro t' y hy hph r hm
      rw [h₁] at hm
      by_cases hne : t = t'
      · subst hne; rw [(ht' y hy).2] at hph; exact absurd hph (by simp)
      · rw [ht t' hne] at hy
        rcases List.mem_append.mp hm with hm | hm
        · exact hi.credit t' y hy hph r hm
        · simp only [List.mem_singleton, Prod.mk.injEq] at hm; exact hne hm.1.symm
    · intro t' y hy hph
      rw [h₁, h₂]
      by_cases hne : t = t'
      · subst hne; rw [(ht' y hy).2] at hph; exact absurd hph (by simp)
      · rw [ht t' hne] at hy
        have := hi.window t' y hy hph
        refine ⟨List.mem_append_left _ this.1, fun r hm => ?_⟩
        rcases List.mem_append.mp hm with hm | hm
        · exact this.2 r hm
        · simp only [List.mem_singleton, Prod.mk.injEq] at hm; exact hne hm.1.symm
  | emit t req id evs x hx hp hr hl he hlen ht ht' =>
    have h₁ : tooks s'.log = tooks s.log := by
      have := tooks_quiet he
      rw [hl, tooks_append]
      simp only [tooks, List.filterMap_cons] at this ⊢
      rw [this, List.append_nil]
    have h₂ : beguns s'.log = beguns s.log ++ [(t, req.link)] := by
      have := beguns_quiet he
      rw [hl, beguns_append]
      simp only [beguns, List.filterMap_cons] at this ⊢
      rw [this]
    have hyes := hi.window t x hx hp
    constructor
    · rw [h₁]; exact hi.once
    · rw [h₂]; exact nodup_snoc hi.out hyes.2
    · rw [h₁, h₂]
      intro p hp
      rcases List.mem_append.mp hp with hp | hp
      · exact hi.charged p hp
      · simp only [List.mem_singleton] at hp
        subst hp; rw [← hr]; exact hyes.1
    · rw [h₁, hlen]; exact hi.known
    · intro t' y hy hph r hm
      rw [h₁] at hm
      by_cases hne : t = t'
      · subst hne; rw [(ht' y hy).2] at hph; exact absurd hph (by simp)
      · rw [ht t' hne] at hy
        exact hi.credit t' y hy hph r hm
    · intro t' y hy hph
      rw [h₁, h₂]
      by_cases hne : t = t'
      · subst hne; rw [(ht' y hy).2] at hph; exact absurd hph (by simp)
      · rw [ht t' hne] at hy
        have := hi.window t' y hy hph
        refine ⟨this.1, fun r hm => ?_⟩
        rcases List.mem_append.mp hm with hm | hm
        · exact this.2 r hm
        · simp only [List.mem_singleton, Prod.mk.injEq] at hm; exact hne hm.1.symm

theorem Session.Reachable.taskInv {s : Session} (h : Reachable s) : TaskInv s := by
  refine h.invariant ?_ (fun _ _ h => h.taskInv)
  rintro s ⟨id, b, mfs, ch, b, rfl⟩
  constructor <;> simp [Session.new, tooks, beguns]

/-- Every event of the log satisfies `G`, which may refer to what came before. -/
def Always (G : List Ev → Ev → Prop) (log : List Ev) : Prop := ∀ pre e post, log = pre ++ e :: post → G pre e

theorem Always.nil (G) : Always G [] := by intro pre e post h; simp at h

theorem Always.append {G} {log evs : List Ev} (h : Always G log)
    (he : ∀ pre e post, evs = pre ++ e :: post → G (log ++ pre) e) : Always G (log ++ evs) := by
  intro pre e post heq
  rcases List.append_eq_append_iff.mp heq with ⟨as, h₁, h₂⟩ | ⟨bs, h₁, h₂⟩
  · rw [h₁]; exact he as e post h₂
  · rcases bs with _ | ⟨b, bs⟩
    · have h₂ : e :: post = evs := h₂
      rw [List.append_nil] at h₁
      have := he [] e post (by rw [← h₂]; rfl)
      rw [List.append_nil, h₁] at this
      exact this
    · simp only [List.cons_append, List.cons.injEq] at h₂
      obtain ⟨rfl, _⟩ := h₂
      exact h pre e bs h₁

theorem Always.append_quiet {G} {log evs : List Ev} (h : Always G log)
    (he : ∀ e ∈ evs, ∀ pre, G pre e) : Always G (log ++ evs) :=
  h.append fun pre e post heq => he e (by rw [heq]; simp) _

/-- A delivery goes out after its send was charged. -/
def ChargedFirst (pre : List Ev) : Ev → Prop
  | .begun t r _ => (t, r) ∈ tooks pre
  | _ => True

theorem ChargedFirst.quiet {e : Ev} (h : ¬ e.Task) (pre) : ChargedFirst pre e := by
  cases e <;> first | trivial | exact (h trivial).elim

theorem Micro.chargedFirst {s s' : Session} (h : Micro s s') (hi : TaskInv s) (hc : Always ChargedFirst s.log) :
    Always ChargedFirst s'.log := by
  cases h.task with
  | quiet evs hl he _ => rw [hl]; exact hc.append_quiet fun e h pre => .quiet (he e h) pre
  | park t req x hx hp hr hl hlen ht ht' => rw [hl]; exact hc.append_quiet (by simp [ChargedFirst])
  | send t req id evs x hx hp hr hl he hlen ht ht' =>
    rw [hl, List.append_cons, List.append_cons]
    refine Always.append_quiet (Always.append (hc.append_quiet (by simp [ChargedFirst])) ?_)
      fun e h pre => .quiet (he e h) pre
    intro pre e post heq
    rcases pre with _ | ⟨a, pre⟩
    · simp only [List.nil_append, List.cons.injEq] at heq
      obtain ⟨rfl, _⟩ := heq
      show _ ∈ tooks _
      simp [tooks]
    · simp at heq
  | emit t req id evs x hx hp hr hl he hlen ht ht' =>
    rw [hl, List.append_cons]
    refine Always.append_quiet (Always.append hc ?_) fun e h pre => .quiet (he e h) pre
    intro pre e post heq
    rcases pre with _ | ⟨a, pre⟩
    · simp only [List.nil_append, List.cons.injEq] at heq
      obtain ⟨rfl, _⟩ := heq
      show _ ∈ tooks _
      rw [List.append_nil, ← hr]
      exact (hi.window t x hx hp).1
    · simp at heq

theorem Session.Reachable.chargedFirst {s : Session} (h : Reachable s) : Always ChargedFirst s.log := by
  have : TaskInv s ∧ Always ChargedFirst s.log := by
    refine h.invariant (P := fun s => TaskInv s ∧ Always ChargedFirst s.log) ?_
      (fun _ _ hm hp => ⟨hm.taskInv hp.1, hm.chargedFirst hp.1 hp.2⟩)
    intro s hf
    refine ⟨Reachable.taskInv ⟨s, [], hf, rfl⟩, ?_⟩
    obtain ⟨id, b, mfs, ch, b, rfl⟩ := hf
    exact .nil _
  exact this.2

/-- At no time has a link sent more deliveries than it was charged for. -/
theorem Session.Reachable.begunOn_le {s : Session} (h : Reachable s) (r : Ref) (pre post : List Ev)
    (hlog : s.log = pre ++ post) : begunOn r pre ≤ taken r pre := by
  have h₁ : begunOn r pre = ((beguns pre).filter fun p => p.2 == r).length := by
    unfold begunOn beguns
    rw [← List.countP_eq_length_filter, List.countP_filterMap]
    apply List.countP_congr
    intro e _
    cases e <;> simp
  have h₂ : taken r pre = ((tooks pre).filter fun p => p.2 == r).length := by
    unfold taken tooks
    rw [← List.countP_eq_length_filter, List.countP_filterMap]
    apply List.countP_congr
    intro e _
    cases e <;> simp
  rw [h₁, h₂]
  refine (List.Nodup.subperm ?_ ?_).length_le
  · have := h.taskInv.out
    rw [hlog, beguns_append, List.map_append] at this
    exact (List.Nodup.of_map _ (List.nodup_append.mp this).1).filter _
  · intro p hp
    rw [List.mem_filter] at hp ⊢
    refine ⟨?_, hp.2⟩
    obtain ⟨e, he, hep⟩ := List.mem_filterMap.mp hp.1
    obtain ⟨a, b, rfl⟩ := List.append_of_mem he
    cases e <;> simp at hep
    next t r' id =>
    subst hep
    have := h.chargedFirst a (.begun t r' id) (b ++ post) (by rw [hlog]; simp)
    have this : (t, r') ∈ tooks a := this
    rw [tooks_append]
    exact List.mem_append_left _ this

end Amqp.Rt
