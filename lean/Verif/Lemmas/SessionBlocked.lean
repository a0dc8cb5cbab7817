import Verif.Lemmas.SessionWaitOk
/-!
# Blocked sends are queued somewhere
-/

namespace Amqp.Rt
open Session

/-! ## Blocked on credit -/

theorem SendTask.wake_credit {m} {x : SendTask} {tag} (h : (SendTask.wake m x).st = .credit tag none) : False := by
  rcases x with ⟨req, st⟩
  cases st with
  | credit tag mail => cases mail <;> simp [SendTask.wake] at h
  | window tag mail => cases mail <;> simp [SendTask.wake] at h
  | done _ => simp [SendTask.wake] at h
  | cancelled => simp [SendTask.wake] at h

theorem SendTask.wake_window {m} {x : SendTask} {tag} (h : (SendTask.wake m x).st = .window tag none) : False := by
  rcases x with ⟨req, st⟩
  cases st with
  | credit tag mail => cases mail <;> simp [SendTask.wake] at h
  | window tag mail => cases mail <;> simp [SendTask.wake] at h
  | done _ => simp [SendTask.wake] at h
  | cancelled => simp [SendTask.wake] at h

/-- A send blocked on credit is in its link's queue. -/
def CreditQueued (s : Session) : Prop :=
  ∀ (t : Ref) (x : SendTask) (tag : Bytes), s.sends[t]? = some x → x.st = .credit tag none →
    ∃ l, s.snd? x.req.link = some l ∧ t ∈ l.pending

/-- A send blocked on the window is in the session's queue, under its link's own handle. -/
def WindowQueued (s : Session) : Prop :=
  ∀ (t : Ref) (x : SendTask) (tag : Bytes), s.sends[t]? = some x → x.st = .window tag none →
    ∃ l, s.snd? x.req.link = some l ∧ (t, UInt32.ofNat l.id) ∈ s.pendingTransfers

theorem Micro.creditQueued {s s' : Session} (h : Micro s s') (hi : CreditQueued s) : CreditQueued s' := by
  intro t x tag hx hst
  -- the future is as before, and the queue has not lost it
  have keep : s.sends[t]? = some x → (∀ l, s.snd? x.req.link = some l → t ∈ l.pending →
      ∃ l', s'.snd? x.req.link = some l' ∧ t ∈ l'.pending) → ∃ l', s'.snd? x.req.link = some l' ∧ t ∈ l'.pending := by
    intro h₁ h₂
    obtain ⟨l, hl, ht⟩ := hi t x tag h₁ hst
    exact h₂ l hl ht
  have same : s'.snds = s.snds → ∀ l, s.snd? x.req.link = some l → t ∈ l.pending →
      ∃ l', s'.snd? x.req.link = some l' ∧ t ∈ l'.pending :=
    fun h l hl ht => ⟨l, by rw [snd?_congr h]; exact hl, ht⟩
  have grown : ∀ y, s'.snds = s.snds ++ [y] → ∀ l, s.snd? x.req.link = some l → t ∈ l.pending →
      ∃ l', s'.snd? x.req.link = some l' ∧ t ∈ l'.pending := by
    intro y h l hl ht
    refine ⟨l, ?_, ht⟩
    unfold snd?
    rw [h, List.getElem?_append_left (snd?_lt hl)]
    exact hl
  have upd : ∀ (r : Ref) (f : Snd → Snd), (∀ l, ∀ t ∈ l.pending, t ∈ (f l).pending) →
      (∀ r', s'.snd? r' = if r = r' then (s.snd? r').map f else s.snd? r') →
      ∀ l, s.snd? x.req.link = some l → t ∈ l.pending → ∃ l', s'.snd? x.req.link = some l' ∧ t ∈ l'.pending := by
    intro r f hf h l hl ht
    rw [h, hl]
    split
    · exact ⟨_, rfl, hf l t ht⟩
    · exact ⟨_, rfl, ht⟩
  -- a future among the woken ones is not blocked
  have woken : ∀ (p : Ref → Prop) [DecidablePred p] (m),
      (∀ t : Ref, s'.sends[t]? = if p t then s.sends[t]?.map (SendTask.wake m) else s.sends[t]?) →
      ¬ p t ∧ s.sends[t]? = some x := by
    intro p _ m h
    rw [h] at hx
    split at hx
    · obtain ⟨y, _, rfl⟩ := Option.map_eq_some_iff.mp hx
      exact (SendTask.wake_credit hst).elim
    · next hp => exact ⟨hp, hx⟩
  cases h
  case estSndLocal => exact keep hx (grown _ rfl)
  case newSnd => exact keep hx (grown _ rfl)
  case sndClosed => exact keep hx (upd _ _ (by simp) (modSnd_snd? _ _ · _))
  case sndLimit => exact keep hx (upd _ _ (by simp) (modSnd_snd? _ _ · _))
  case sndTag => exact keep hx (upd _ _ (by simp) (modSnd_snd? _ _ · _))
  case sndFailed r e _ _ =>
    obtain ⟨hp, hx⟩ := woken _ _ (sndRemoteDetached_get s r e)
    refine keep hx (fun l hl ht => ?_)
    rw [sndRemoteDetached_snd?]
    split
    · next hr => subst hr; simp [hl, ht] at hp
    · exact ⟨l, hl, ht⟩
  case flowLink r f _ =>
    obtain ⟨hp, hx⟩ := woken _ _ (applyFlow_get s r f)
    refine keep hx (fun l hl ht => ?_)
    rw [applyFlow_snd?]
    split
    · next hr =>
      subst hr
      rw [hl]
      refine ⟨_, rfl, ?_⟩
      unfold Snd.flow
      cases hc : f.linkCredit with
      | none => exact ht
      | some c => simp [hl, ht, hc] at hp
    · exact ⟨l, hl, ht⟩
  case drainWindow p m _ =>
    obtain ⟨hp, hx⟩ := woken _ _ (wakeAll_get s _ m)
    exact keep hx (same (by simp))
  case sendRefused req e l hl _ =>
    rw [List.getElem?_append] at hx
    split at hx
    · exact keep hx (same rfl)
    · obtain ⟨_, rfl⟩ := List.getElem?_eq_some_iff.mp hx
      simp at hst
  case sendNew req tag' l hl _ _ _ _ =>
    rw [List.getElem?_append] at hx
    split at hx
    · exact keep hx (same rfl)
    · obtain ⟨_, rfl⟩ := List.getElem?_eq_some_iff.mp hx
      simp at hst
  case parkCredit t' req tag' l ht hl h =>
    rw [modSnd_sends, modSend_get] at hx
    split at hx
    · next heq =>
      subst heq
      rw [ht] at hx
      obtain rfl : _ = x := by simpa using hx
      refine ⟨{ l with pending := l.pending ++ [t'] }, (modSnd_snd? _ _ _ _).trans ?_, by simp⟩
      rw [if_pos rfl]
      exact congrArg (Option.map _) hl
    · exact keep hx (upd req.link (fun l => { l with pending := l.pending ++ [t'] })
        (fun l u hu => by simp [hu]) (modSnd_snd? _ _ · _))
  case parkWindow t' req tag' l ht hl h hp hw =>
    have hx := (modSend_get _ _ _ _).symm.trans hx
    split at hx
    · obtain ⟨y, _, rfl⟩ := Option.map_eq_some_iff.mp hx
      simp at hst
    · exact keep hx (upd req.link _ (by simp) (takeCredit_snd? s t' req.link))
  case sendNow t' req tag' l ht hl h hp hw =>
    have hx := (emit_get _ _ _ _ _ _).symm.trans hx
    split at hx
    · obtain ⟨y, _, rfl⟩ := Option.map_eq_some_iff.mp hx
      simp at hst
    · exact keep hx (upd req.link _ (by simp)
        (fun r => (snd?_congr (emit_snds _ _ _ _ _) r).trans (takeCredit_snd? s t' req.link r)))
  case reparkWindow t' req tag' l ht hl hw =>
    have hx := (modSend_get _ _ _ _).symm.trans hx
    split at hx
    · obtain ⟨y, _, rfl⟩ := Option.map_eq_some_iff.mp hx
      simp at hst
    · exact keep hx (same rfl)
  case emitParked t' req tag' l ht hl hw =>
    have hx := (emit_get _ _ _ _ _ _).symm.trans hx
    split at hx
    · obtain ⟨y, _, rfl⟩ := Option.map_eq_some_iff.mp hx
      simp at hst
    · exact keep hx (same (emit_snds _ _ _ _ _))
  case sendFailed t' y e _ _ =>
    rw [finishSend_get] at hx
    split at hx
    · obtain ⟨y, _, rfl⟩ := Option.map_eq_some_iff.mp hx
      simp at hst
    · exact keep hx (same rfl)
  case sendCancel t' =>
    rw [sendCancel_get] at hx
    split at hx
    · obtain ⟨y, hy, rfl⟩ := Option.map_eq_some_iff.mp hx
      split at hst
      · next h => rw [h] at hst; simp at hst
      · simp at hst
    · exact keep hx (same rfl)
  all_goals exact keep (by simpa using hx) (same (by first | rfl | simp))

theorem Micro.windowQueued {s s' : Session} (h : Micro s s') (hi : WindowQueued s) : WindowQueued s' := by
  intro t x tag hx hst
  have hk := h
  have keep : s.sends[t]? = some x → (∀ p ∈ s.pendingTransfers, p.1 = t → p ∈ s'.pendingTransfers) →
      ∃ l, s'.snd? x.req.link = some l ∧ (t, UInt32.ofNat l.id) ∈ s'.pendingTransfers := by
    intro h₁ h₂
    obtain ⟨l, hl, ht⟩ := hi t x tag h₁ hst
    obtain ⟨l', hl', hid, _⟩ := hk.snd_kept _ l hl
    exact ⟨l', hl', by rw [hid]; exact h₂ _ ht rfl⟩
  have same : s'.pendingTransfers = s.pendingTransfers → ∀ p ∈ s.pendingTransfers, p.1 = t → p ∈ s'.pendingTransfers :=
    fun h p hp _ => by rw [h]; exact hp
  have woken : ∀ (p : Ref → Prop) [DecidablePred p] (m),
      (∀ t : Ref, s'.sends[t]? = if p t then s.sends[t]?.map (SendTask.wake m) else s.sends[t]?) →
      ¬ p t ∧ s.sends[t]? = some x := by
    intro p _ m h
    rw [h] at hx
    split at hx
    · obtain ⟨y, _, rfl⟩ := Option.map_eq_some_iff.mp hx
      exact (SendTask.wake_window hst).elim
    · next hp => exact ⟨hp, hx⟩
  cases h
  case sndFailed r e _ _ =>
    obtain ⟨hp, hx⟩ := woken _ _ (sndRemoteDetached_get s r e)
    exact keep hx (same (by simp))
  case flowLink r f _ =>
    obtain ⟨hp, hx⟩ := woken _ _ (applyFlow_get s r f)
    exact keep hx (same (by simp))
  case drainWindow p m _ =>
    obtain ⟨hp, hx⟩ := woken _ _ (wakeAll_get s _ m)
    refine keep hx (fun q hq hqt => ?_)
    subst hqt
    refine List.mem_filter.mpr ⟨hq, ?_⟩
    cases hpq : p q with
    | false => rfl
    | true => exact (hp (List.mem_map.mpr ⟨q, List.mem_filter.mpr ⟨hq, hpq⟩, rfl⟩)).elim
  case sendRefused req e l hl _ =>
    rw [List.getElem?_append] at hx
    split at hx
    · exact keep hx (same rfl)
    · obtain ⟨_, rfl⟩ := List.getElem?_eq_some_iff.mp hx
      simp at hst
  case sendNew req tag' l hl _ _ _ _ =>
    rw [List.getElem?_append] at hx
    split at hx
    · exact keep hx (same rfl)
    · obtain ⟨_, rfl⟩ := List.getElem?_eq_some_iff.mp hx
      simp at hst
  case parkCredit t' req tag' l ht hl h =>
    rw [modSnd_sends, modSend_get] at hx
    split at hx
    · obtain ⟨y, _, rfl⟩ := Option.map_eq_some_iff.mp hx
      simp at hst
    · exact keep hx (same rfl)
  case parkWindow t' req tag' l ht hl h hp hw =>
    have hx := (modSend_get _ _ _ _).symm.trans hx
    split at hx
    · next heq =>
      subst heq
      rw [takeCredit_sends, ht] at hx
      obtain rfl : _ = x := by simpa using hx
      obtain ⟨l', hl', hid, _⟩ := hk.snd_kept _ l hl
      exact ⟨l', hl', by rw [hid]; exact List.mem_append_right _ (by simp)⟩
    · exact keep hx (fun q hq _ => List.mem_append_left _ hq)
  case sendNow t' req tag' l ht hl h hp hw =>
    have hx := (emit_get _ _ _ _ _ _).symm.trans hx
    split at hx
    · obtain ⟨y, _, rfl⟩ := Option.map_eq_some_iff.mp hx
      simp at hst
    · exact keep hx (same (by simp))
  case reparkWindow t' req tag' l ht hl hw =>
    have hx := (modSend_get _ _ _ _).symm.trans hx
    split at hx
    · next heq =>
      subst heq
      rw [ht] at hx
      obtain rfl : _ = x := by simpa using hx
      exact ⟨l, hl, List.mem_append_right _ (by simp)⟩
    · exact keep hx (fun q hq _ => List.mem_append_left _ hq)
  case emitParked t' req tag' l ht hl hw =>
    have hx := (emit_get _ _ _ _ _ _).symm.trans hx
    split at hx
    · obtain ⟨y, _, rfl⟩ := Option.map_eq_some_iff.mp hx
      simp at hst
    · exact keep hx (same (by simp))
  case sendFailed t' y e _ _ =>
    rw [finishSend_get] at hx
    split at hx
    · obtain ⟨y, _, rfl⟩ := Option.map_eq_some_iff.mp hx
      simp at hst
    · exact keep hx (same rfl)
  case sendCancel t' =>
    rw [sendCancel_get] at hx
    split at hx
    · obtain ⟨y, hy, rfl⟩ := Option.map_eq_some_iff.mp hx
      split at hst
      · next h => rw [h] at hst; simp at hst
      · simp at hst
    · exact keep hx (same rfl)
  all_goals exact keep (by simpa using hx) (same (by first | rfl | simp))

theorem Session.Reachable.creditQueued {s : Session} (h : Reachable s) : CreditQueued s := by
  refine h.invariant ?_ (fun _ _ m hi => m.creditQueued hi)
  rintro _ ⟨id, b, mfs, ch, b, rfl⟩
  intro t x tag hx; simp [Session.new] at hx

theorem Session.Reachable.windowQueued {s : Session} (h : Reachable s) : WindowQueued s := by
  refine h.invariant ?_ (fun _ _ m hi => m.windowQueued hi)
  rintro _ ⟨id, b, mfs, ch, b, rfl⟩
  intro t x tag hx; simp [Session.new] at hx

/-! ## Why sends fail -/

/-- The error told to a future, or returned by it. -/
def SendState.error? : SendState → Option PErr
  | .credit _ (some (.error e)) | .window _ (some (.error e)) | .done (.error e) => some e
  | _ => none

/-- The session has failed, or the peer detached a link with that error. -/
def Session.Failed (s : Session) (e : PErr) : Prop :=
  s.error.isSome ∨ ∃ f : Detach, .peer (.detach f) ∈ s.log ∧ e = .linkDetached f.error

theorem Session.Cause.failed {s : Session} {e} (h : s.Cause e) : s.Failed e := by
  rcases h with h | h
  · exact .inl (by simp [h])
  · exact .inr h

theorem Micro.failed {s s' : Session} (h : Micro s s') {e} (hf : s.Failed e) : s'.Failed e := by
  rcases hf with hf | ⟨f, hf, rfl⟩
  · exact .inl (h.error_mono hf)
  · obtain ⟨evs, hl⟩ := h.log_grows
    exact .inr ⟨f, by rw [hl]; exact List.mem_append_left _ hf, rfl⟩

/-- Errors stored in sender links. -/
def LinkFailed (s : Session) : Prop := ∀ (r : Ref) l e, s.snd? r = some l → l.error = some e → s.Failed e

theorem Micro.linkFailed {s s' : Session} (h : Micro s s') (hi : LinkFailed s) : LinkFailed s' := by
  intro r l e hl he
  have hk := h
  have same : s'.snds = s.snds → s'.Failed e := fun h' => hk.failed (hi r l e (by rw [← snd?_congr h']; exact hl) he)
  have grown : ∀ y, s'.snds = s.snds ++ [y] → y.error = none → s'.Failed e := by
    intro y hy hn
    unfold snd? at hl
    rw [hy, List.getElem?_append] at hl
    split at hl
    · exact hk.failed (hi r l e hl he)
    · obtain ⟨_, rfl⟩ := List.getElem?_eq_some_iff.mp hl
      rw [List.getElem_singleton, hn] at he; simp at he
  have upd : ∀ (r' : Ref) (f : Snd → Snd), (∀ l, (f l).error = l.error) →
      (∀ r, s'.snd? r = if r' = r then (s.snd? r).map f else s.snd? r) → s'.Failed e := by
    intro r' f hf h
    rw [h] at hl
    split at hl
    · obtain ⟨y, hy, rfl⟩ := Option.map_eq_some_iff.mp hl
      rw [hf] at he
      exact hk.failed (hi r y e hy he)
    · exact hk.failed (hi r l e hl he)
  cases h
  case estSndLocal k l' op _ _ _ _ he _ => exact grown _ rfl he
  case newSnd => exact grown _ rfl rfl
  case sndClosed => exact upd _ _ (by simp) (modSnd_snd? _ _ · _)
  case sndLimit => exact upd _ _ (by simp) (modSnd_snd? _ _ · _)
  case sndTag => exact upd _ _ (by simp) (modSnd_snd? _ _ · _)
  case sndFailed r' e' _ hc =>
    rw [sndRemoteDetached_snd?] at hl
    split at hl
    · obtain ⟨y, hy, rfl⟩ := Option.map_eq_some_iff.mp hl
      obtain rfl : e' = e := by simpa using he
      exact hk.failed hc.failed
    · exact hk.failed (hi r l e hl he)
  case flowLink r f _ =>
    refine upd _ _ ?_ (applyFlow_snd? _ _ _)
    intro l; unfold Snd.flow; split <;> rfl
  case parkCredit t req tag l' _ _ _ =>
    exact upd req.link (fun l => { l with pending := l.pending ++ [t] }) (by simp) (modSnd_snd? _ _ · _)
  case parkWindow t req tag l' _ _ _ _ _ => exact upd req.link _ (by simp) (takeCredit_snd? s t req.link)
  case sendNow t req tag l' _ _ _ _ _ =>
    exact upd req.link _ (by simp)
      (fun r => (snd?_congr (emit_snds _ _ _ _ _) r).trans (takeCredit_snd? s t req.link r))
  all_goals exact same (by first | rfl | simp)

/-- Errors told to sends or returned by them. -/
def SendsFailed (s : Session) : Prop :=
  ∀ (t : Ref) (x : SendTask) e, s.sends[t]? = some x → x.st.error? = some e →
    s.Failed e ∨ (x.st = .done (.error e) ∧ (e = .disconnected ∨ e = .bodyTooLarge))

theorem Micro.sendsFailed {s s' : Session} (h : Micro s s') (hl : LinkFailed s) (hi : SendsFailed s) : SendsFailed s' := by
  intro t x e hx he
  have hk := h
  have keep : s.sends[t]? = some x →
      s'.Failed e ∨ (x.st = .done (.error e) ∧ (e = .disconnected ∨ e = .bodyTooLarge)) :=
    fun hx => (hi t x e hx he).imp hk.failed _root_.id
  have woken : ∀ (p : Ref → Prop) [DecidablePred p] (m), (∀ e, m = .error e → s.Cause e) →
      (∀ t : Ref, s'.sends[t]? = if p t then s.sends[t]?.map (SendTask.wake m) else s.sends[t]?) →
      s'.Failed e ∨ (x.st = .done (.error e) ∧ (e = .disconnected ∨ e = .bodyTooLarge)) := by
    intro p _ m hm h
    rw [h] at hx
    split at hx
    · obtain ⟨y, hy, rfl⟩ := Option.map_eq_some_iff.mp hx
      have old : (SendTask.wake m y) = y ∨ m = .error e := by
        rcases y with ⟨req, st⟩
        cases st with
        | credit tag mail =>
          cases mail with
          | none =>
            cases m with
            | error e' => simp [SendTask.wake, SendState.error?] at he; simp [he]
            | ok u => simp [SendTask.wake, SendState.error?] at he
          | some _ => exact .inl rfl
        | window tag mail =>
          cases mail with
          | none =>
            cases m with
            | error e' => simp [SendTask.wake, SendState.error?] at he; simp [he]
            | ok u => simp [SendTask.wake, SendState.error?] at he
          | some _ => exact .inl rfl
        | done _ => exact .inl rfl
        | cancelled => exact .inl rfl
      rcases old with h | h
      · rw [h] at he ⊢
        exact (hi t y e hy he).imp hk.failed _root_.id
      · exact .inl (hk.failed (hm e h).failed)
    · exact keep hx
  have upd : ∀ (t' : Ref) (f : SendTask → SendTask), (∀ x, s.sends[t']? = some x → (f x).st.error? = none) →
      (s'.sends[t]? = if t' = t then s.sends[t]?.map f else s.sends[t]?) →
      s'.Failed e ∨ (x.st = .done (.error e) ∧ (e = .disconnected ∨ e = .bodyTooLarge)) := by
    intro t' f hf h
    rw [h] at hx
    split at hx
    · next heq =>
      obtain ⟨y, hy, rfl⟩ := Option.map_eq_some_iff.mp hx
      rw [hf y (by rw [heq]; exact hy)] at he; simp at he
    · exact keep hx
  cases h
  case sendRefused req e' l hsl hc =>
    rw [List.getElem?_append] at hx
    split at hx
    · exact keep hx
    · obtain ⟨_, rfl⟩ := List.getElem?_eq_some_iff.mp hx
      rw [List.getElem_singleton] at he ⊢
      obtain rfl : e' = e := by simpa [SendState.error?] using he
      rcases hc with hc | ⟨rfl, _⟩ | ⟨rfl, _⟩
      · exact .inl (hk.failed (hl _ _ _ hsl hc))
      · exact .inr ⟨rfl, .inl rfl⟩
      · exact .inr ⟨rfl, .inr rfl⟩
  case sendNew req tag' l _ _ _ _ _ =>
    rw [List.getElem?_append] at hx
    split at hx
    · exact keep hx
    · obtain ⟨_, rfl⟩ := List.getElem?_eq_some_iff.mp hx
      simp [SendState.error?] at he
  case sndFailed r e' _ hc => exact woken _ _ (by rintro _ ⟨⟩; exact hc) (sndRemoteDetached_get s r e')
  case flowLink r f _ => exact woken _ _ (by simp) (applyFlow_get s r f)
  case drainWindow p m hm => exact woken _ _ hm (wakeAll_get s _ m)
  case parkCredit t' req tag' l ht _ h => exact upd t' _ (by simp [SendState.error?]) (modSend_get _ _ _ _)
  case parkWindow t' req tag' l ht _ h hp hw => exact upd t' _ (by simp [SendState.error?]) (modSend_get _ _ _ _)
  case sendNow t' req tag' l ht _ h hp hw => exact upd t' _ (by simp [SendState.error?]) (emit_get _ _ _ _ _ _)
  case reparkWindow t' req tag' l ht _ hw => exact upd t' _ (by simp [SendState.error?]) (modSend_get _ _ _ _)
  case emitParked t' req tag' l ht _ hw => exact upd t' _ (by simp [SendState.error?]) (emit_get _ _ _ _ _ _)
  case sendFailed t' y e' hy hc =>
    rw [finishSend_get] at hx
    split at hx
    · next heq =>
      subst heq
      rw [hy] at hx
      obtain rfl : _ = x := by simpa using hx
      obtain rfl : e' = e := by simpa [SendState.error?] using he
      obtain ⟨tag, hc⟩ := hc
      rcases hi t' y e' hy (by rcases hc with hc | hc <;> rw [hc] <;> rfl) with hf | ⟨hf, _⟩
      · exact .inl (hk.failed hf)
      · rcases hc with hc | hc <;> rw [hc] at hf <;> simp at hf
    · exact keep hx
  case sendCancel t' =>
    rw [sendCancel_get] at hx
    split at hx
    · obtain ⟨y, hy, rfl⟩ := Option.map_eq_some_iff.mp hx
      rcases y with ⟨req, st⟩
      cases st with
      | done r => exact (hi t ⟨req, .done r⟩ e hy he).imp hk.failed _root_.id
      | credit _ _ => simp [SendState.error?] at he
      | window _ _ => simp [SendState.error?] at he
      | cancelled => simp [SendState.error?] at he
    · exact keep hx
  all_goals exact keep (by simpa using hx)

theorem Session.Reachable.sendsFailed {s : Session} (h : Reachable s) : LinkFailed s ∧ SendsFailed s := by
  refine h.invariant (P := fun s => LinkFailed s ∧ SendsFailed s) ?_ (fun _ _ m hi => ⟨m.linkFailed hi.1, m.sendsFailed hi.1 hi.2⟩)
  rintro _ ⟨id, b, mfs, ch, b, rfl⟩
  exact ⟨fun r l e hl => by simp [snd?, Session.new] at hl, fun t x e hx => by simp [Session.new] at hx⟩

/-! ## A send that succeeded went out -/

def DoneBegun (s : Session) : Prop :=
  ∀ (t : Ref) (x : SendTask) d, s.sends[t]? = some x → x.st = .done (.ok d) → ∃ id, .begun t x.req.link id ∈ s.log

theorem Micro.doneBegun {s s' : Session} (h : Micro s s') (hi : DoneBegun s) : DoneBegun s' := by
  intro t x d hx hst
  obtain ⟨evs, hevs⟩ := h.log_grows
  have keep : s.sends[t]? = some x → ∃ id, .begun t x.req.link id ∈ s'.log := by
    intro hx
    obtain ⟨id, h⟩ := hi t x d hx hst
    exact ⟨id, by rw [hevs]; exact List.mem_append_left _ h⟩
  have upd : ∀ (p : Ref → Prop) [DecidablePred p] (f : SendTask → SendTask),
      (∀ x, (f x).st = .done (.ok d) → f x = x) →
      (s'.sends[t]? = if p t then s.sends[t]?.map f else s.sends[t]?) → ∃ id, .begun t x.req.link id ∈ s'.log := by
    intro p _ f hf h
    rw [h] at hx
    split at hx
    · obtain ⟨y, hy, rfl⟩ := Option.map_eq_some_iff.mp hx
      have heq := hf y hst
      rw [heq] at hst ⊢
      obtain ⟨id, h⟩ := hi t y d hy hst
      exact ⟨id, by rw [hevs]; exact List.mem_append_left _ h⟩
    · exact keep hx
  have wake : ∀ m x, (SendTask.wake m x).st = .done (.ok d) → SendTask.wake m x = x := by
    intro m x h
    rcases x with ⟨req, st⟩
    cases st with
    | credit tag mail => cases mail <;> simp [SendTask.wake] at h
    | window tag mail => cases mail <;> simp [SendTask.wake] at h
    | done _ => rfl
    | cancelled => rfl
  have went : ∀ t' req id evs', s'.log = s.log ++ evs' → .begun t' req.link id ∈ evs' →
      ∀ y : SendTask, s.sends[t']? = some y → y.req = req → ∀ f : SendTask → SendTask, (∀ x, (f x).req = x.req) →
      (s'.sends[t]? = if t' = t then s.sends[t]?.map f else s.sends[t]?) → ∃ id, .begun t x.req.link id ∈ s'.log := by
    intro t' req id evs' hl hm y hy hr f hf h
    rw [h] at hx
    split at hx
    · next heq =>
      subst heq
      rw [hy] at hx
      obtain rfl : f y = x := by simpa using hx
      exact ⟨id, by rw [hl, hf, hr]; exact List.mem_append_right _ hm⟩
    · exact keep hx
  cases h
  case sendRefused =>
    rw [List.getElem?_append] at hx
    split at hx
    · exact keep hx
    · obtain ⟨_, rfl⟩ := List.getElem?_eq_some_iff.mp hx
      simp at hst
  case sendNew =>
    rw [List.getElem?_append] at hx
    split at hx
    · exact keep hx
    · obtain ⟨_, rfl⟩ := List.getElem?_eq_some_iff.mp hx
      simp at hst
  case sndFailed r e' _ hc => exact upd _ _ (wake _) (sndRemoteDetached_get s r e' t)
  case flowLink r f _ => exact upd (fun t => f.linkCredit.isSome ∧ t ∈ ((s.snd? r).map Snd.pending).getD []) _ (wake _) (applyFlow_get s r f t)
  case drainWindow p m hm => exact upd _ _ (wake _) (wakeAll_get s _ m t)
  case parkCredit t' req tag' l ht _ h => exact upd (t' = ·) _ (by simp) (modSend_get _ _ _ _)
  case parkWindow t' req tag' l ht _ h hp hw => exact upd (t' = ·) _ (by simp) (modSend_get _ _ _ _)
  case sendNow t' req tag' l ht _ h hp hw =>
    exact went t' req s.nextOutgoingId _ (by rw [emit_log]; simp only [takeCredit_log, List.append_assoc]; rfl) (by simp) _ ht rfl
      (fun x => { x with st := .done (.ok _) }) (by simp) (emit_get _ _ _ _ _ _)
  case reparkWindow t' req tag' l ht _ hw => exact upd (t' = ·) _ (by simp) (modSend_get _ _ _ _)
  case emitParked t' req tag' l ht _ hw =>
    exact went t' req s.nextOutgoingId _ (by rw [emit_log]) (by simp) _ ht rfl
      (fun x => { x with st := .done (.ok _) }) (by simp) (emit_get _ _ _ _ _ _)
  case sendFailed t' y e' hy hc => exact upd (t' = ·) _ (by simp) (finishSend_get _ _ _ _)
  case sendCancel t' =>
    refine upd (t' = ·) _ ?_ (sendCancel_get _ _ _)
    intro x h
    rcases x with ⟨req, st⟩
    cases st <;> simp at h ⊢
  all_goals exact keep (by simpa using hx)

theorem Session.Reachable.doneBegun {s : Session} (h : Reachable s) : DoneBegun s := by
  refine h.invariant ?_ (fun _ _ m hi => m.doneBegun hi)
  rintro _ ⟨id, b, mfs, ch, b, rfl⟩
  intro t x d hx; simp [Session.new] at hx

/-! ## Sends nobody will wake -/

def SendState.mailed : SendState → Bool
  | .credit _ (some _) | .window _ (some _) => true
  | _ => false

/-- Send `t` is blocked on the credit of link `r`, which is not registered with the session any more: nothing that happens
can wake it. -/
structure Stranded (s : Session) (t r : Ref) : Prop where
  live : ∃ x : SendTask, s.sends[t]? = some x ∧ x.req.link = r ∧ ((∃ tag, x.st = .credit tag none) ∨ x.st = .cancelled)
  gone : ¬ s.Sends r
  flow : ∀ f, .ctl (.flow r f) ∉ s.todo
  attach : ∀ a g, .ctl (.attachSender r a g) ∉ s.todo
  known : r < s.snds.length
  only : ∀ r' l, s.snd? r' = some l → t ∈ l.pending → r' = r
  window : ∀ p ∈ s.pendingTransfers, p.1 ≠ t

theorem Micro.stranded {s s' : Session} (h : Micro s s') {t r : Ref} (hi : Stranded s t r) : Stranded s' t r := by
  have hk := h
  obtain ⟨⟨x, hx, hr, hst⟩, gone, flow, attach, known, only, window⟩ := hi
  refine ⟨?_, ?_, ?_, ?_, Nat.lt_of_lt_of_le known h.credit.length, ?_, ?_⟩
  · -- still blocked, or cancelled
    have same : s'.sends[t]? = s.sends[t]? → ∃ x : SendTask, s'.sends[t]? = some x ∧ x.req.link = r ∧
        ((∃ tag, x.st = .credit tag none) ∨ x.st = .cancelled) := fun h => ⟨x, by rw [h]; exact hx, hr, hst⟩
    have grown : ∀ y, s'.sends = s.sends ++ [y] → s'.sends[t]? = s.sends[t]? := by
      intro y hy
      rw [hy, List.getElem?_append_left (List.getElem?_eq_some_iff.mp hx).1]
    have notp : ∀ t' (y : SendTask) tag m, s.sends[t']? = some y →
        (y.st = .credit tag (some m) ∨ y.st = .window tag (some m)) → t' ≠ t := by
      rintro t' y tag m hy hy' rfl
      obtain rfl : y = x := by simpa [hy] using hx
      rcases hy' with h | h <;> rcases hst with ⟨_, h'⟩ | h' <;> rw [h] at h' <;> simp at h'
    cases h
    case sendRefused => exact same (grown _ rfl)
    case sendNew => exact same (grown _ rfl)
    case sndFailed r' e hk' hc =>
      refine same ?_
      rw [sndRemoteDetached_get, if_neg]
      intro hm
      cases hl : s.snd? r' with
      | none => simp [hl] at hm
      | some l =>
        rw [hl] at hm
        exact gone (only r' l hl hm ▸ hk')
    case flowLink r' f hf =>
      refine same ?_
      rw [applyFlow_get, if_neg]
      rintro ⟨_, hm⟩
      cases hl : s.snd? r' with
      | none => simp [hl] at hm
      | some l =>
        rw [hl] at hm
        exact flow f (only r' l hl hm ▸ hf)
    case drainWindow p m _ =>
      refine same ((wakeAll_get s _ m t).trans (if_neg ?_))
      intro hm
      obtain ⟨q, hq, hqt⟩ := List.mem_map.mp hm
      exact window q (List.mem_filter.mp hq).1 hqt
    case parkCredit t' req tag' l ht _ h =>
      exact same ((modSend_get _ _ _ _).trans (if_neg (notp _ _ _ _ ht (.inl rfl))))
    case parkWindow t' req tag' l ht _ h hp hw =>
      exact same ((modSend_get _ _ _ _).trans (if_neg (notp _ _ _ _ ht (.inl rfl))))
    case sendNow t' req tag' l ht _ h hp hw =>
      exact same ((emit_get _ _ _ _ _ _).trans (if_neg (notp _ _ _ _ ht (.inl rfl))))
    case reparkWindow t' req tag' l ht _ hw =>
      exact same ((modSend_get _ _ _ _).trans (if_neg (notp _ _ _ _ ht (.inr rfl))))
    case emitParked t' req tag' l ht _ hw =>
      exact same ((emit_get _ _ _ _ _ _).trans (if_neg (notp _ _ _ _ ht (.inr rfl))))
    case sendFailed t' y e hy hc =>
      obtain ⟨tag, hc⟩ := hc
      exact same ((finishSend_get _ _ _ _).trans (if_neg (notp _ _ _ _ hy hc)))
    case sendCancel t' =>
      rw [sendCancel_get]
      split
      · rw [hx]
        rcases x with ⟨req, st⟩
        rcases hst with ⟨tag, h⟩ | h <;> (dsimp only at h; subst h)
        · exact ⟨_, rfl, hr, .inr rfl⟩
        · exact ⟨_, rfl, hr, .inr rfl⟩
      · exact ⟨x, hx, hr, hst⟩
    all_goals exact same (by first | rfl | simp)
  · rintro ⟨k, hk'⟩
    rcases h.slots k _ hk' with h' | h' | ⟨r', he, _, h'⟩ | ⟨r', he, _⟩
    · exact gone ⟨k, h'⟩
    · exact h'
    · cases he
      rcases h' with ⟨a, g, h'⟩ | h'
      · exact attach a g h'
      · exact absurd known (by rw [h']; exact Nat.lt_irrefl _)
    · cases he
  · intro f ha
    rcases h.todo _ ha with h' | ⟨_, _, k, he, hk⟩ | ⟨_, _, he, _⟩ | ⟨h', _⟩
    · exact flow f h'
    · cases he; exact gone ⟨k, hk⟩
    · cases he
    · exact h' r f rfl
  · intro a g ha
    rcases h.todo _ ha with h' | ⟨_, _, k, he, hk⟩ | ⟨_, _, he, hl⟩ | ⟨_, h'⟩
    · exact attach a g h'
    · cases he
    · cases he; exact Nat.lt_irrefl _ known
    · exact h' r a g rfl
  · intro r' l' hl' hm
    have same : s'.snds = s.snds → r' = r := fun h' => only r' l' (by rw [← snd?_congr h']; exact hl') hm
    have grown : ∀ y, s'.snds = s.snds ++ [y] → y.pending = [] → r' = r := by
      intro y hy hn
      unfold snd? at hl'
      rw [hy, List.getElem?_append] at hl'
      split at hl'
      · exact only r' l' hl' hm
      · obtain ⟨_, rfl⟩ := List.getElem?_eq_some_iff.mp hl'
        rw [List.getElem_singleton, hn] at hm; simp at hm
    have upd : ∀ (q : Ref) (f : Snd → Snd), (∀ l, t ∈ (f l).pending → t ∈ l.pending) →
        (s'.snd? r' = if q = r' then (s.snd? r').map f else s.snd? r') → r' = r := by
      intro q f hf h
      rw [h] at hl'
      split at hl'
      · obtain ⟨y, hy, rfl⟩ := Option.map_eq_some_iff.mp hl'
        exact only r' y hy (hf y hm)
      · exact only r' l' hl' hm
    cases h
    case estSndLocal k l' op _ _ hp _ _ _ => exact grown _ rfl hp
    case newSnd => exact grown _ rfl rfl
    case sndClosed => exact upd _ _ (by simp) (modSnd_snd? _ _ _ _)
    case sndLimit => exact upd _ _ (by simp) (modSnd_snd? _ _ _ _)
    case sndTag => exact upd _ _ (by simp) (modSnd_snd? _ _ _ _)
    case sndFailed => exact upd _ _ (by simp) (sndRemoteDetached_snd? _ _ _ _)
    case flowLink q f _ =>
      refine upd _ _ ?_ (applyFlow_snd? _ _ _ _)
      intro l; unfold Snd.flow; split <;> simp
    case parkCredit t' req tag l' ht _ _ =>
      have hne : t' ≠ t := by
        rintro rfl
        rw [ht] at hx
        obtain rfl : _ = x := by simpa using hx
        rcases hst with ⟨_, h'⟩ | h' <;> simp at h'
      exact upd req.link (fun l => { l with pending := l.pending ++ [t'] }) (by simp [hne.symm]) (modSnd_snd? _ _ _ _)
    case parkWindow t' req tag l' _ _ _ _ _ => exact upd req.link _ (by simp) (takeCredit_snd? s t' req.link r')
    case sendNow t' req tag l' _ _ _ _ _ =>
      exact upd req.link _ (by simp)
        ((snd?_congr (emit_snds _ _ _ _ _) r').trans (takeCredit_snd? s t' req.link r'))
    all_goals exact same (by first | rfl | simp)
  · intro p hp
    have same : s'.pendingTransfers = s.pendingTransfers → p.1 ≠ t := fun h' => window p (by rw [← h']; exact hp)
    have notp : ∀ t' (y : SendTask), s.sends[t']? = some y → y.st.phase = .window ∨ y.st.mailed = true → t' ≠ t := by
      rintro t' y hy hy' rfl
      obtain rfl : y = x := by simpa [hy] using hx
      rcases hst with ⟨_, h'⟩ | h' <;> rw [h'] at hy' <;> simp [SendState.phase, SendState.mailed] at hy'
    cases h
    case drainWindow q m _ => exact window p (List.mem_filter.mp hp).1
    case parkWindow t' req tag l ht hl _ _ hw =>
      rcases List.mem_append.mp hp with h | h
      · exact window p h
      · obtain rfl : p = _ := by simpa using h
        exact notp t' _ ht (.inr rfl)
    case reparkWindow t' req tag l ht hl hw =>
      rcases List.mem_append.mp hp with h | h
      · exact window p h
      · obtain rfl : p = _ := by simpa using h
        exact notp t' _ ht (.inr rfl)
    all_goals exact same (by first | rfl | simp)

theorem Stranded.run {s : Session} {t r : Ref} (h : Stranded s t r) (steps : List Step) : Stranded (s.run steps) t r :=
  (run_micros s steps).invariant (P := fun s => Stranded s t r) (fun _ _ m hi => m.stranded hi) h

end Amqp.Rt
