import Verif.Lemmas.SessionWait
/-!
# Which futures wait on which records
-/

namespace Amqp.Rt
open Session

namespace Session

theorem SameDlv.waits_get {s s' : Session} (h : SameDlv s s') (w : Ref) : s'.waits[w]? = s.waits[w]? := by rw [h.waits]

/-- Waking keeps the future on its delivery. -/
theorem wake_dlv (m : Bool) (t : WaitTask) : (WaitTask.wake m t).dlv = t.dlv := by
  rcases t with ⟨d, st⟩
  cases st with
  | waiting mail => cases mail <;> rfl
  | done _ => rfl
  | cancelled => rfl

/-- Futures are never removed, and stay on their delivery. -/
def WaitsKept (A : Ref → Prop) (s s' : Session) : Prop :=
  ∀ w : Ref, match s'.waits[w]? with
    | some t' => (∃ t, s.waits[w]? = some t ∧ t'.dlv = t.dlv) ∨
        (w = s.waits.length ∧ A t'.dlv ∧ ∃ x, s.dlv? t'.dlv = some x)
    | none => s.waits[w]? = none

variable {A : Ref → Prop}

theorem waitsKept_same {s s' : Session} (h : s'.waits = s.waits) : WaitsKept A s s' := by
  intro w
  rw [h]
  split
  · next t ht => exact .inl ⟨t, ht, rfl⟩
  · assumption

theorem waitsKept_map {s s' : Session} (f : WaitTask → WaitTask) (hf : ∀ t, (f t).dlv = t.dlv)
    (h : ∀ w : Ref, s'.waits[w]? = s.waits[w]? ∨ s'.waits[w]? = s.waits[w]?.map f) : WaitsKept A s s' := by
  intro w
  rcases h w with h | h
  · rw [h]
    split
    · next t ht => exact .inl ⟨t, ht, rfl⟩
    · assumption
  · rw [h]
    cases ht : s.waits[w]? with
    | none => rfl
    | some t => exact .inl ⟨t, rfl, hf t⟩

theorem waitsKept_if {s s' : Session} (f : WaitTask → WaitTask) (hf : ∀ t, (f t).dlv = t.dlv) (c : Ref → Prop)
    [DecidablePred c] (h : ∀ w : Ref, s'.waits[w]? = if c w then s.waits[w]?.map f else s.waits[w]?) : WaitsKept A s s' := by
  refine waitsKept_map f hf fun w => ?_
  rw [h]
  split
  · exact .inr rfl
  · exact .inl rfl

theorem waitStart_waits {s : Session} {d : Ref} {x : Dlv} (hx : s.dlv? d = some x) (w : Ref) :
    (∃ t, s.waits[w]? = some t ∧ ∃ t', (s.waitStart d).waits[w]? = some t' ∧ t'.dlv = t.dlv) ∨
    (s.waits[w]? = none ∧ ((s.waitStart d).waits[w]? = none ∨
      (w = s.waits.length ∧ ∃ t', (s.waitStart d).waits[w]? = some t' ∧ t'.dlv = d))) := by
  have base : ∀ (s' : Session) (f : WaitTask → WaitTask) (c : Ref → Prop) [DecidablePred c],
      (∀ t, (f t).dlv = t.dlv) →
      (∀ w : Ref, s'.waits[w]? = if c w then (s.pushWait d).waits[w]?.map f else (s.pushWait d).waits[w]?) →
      (∃ t, s.waits[w]? = some t ∧ ∃ t', s'.waits[w]? = some t' ∧ t'.dlv = t.dlv) ∨
      (s.waits[w]? = none ∧ (s'.waits[w]? = none ∨
        (w = s.waits.length ∧ ∃ t', s'.waits[w]? = some t' ∧ t'.dlv = d))) := by
    intro s' f c _ hf h
    rw [h, pushWait_get]
    by_cases hw : w = s.waits.length
    · right
      refine ⟨by rw [hw]; simp, .inr ⟨hw, ?_⟩⟩
      simp only [hw, if_true, Option.map_some]
      split
      · exact ⟨_, rfl, hf _⟩
      · exact ⟨_, rfl, rfl⟩
    · simp only [hw, if_false]
      cases ht : s.waits[w]? with
      | none => right; simp
      | some t =>
        left
        refine ⟨t, rfl, ?_⟩
        split
        · exact ⟨_, rfl, hf _⟩
        · exact ⟨_, rfl, rfl⟩
  rcases waitStart_cases hx with ⟨_, h⟩ | ⟨_, _, h⟩ | ⟨inner, res, inner', _, hg, hc, h⟩ | ⟨inner, _, hg, _, _, h⟩ <;> rw [h]
  · exact base _ (fun t => { t with st := .done (.ok none) }) (fun w => s.waits.length = w) (fun _ => rfl)
      (fun w => finishWait_get _ _ _ _)
  · exact base _ (fun t => { t with st := .done (.error (.linkDetached none)) }) (fun w => s.waits.length = w) (fun _ => rfl)
      (fun w => finishWait_get _ _ _ _)
  · refine base _ (fun t => { t with st := .done res }) (fun w => s.waits.length = w) (fun _ => rfl)
      (fun w => ?_)
    rw [finishWait_get, setUnsettled_waits]
  · refine base _ (WaitTask.wake false) (fun w => inner.tx = some w) (wake_dlv false) (fun w => ?_)
    rw [notify_get, setUnsettled_waits]

/-- The state of one future after the first poll of another: the new one, or an older one, possibly disconnected. -/
theorem waitsKept_start {s : Session} {d : Ref} {x : Dlv} (hA : A d) (hx : s.dlv? d = some x) : WaitsKept A s (s.waitStart d) := by
  intro w
  rcases waitStart_waits hx w with ⟨t, ht, t', ht', hd⟩ | ⟨hn, hn' | ⟨hw, t', ht', hd⟩⟩
  · rw [ht']; exact .inl ⟨t, ht, hd⟩
  · rw [hn']; exact hn
  · rw [ht']; exact .inr ⟨hw, by rw [hd]; exact hA, x, by rw [hd]; exact hx⟩

theorem waitsKept_finish {s s' s₁ : Session} {w : Ref} {r} (h : s' = s₁.finishWait w r) (h₁ : s₁.waits = s.waits) :
    WaitsKept A s s' := by
  refine waitsKept_if (fun t => { t with st := .done r }) (fun _ => rfl) (fun w' => w = w') fun w' => ?_
  rw [h, finishWait_get, h₁]

end Session

theorem MicroOn.waitsKept {A : Ref → Prop} {s s' : Session} (h : MicroOn A s s') : WaitsKept A s s' := by
  cases h.dlv with
  | quiet evs hl he hb hs hr => exact waitsKept_same hs.waits
  | failed hl hs hr => exact waitsKept_same hs.waits
  | sent tag settled h evs hl he hb hm hs hr =>
    exact waitsKept_if _ (wake_dlv true) _ fun w => by rw [hs.waits, addDlv_waits]
  | received id tag settled h evs hl he hb hs hr =>
    exact waitsKept_if _ (wake_dlv true) _ fun w => by rw [hs.waits, addDlv_waits]
  | settle d st hf h => subst h; exact waitsKept_same (by simp)
  | update d st hf h => subst h; exact waitsKept_same (by simp)
  | drop d hf h =>
    subst h
    obtain ⟨⟨x, hx, hd⟩, _⟩ := free_iff.mp hf
    have : ∀ w : Ref, (s.dropRecord d x).waits[w]? =
        if ((s.unsettled x.sender).get x.id).bind DlvInner.tx = some w then s.waits[w]?.map (WaitTask.wake true)
        else s.waits[w]? := by
      intro w
      rw [dropRecord, notify_get, setUnsettled_waits]; rfl
    rcases dropDelivery_cases hx with ⟨_, h⟩ | ⟨inner, _, ⟨_, _, h⟩ | ⟨_, h⟩⟩
    · exact waitsKept_same (by rw [h]; rfl)
    · exact waitsKept_if _ (wake_dlv true) _ fun w => by rw [h]; exact this w
    · exact waitsKept_if _ (wake_dlv true) _ fun w => by rw [h]; exact this w
  | @wait d hA hf h =>
    subst h
    obtain ⟨x, hx, hd⟩ := held_iff.mp hf
    exact waitsKept_start hA hx
  | resume w h =>
    subst h
    rcases waitResume_cases s w with h | ⟨d, mail, hw, ⟨_, h⟩ | ⟨x, _, hx, ⟨_, h⟩ | ⟨inner, hg, h⟩⟩⟩
    · exact waitsKept_same (by rw [h])
    · exact waitsKept_finish h rfl
    · exact waitsKept_finish h rfl
    · rcases h with ⟨res, inner', hc, h⟩ | ⟨_, _, h⟩
      · exact waitsKept_finish h (by rw [setUnsettled_waits]; split <;> rfl)
      · exact waitsKept_finish h (by split <;> rfl)
  | cancel w h =>
    subst h
    refine waitsKept_if _ ?_ (fun w' => w = w') (fun w' => modWait_get s w w' _)
    exact fun _ => rfl
  | dispose disp no hp hn h =>
    subst h
    exact waitsKept_if _ (wake_dlv true) _ fun w => disposeOne_waits _ _ _ _ _
  | failDlvs b hd f hf h =>
    subst h
    exact waitsKept_if _ (wake_dlv true) _ fun w => failDeliveries_waits _ _ _ _ _
  | clearSnd he h =>
    subst h
    exact waitsKept_if _ (wake_dlv true) _ fun w => dropSent_waits _ _
  | clearRcv he h =>
    subst h
    exact waitsKept_if _ (wake_dlv true) _ fun w => dropReceived_waits _ _

theorem Session.WaitsKept.fwd {A : Ref → Prop} {s s' : Session} (h : WaitsKept A s s') {w : Ref} {t : WaitTask} (ht : s.waits[w]? = some t) :
    ∃ t', s'.waits[w]? = some t' ∧ t'.dlv = t.dlv := by
  have := h w
  split at this
  · next t' ht' =>
    rcases this with ⟨t₀, h₀, hd⟩ | ⟨hw, _⟩
    · obtain rfl : t₀ = t := by simpa [h₀] using ht
      exact ⟨t', ht', hd⟩
    · subst hw; simp at ht
  · rw [ht] at this; simp at this

/-! ## Channels of records -/

structure WaitInv (s : Session) : Prop where
  wf : ∀ b, (s.unsettled b).Wf
  refs : ∀ (w : Ref) (t : WaitTask), s.waits[w]? = some t → ∃ x, s.dlv? t.dlv = some x
  tx : ∀ b no inner w, (s.unsettled b).get no = some inner → inner.tx = some w →
    ∃ t x, s.waits[w]? = some t ∧ s.dlv? t.dlv = some x ∧ x.sender = b ∧ x.id = no

theorem Session.unsettled_settle (s : Session) (d st b) : (s.settle d st).unsettled b = s.unsettled b := by
  rcases settle_cases s d st with h | ⟨x, hx, _, _, h⟩ <;> rw [h] <;> rfl
theorem Session.unsettled_update (s : Session) (d st b) : (s.updateState d st).unsettled b = s.unsettled b := by
  rcases updateState_cases s d st with h | ⟨x, hx, h⟩ <;> rw [h]; rfl

theorem Session.unsettled_drop {s : Session} {d : Ref} {x : Dlv} (hx : s.dlv? d = some x) (b : Bool) :
    (s.dropDelivery d).unsettled b = s.unsettled b ∧ (s.unsettled x.sender).get x.id = none ∨
    (s.dropDelivery d).unsettled b = if x.sender = b then (s.unsettled b).erase x.id else s.unsettled b := by
  have h₁ : (s.dropRecord d x).unsettled b = if x.sender = b then (s.unsettled b).erase x.id else s.unsettled b := by
    rw [dropRecord, notify_unsettled, unsettled_setUnsettled]
    split
    · next h => rw [h]
    · rfl
  rcases dropDelivery_cases hx with ⟨h', h⟩ | ⟨inner, _, ⟨_, _, h⟩ | ⟨_, h⟩⟩
  · exact .inl ⟨by rw [h]; rfl, h'⟩
  · exact .inr (by rw [h, postDisp_unsettled, h₁])
  · exact .inr (by rw [h, h₁])

/-- What a small change does to the channel in a record. -/
theorem Micro.txKept {s s' : Session} (h : Micro s s') :
    (∀ b, (s.unsettled b).Wf → (s'.unsettled b).Wf) ∧
    ∀ b no inner w, (s'.unsettled b).get no = some inner → inner.tx = some w →
      (∃ inner₀, (s.unsettled b).get no = some inner₀ ∧ inner₀.tx = some w ∧
        (inner.state = inner₀.state ∨ inner.state = none) ∧ inner.error = inner₀.error) ∨
      (w = s.waits.length ∧ inner.state = none ∧ inner.error = none ∧ ∃ t x, s'.waits[w]? = some t ∧ s.dlv? t.dlv = some x ∧ x.sender = b ∧ x.id = no) := by
  have same : (∀ b, s'.unsettled b = s.unsettled b) → (∀ b, (s.unsettled b).Wf → (s'.unsettled b).Wf) ∧
    ∀ b no inner w, (s'.unsettled b).get no = some inner → inner.tx = some w →
      (∃ inner₀, (s.unsettled b).get no = some inner₀ ∧ inner₀.tx = some w ∧
        (inner.state = inner₀.state ∨ inner.state = none) ∧ inner.error = inner₀.error) ∨
      (w = s.waits.length ∧ inner.state = none ∧ inner.error = none ∧ ∃ t x, s'.waits[w]? = some t ∧ s.dlv? t.dlv = some x ∧ x.sender = b ∧ x.id = no) := by
    intro h
    refine ⟨fun b => by rw [h]; exact _root_.id, fun b no inner w hg ht => .inl ⟨inner, by rw [← h]; exact hg, ht, .inl rfl, rfl⟩⟩
  have ins : ∀ b₀ k inner₁, (inner₁.tx = none ∨ ∃ inner₀, (s.unsettled b₀).get k = some inner₀ ∧ inner₁.tx = inner₀.tx ∧
        (inner₁.state = inner₀.state ∨ inner₁.state = none) ∧ inner₁.error = inner₀.error) →
      (∀ b, s'.unsettled b = if b₀ = b then (s.unsettled b).insert k inner₁ else s.unsettled b) →
      (∀ b, (s.unsettled b).Wf → (s'.unsettled b).Wf) ∧
      ∀ b no inner w, (s'.unsettled b).get no = some inner → inner.tx = some w →
        (∃ inner₀, (s.unsettled b).get no = some inner₀ ∧ inner₀.tx = some w ∧
        (inner.state = inner₀.state ∨ inner.state = none) ∧ inner.error = inner₀.error) ∨
        (w = s.waits.length ∧ inner.state = none ∧ inner.error = none ∧ ∃ t x, s'.waits[w]? = some t ∧ s.dlv? t.dlv = some x ∧ x.sender = b ∧ x.id = no) := by
    intro b₀ k inner₁ htx h
    refine ⟨fun b hw => ?_, fun b no inner w hg ht => .inl ?_⟩
    · rw [h]
      split
      · exact hw.insert _ _
      · exact hw
    · rw [h] at hg
      split at hg
      · next hb =>
        subst hb
        rw [Map.get_insert] at hg
        split at hg
        · next hk =>
          subst hk
          obtain rfl : inner₁ = inner := by simpa using hg
          rcases htx with htx | ⟨inner₀, h₀, htx, h₁, h₂⟩
          · rw [htx] at ht; simp at ht
          · exact ⟨inner₀, h₀, htx ▸ ht, h₁, h₂⟩
        · exact ⟨inner, hg, ht, .inl rfl, rfl⟩
      · exact ⟨inner, hg, ht, .inl rfl, rfl⟩
  cases h.dlv with
  | quiet evs hl he hb hs hr => exact same hs.uns
  | failed hl hs hr => exact same hs.uns
  | sent tag settled h evs hl he hb hm hs hr =>
    cases settled with
    | false =>
      refine ins true s.nextOutgoingId (.new h) (.inl rfl) fun b => ?_
      rw [hs.uns, addDlv_unsettled]
      simp [newDlv]
    | true => exact same fun b => by rw [hs.uns, addDlv_unsettled]; simp [newDlv]
  | received id tag settled h evs hl he hb hs hr =>
    cases settled with
    | false =>
      refine ins false id (.new h) (.inl rfl) fun b => ?_
      rw [hs.uns, addDlv_unsettled]
      simp [newDlv]
    | true => exact same fun b => by rw [hs.uns, addDlv_unsettled]; simp [newDlv]
  | settle d st hf h => subst h; exact same (unsettled_settle s d st)
  | update d st hf h => subst h; exact same (unsettled_update s d st)
  | drop d hf h =>
    subst h
    obtain ⟨⟨x, hx, hd⟩, _⟩ := free_iff.mp hf
    refine ⟨fun b hw => ?_, fun b no inner w hg ht => .inl ?_⟩
    · rcases unsettled_drop hx b with ⟨h, _⟩ | h <;> rw [h]
      · exact hw
      · split
        · exact hw.erase _
        · exact hw
    · rcases unsettled_drop hx b with ⟨h, _⟩ | h <;> rw [h] at hg
      · exact ⟨inner, hg, ht, .inl rfl, rfl⟩
      · split at hg
        · rw [Map.get_erase] at hg
          split at hg
          · simp at hg
          · exact ⟨inner, hg, ht, .inl rfl, rfl⟩
        · exact ⟨inner, hg, ht, .inl rfl, rfl⟩
  | wait d hf h =>
    subst h
    obtain ⟨x, hx, hd⟩ := held_iff.mp hf
    rcases waitStart_cases hx with ⟨_, h⟩ | ⟨_, _, h⟩ | ⟨inner, res, inner', _, hg, hc, h⟩ | ⟨inner, _, hg, hn₁, hn₂, h⟩
    · exact same fun b => by rw [h]; rfl
    · exact same fun b => by rw [h]; rfl
    · refine ins x.sender x.id inner' (.inr ⟨inner, hg, (checkInner_some hc).2.1, (checkInner_some hc).2.2.2.2.1,
        (checkInner_some hc).2.2.1⟩) fun b => ?_
      rw [h, finishWait_unsettled, unsettled_setUnsettled]
      split
      · next hb => rw [hb]
      · rfl
    · have hu : ∀ b, (s.waitStart d).unsettled b = if x.sender = b then
          (s.unsettled b).insert x.id { inner with tx := some s.waits.length } else s.unsettled b := by
        intro b
        rw [h, notify_unsettled, unsettled_setUnsettled]
        split
        · next hb => rw [hb]
        · rfl
      refine ⟨fun b hw => ?_, fun b no inner₁ w hg₁ ht => ?_⟩
      · rw [hu]
        split
        · exact hw.insert _ _
        · exact hw
      · rw [hu] at hg₁
        split at hg₁
        · next hb =>
          rw [Map.get_insert] at hg₁
          split at hg₁
          · next hk =>
            right
            obtain rfl : { inner with tx := some s.waits.length } = inner₁ := by simpa using hg₁
            obtain rfl : s.waits.length = w := by simpa using ht
            refine ⟨rfl, hn₁, hn₂, ?_⟩
            rcases waitStart_waits hx s.waits.length with ⟨t, ht, _⟩ | ⟨_, hn | ⟨_, t', ht', hd'⟩⟩
            · simp at ht
            · rw [h, notify_get, setUnsettled_waits, pushWait_get] at hn
              simp at hn
              split at hn <;> simp at hn
            · exact ⟨t', x, ht', by rw [hd']; exact hx, hb, hk⟩
          · exact .inl ⟨inner₁, hg₁, ht, .inl rfl, rfl⟩
        · exact .inl ⟨inner₁, hg₁, ht, .inl rfl, rfl⟩
  | resume w h =>
    subst h
    rcases waitResume_cases s w with h | ⟨d, mail, hw, ⟨_, h⟩ | ⟨x, _, hx, ⟨_, h⟩ | ⟨inner, hg, h⟩⟩⟩
    · exact same fun b => by rw [h]
    · exact same fun b => by rw [h]; rfl
    · exact same fun b => by rw [h]; rfl
    · have hu : ∀ b, (if inner.settled then s.modDlv d fun d => { d with remoteSettled := true } else s).unsettled b =
          s.unsettled b := by intro b; split <;> rfl
      rcases h with ⟨res, inner', hc, h⟩ | ⟨_, _, h⟩
      · refine ins x.sender x.id inner' (.inr ⟨inner, hg, (checkInner_some hc).2.1, (checkInner_some hc).2.2.2.2.1,
        (checkInner_some hc).2.2.1⟩) fun b => ?_
        rw [h, finishWait_unsettled, unsettled_setUnsettled, hu]
        split
        · next hb => rw [hb]
        · rfl
      · exact same fun b => by rw [h, finishWait_unsettled, hu]
  | cancel w h => subst h; exact same fun b => rfl
  | dispose disp no hp hn h =>
    subst h
    unfold disposeOne
    split
    · next d hd =>
      refine ⟨fun b hw => ?_, fun b no' inner w hg ht => .inl ?_⟩
      · rw [notify_unsettled, unsettled_setUnsettled]
        split
        · next hb => rw [hb]; exact hw.insert _ _
        · exact hw
      · rw [notify_unsettled, unsettled_setUnsettled] at hg
        split at hg
        · next hb =>
          rw [Map.get_insert, hb] at hg
          split at hg
          · obtain rfl : d.dispose disp = inner := by simpa using hg
            simp [DlvInner.dispose] at ht
          · exact ⟨inner, hg, ht, .inl rfl, rfl⟩
        · exact ⟨inner, hg, ht, .inl rfl, rfl⟩
    · exact ⟨fun _ => _root_.id, fun b no' inner w hg ht => .inl ⟨inner, hg, ht, .inl rfl, rfl⟩⟩
  | failDlvs b₀ hd f hf h =>
    subst h
    refine ⟨fun b hw => ?_, fun b no inner w hg ht => .inl ?_⟩
    · rw [failDeliveries_unsettled]
      split
      · next hb => rw [hb]; exact hw.mapVals _
      · exact hw
    · rw [failDeliveries_unsettled] at hg
      split at hg
      · next hb =>
        subst hb
        rw [Map.get_mapVals] at hg
        obtain ⟨inner₀, h₀, rfl⟩ := Option.map_eq_some_iff.mp hg
        split at ht
        · simp at ht
        · next hne => exact ⟨inner₀, h₀, ht, by rw [if_neg hne]; exact .inl rfl, by rw [if_neg hne]⟩
      · exact ⟨inner, hg, ht, .inl rfl, rfl⟩
  | clearSnd he h =>
    subst h
    refine ⟨fun b hw => ?_, fun b no inner w hg ht => .inl ?_⟩
    · rw [dropSent_unsettled]
      split
      · exact Map.wf_empty
      · exact hw
    · rw [dropSent_unsettled] at hg
      split at hg
      · simp at hg
      · exact ⟨inner, hg, ht, .inl rfl, rfl⟩
  | clearRcv he h =>
    subst h
    refine ⟨fun b hw => ?_, fun b no inner w hg ht => .inl ?_⟩
    · rw [dropReceived_unsettled]
      split
      · exact hw
      · exact Map.wf_empty
    · rw [dropReceived_unsettled] at hg
      split at hg
      · exact ⟨inner, hg, ht, .inl rfl, rfl⟩
      · simp at hg

theorem Micro.waitInv {s s' : Session} (h : Micro s s') (hi : WaitInv s) : WaitInv s' := by
  refine ⟨fun b => h.txKept.1 b (hi.wf b), fun w t' ht' => ?_, fun b no inner w hg ht => ?_⟩
  · have := h.waitsKept w
    rw [ht'] at this
    rcases this with ⟨t, ht, hd⟩ | ⟨_, _, x, hx⟩
    · obtain ⟨x, hx⟩ := hi.refs w t ht
      obtain ⟨x', hx', _⟩ := h.dlv_kept _ x hx
      exact ⟨x', by rw [hd]; exact hx'⟩
    · obtain ⟨x', hx', _⟩ := h.dlv_kept _ x hx
      exact ⟨x', hx'⟩
  · rcases h.txKept.2 b no inner w hg ht with ⟨inner₀, h₀, ht₀, _⟩ | ⟨hw, _, _, t, x, ht, hx, hb, hid⟩
    · obtain ⟨t, x, ht, hx, hb, hid⟩ := hi.tx b no inner₀ w h₀ ht₀
      obtain ⟨t', ht', hd⟩ := h.waitsKept.fwd ht
      obtain ⟨x', hx', hk⟩ := h.dlv_kept _ x hx
      exact ⟨t', x', ht', by rw [hd]; exact hx', hk.sender.trans hb, hk.id.trans hid⟩
    · obtain ⟨x', hx', hk⟩ := h.dlv_kept _ x hx
      exact ⟨t, x', ht, hx', hk.sender.trans hb, hk.id.trans hid⟩

theorem Session.Reachable.waitInv {s : Session} (h : Reachable s) : WaitInv s := by
  refine h.invariant ?_ (fun _ _ hm hp => hm.waitInv hp)
  rintro s ⟨id, b, mfs, ch, b, rfl⟩
  refine ⟨fun b => ?_, by simp [Session.new], fun b no inner w hg => ?_⟩
  · cases b <;> exact Map.wf_empty
  · cases b <;> simp [Session.new, unsettled] at hg

end Amqp.Rt
