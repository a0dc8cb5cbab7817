import Verif.Lemmas.SessionWaitInv
/-!
# What waiting on a sent delivery reports
-/

namespace Amqp.Rt
open Session

theorem Micro.nextInv {s s' : Session} (hm : Micro s s') (h : s.nextOutgoingId = UInt32.ofNat (begun s.log + 1)) :
    s'.nextOutgoingId = UInt32.ofNat (begun s'.log + 1) := by
  cases hm.sent with
  | quiet evs hl he hn hw => rw [hl, begun_append, begun_quiet he, hn, h, Nat.add_zero]
  | windowed f hl hn hw => rw [hl, begun_append, hn, h]; rfl
  | emit t req tag l x evs hx hr hst hs hz hl he hn hw =>
    have e₂ : begun s'.log = begun s.log + 1 := by
      have := begun_frames (transferFrames s.maxFrameSize (UInt32.ofNat l.id) s.nextOutgoingId tag req.body
        req.settled req.format)
      rw [hl, begun_append, begun_append, begun_quiet he]
      simp only [begun, List.countP_cons] at this ⊢
      rw [this]; rfl
    rw [e₂, hn, h]
    apply UInt32.toNat_inj.mp; simp [UInt32.toNat_add]

theorem Micro.begun_mono {s s' : Session} (h : Micro s s') : begun s.log ≤ begun s'.log := by
  obtain ⟨evs, hl⟩ := h.log_grows
  rw [hl, begun_append]; omega

theorem Micro.error_mono {s s' : Session} (h : Micro s s') (he : s.error.isSome) : s'.error.isSome := by
  cases h.dlv with
  | quiet evs hl _ hb hs hr => rw [hr]; exact he
  | failed hl hs hr => exact hr
  | sent tag settled h evs hl _ hb hm hs hr => rw [hr]; exact he
  | received id tag settled h evs hl _ hb hs hr => rw [hr]; exact he
  | settle d st hf h => subst h; simpa using he
  | update d st hf h => subst h; simpa using he
  | drop d hf h => subst h; simpa using he
  | wait d hf h => subst h; simpa using he
  | resume w h => subst h; simpa using he
  | cancel w h => subst h; simpa using he
  | dispose disp no hp hn h => subst h; simpa using he
  | failDlvs b hd f hf h => subst h; simpa using he
  | clearSnd _ h => subst h; simpa using he
  | clearRcv _ h => subst h; simpa using he

/-- A delivery object that was not there before. -/
theorem Micro.dlv_new {s s' : Session} (h : Micro s s') {d : Ref} {x' : Dlv} (hx' : s'.dlv? d = some x')
    (hn : s.dlv? d = none) :
    d = s.dlvs.length ∧ (x'.sender = false ∨
      (x'.sender = true ∧ x'.id = s.nextOutgoingId ∧ begun s'.log = begun s.log + 1)) ∧ x'.dropped = false ∧
      (x'.localSettled = false → ∃ inner, (s'.unsettled x'.sender).get x'.id = some inner) := by
  have same : s'.dlvs = s.dlvs → False := fun h => by rw [dlv?_congr h, hn] at hx'; simp at hx'
  have upd : ∀ (d' : Ref) (f : Dlv → Dlv), s'.dlv? d = (if d' = d then (s.dlv? d).map f else s.dlv? d) → False := by
    intro d' f h
    rw [hn, hx'] at h
    split at h <;> simp at h
  cases h.dlv with
  | quiet evs hl he hb hs hr => exact (same hs.dlvs).elim
  | failed hl hs hr => exact (same hs.dlvs).elim
  | sent tag settled h evs hl he hb hm hs hr =>
    rw [dlv?_grown (hs.dlvs.trans (addDlv_dlvs _ _ _)), hn] at hx'
    split at hx'
    · next hd =>
      obtain rfl : newDlv true s.nextOutgoingId tag settled = x' := by simpa using hx'
      refine ⟨hd, .inr ⟨rfl, rfl, by rw [hl, begun_append, hb]⟩, rfl, fun hls => ?_⟩
      rw [hs.uns, addDlv_unsettled, if_pos ⟨hls, rfl⟩, Map.get_insert, if_pos rfl]
      exact ⟨_, rfl⟩
    · simp at hx'
  | received id tag settled h evs hl he hb hs hr =>
    rw [dlv?_grown (hs.dlvs.trans (addDlv_dlvs _ _ _)), hn] at hx'
    split at hx'
    · next hd =>
      obtain rfl : newDlv false id tag settled = x' := by simpa using hx'
      refine ⟨hd, .inl rfl, rfl, fun hls => ?_⟩
      rw [hs.uns, addDlv_unsettled, if_pos ⟨hls, rfl⟩, Map.get_insert, if_pos rfl]
      exact ⟨_, rfl⟩
    · simp at hx'
  | settle d' st hf h =>
    subst h
    rcases settle_cases s d' st with h | ⟨y, hy, _, _, h⟩
    · exact (same (by rw [h])).elim
    · exact (upd d' _ (by rw [h]; exact modDlv_dlv? _ _ _ _)).elim
  | update d' st hf h => subst h; exact (same (by simp)).elim
  | drop d' hf h => subst h; exact (upd d' _ (dropDelivery_dlv? _ _ _)).elim
  | wait d' hf h => subst h; exact (same (by simp)).elim
  | resume w h =>
    subst h
    rcases waitResume_dlv? s w d with h | ⟨y, hy, h⟩
    · rw [h, hn] at hx'; simp at hx'
    · rw [hn] at hy; simp at hy
  | cancel w h => subst h; exact (same rfl).elim
  | dispose disp no hp hn h => subst h; exact (same (by simp)).elim
  | failDlvs b hd f hf h => subst h; exact (same (by simp)).elim
  | clearSnd he h => subst h; exact (same (by simp)).elim
  | clearRcv he h => subst h; exact (same (by simp)).elim

theorem Session.unsettled_wait {s : Session} {d : Ref} {x : Dlv} (hx : s.dlv? d = some x) (b : Bool) :
    (s.waitStart d).unsettled b = s.unsettled b ∨ ∃ inner inner', (s.unsettled b).get x.id = some inner ∧ x.sender = b ∧
      (s.waitStart d).unsettled b = (s.unsettled b).insert x.id inner' ∧ inner'.error = inner.error := by
  rcases waitStart_cases hx with ⟨_, h⟩ | ⟨_, _, h⟩ | ⟨inner, res, inner', _, hg, hc, h⟩ | ⟨inner, _, hg, _, _, h⟩
  · exact .inl (by rw [h]; rfl)
  · exact .inl (by rw [h]; rfl)
  · rw [h, finishWait_unsettled, unsettled_setUnsettled]
    split
    · next hb => subst hb; exact .inr ⟨inner, inner', hg, rfl, rfl, (checkInner_some hc).2.2.1⟩
    · exact .inl rfl
  · rw [h, notify_unsettled, unsettled_setUnsettled]
    split
    · next hb => subst hb; exact .inr ⟨inner, _, hg, rfl, rfl, rfl⟩
    · exact .inl rfl

theorem Session.unsettled_resume (s : Session) (w : Ref) (b : Bool) :
    (s.waitResume w).unsettled b = s.unsettled b ∨ ∃ k inner inner', (s.unsettled b).get k = some inner ∧
      (s.waitResume w).unsettled b = (s.unsettled b).insert k inner' ∧ inner'.error = inner.error ∧
      inner'.tx = inner.tx := by
  rcases waitResume_cases s w with h | ⟨d, mail, hw, ⟨_, h⟩ | ⟨x, _, hx, ⟨_, h⟩ | ⟨inner, hg, h⟩⟩⟩
  · exact .inl (by rw [h])
  · exact .inl (by rw [h]; rfl)
  · exact .inl (by rw [h]; rfl)
  · have hu : ∀ b, (if inner.settled then s.modDlv d fun d => { d with remoteSettled := true } else s).unsettled b =
        s.unsettled b := by intro b; split <;> rfl
    rcases h with ⟨res, inner', hc, h⟩ | ⟨_, _, h⟩
    · rw [h, finishWait_unsettled, unsettled_setUnsettled, hu]
      split
      · next hb =>
        subst hb
        obtain ⟨_, h₁, h₂, _⟩ := checkInner_some hc
        exact .inr ⟨x.id, inner, inner', hg, rfl, h₂, h₁⟩
      · exact .inl rfl
    · exact .inl (by rw [h, finishWait_unsettled, hu])

/-- Where the records of sent deliveries come from. -/
theorem Micro.rec_back {s s' : Session} (h : Micro s s') {no : UInt32} {inner : DlvInner}
    (hg : (s'.unsettled true).get no = some inner) :
    (∃ inner₀, (s.unsettled true).get no = some inner₀) ∨ ∃ d x, s'.dlv? d = some x ∧ x.sender = true ∧ x.id = no := by
  have ins : ∀ k inner₀ inner₁, (s.unsettled true).get k = some inner₀ →
      ((s.unsettled true).insert k inner₁).get no = some inner → ∃ inner₀, (s.unsettled true).get no = some inner₀ := by
    intro k inner₀ inner₁ h₀ h
    rw [Map.get_insert] at h
    split at h
    · next hk => subst hk; exact ⟨_, h₀⟩
    · exact ⟨_, h⟩
  cases h.dlv with
  | quiet evs hl he hb hs hr => rw [hs.uns] at hg; exact .inl ⟨_, hg⟩
  | failed hl hs hr => rw [hs.uns] at hg; exact .inl ⟨_, hg⟩
  | sent tag settled h evs hl he hb hm hs hr =>
    rw [hs.uns, addDlv_unsettled] at hg
    split at hg
    · rw [Map.get_insert] at hg
      split at hg
      · next hk =>
        refine .inr ⟨s.dlvs.length, newDlv true s.nextOutgoingId tag settled, ?_, rfl, hk⟩
        rw [dlv?_grown (hs.dlvs.trans (addDlv_dlvs _ _ _)), if_pos rfl]
      · exact .inl ⟨_, hg⟩
    · exact .inl ⟨_, hg⟩
  | received id tag settled h evs hl he hb hs hr =>
    rw [hs.uns, addDlv_unsettled, if_neg (by simp [newDlv])] at hg
    exact .inl ⟨_, hg⟩
  | settle d st hf h => subst h; rw [unsettled_settle] at hg; exact .inl ⟨_, hg⟩
  | update d st hf h => subst h; rw [unsettled_update] at hg; exact .inl ⟨_, hg⟩
  | drop d hf h =>
    subst h
    obtain ⟨⟨x, hx, hd⟩, _⟩ := free_iff.mp hf
    rcases unsettled_drop hx true with ⟨h, _⟩ | h <;> rw [h] at hg
    · exact .inl ⟨_, hg⟩
    · split at hg
      · rw [Map.get_erase] at hg
        split at hg
        · simp at hg
        · exact .inl ⟨_, hg⟩
      · exact .inl ⟨_, hg⟩
  | wait d hf h =>
    subst h
    obtain ⟨x, hx, hd⟩ := held_iff.mp hf
    rcases unsettled_wait hx true with h | ⟨i, i', h₀, _, h, _⟩ <;> rw [h] at hg
    · exact .inl ⟨_, hg⟩
    · exact .inl (ins _ _ _ h₀ hg)
  | resume w h =>
    subst h
    rcases unsettled_resume s w true with h | ⟨k, i, i', h₀, h, _⟩ <;> rw [h] at hg
    · exact .inl ⟨_, hg⟩
    · exact .inl (ins _ _ _ h₀ hg)
  | cancel w h => subst h; exact .inl ⟨_, hg⟩
  | dispose disp no' hp hn h =>
    subst h
    rw [disposeOne_unsettled] at hg
    split at hg
    · obtain ⟨i, hi, _⟩ := Option.map_eq_some_iff.mp hg
      exact .inl ⟨_, hi⟩
    · exact .inl ⟨_, hg⟩
  | failDlvs b hd f hf h =>
    subst h
    rw [failDeliveries_unsettled] at hg
    split at hg
    · next hb =>
      subst hb
      rw [Map.get_mapVals] at hg
      obtain ⟨i, hi, _⟩ := Option.map_eq_some_iff.mp hg
      exact .inl ⟨_, hi⟩
    · exact .inl ⟨_, hg⟩
  | clearSnd he h => subst h; rw [dropSent_unsettled, if_pos rfl] at hg; simp at hg
  | clearRcv he h => subst h; rw [dropReceived_unsettled, if_pos rfl] at hg; exact .inl ⟨_, hg⟩

/-- Records go away only when the session has failed or the delivery is dropped. -/
theorem Micro.rec_fwd {s s' : Session} (h : Micro s s') {b : Bool} {no : UInt32} {inner : DlvInner}
    (hg : (s.unsettled b).get no = some inner) :
    (∃ inner', (s'.unsettled b).get no = some inner') ∨ s.error.isSome ∨
      ∃ d x x', s.dlv? d = some x ∧ x.sender = b ∧ x.id = no ∧ s'.dlv? d = some x' ∧ x'.dropped = true := by
  have ins : ∀ k inner₁, ∃ inner', ((s.unsettled b).insert k inner₁).get no = some inner' := by
    intro k inner₁
    rw [Map.get_insert]
    split
    · exact ⟨_, rfl⟩
    · exact ⟨_, hg⟩
  cases h.dlv with
  | quiet evs hl he hb hs hr => rw [hs.uns]; exact .inl ⟨_, hg⟩
  | failed hl hs hr => rw [hs.uns]; exact .inl ⟨_, hg⟩
  | sent tag settled h evs hl he hb hm hs hr =>
    rw [hs.uns, addDlv_unsettled]
    split
    · exact .inl (ins _ _)
    · exact .inl ⟨_, hg⟩
  | received id tag settled h evs hl he hb hs hr =>
    rw [hs.uns, addDlv_unsettled]
    split
    · exact .inl (ins _ _)
    · exact .inl ⟨_, hg⟩
  | settle d st hf h => subst h; rw [unsettled_settle]; exact .inl ⟨_, hg⟩
  | update d st hf h => subst h; rw [unsettled_update]; exact .inl ⟨_, hg⟩
  | drop d hf h =>
    subst h
    obtain ⟨⟨x, hx, hd⟩, _⟩ := free_iff.mp hf
    rcases unsettled_drop hx b with ⟨h, _⟩ | h <;> rw [h]
    · exact .inl ⟨_, hg⟩
    · split
      · next hb =>
        by_cases hk : x.id = no
        · refine .inr (.inr ⟨d, x, { x with dropped := true }, hx, hb, hk, ?_, rfl⟩)
          rw [dropDelivery_dlv?, if_pos rfl, hx]; rfl
        · rw [Map.get_erase, if_neg hk]
          exact .inl ⟨_, hg⟩
      · exact .inl ⟨_, hg⟩
  | wait d hf h =>
    subst h
    obtain ⟨x, hx, hd⟩ := held_iff.mp hf
    rcases unsettled_wait hx b with h | ⟨i, i', h₀, _, h, _⟩ <;> rw [h]
    · exact .inl ⟨_, hg⟩
    · exact .inl (ins _ _)
  | resume w h =>
    subst h
    rcases unsettled_resume s w b with h | ⟨k, i, i', h₀, h, _⟩ <;> rw [h]
    · exact .inl ⟨_, hg⟩
    · exact .inl (ins _ _)
  | cancel w h => subst h; exact .inl ⟨_, hg⟩
  | dispose disp no' hp hn h =>
    subst h
    rw [disposeOne_unsettled]
    split
    · rw [hg]; exact .inl ⟨_, rfl⟩
    · exact .inl ⟨_, hg⟩
  | failDlvs b' hd f hf h =>
    subst h
    rw [failDeliveries_unsettled]
    split
    · next hb => subst hb; rw [Map.get_mapVals, hg]; exact .inl ⟨_, rfl⟩
    · exact .inl ⟨_, hg⟩
  | clearSnd he h => exact .inr (.inl he)
  | clearRcv he h => exact .inr (.inl he)

/-! ## Identity -/

structure OwnInv (s : Session) : Prop where
  next : s.nextOutgoingId = UInt32.ofNat (begun s.log + 1)
  ids : ∀ d x, s.dlv? d = some x → x.sender = true → ∃ i, i < begun s.log ∧ x.id = UInt32.ofNat (i + 1)
  uniq : ∀ d d' x x', s.dlv? d = some x → s.dlv? d' = some x' → x.sender = true → x'.sender = true → x.id = x'.id → d = d'
  owner : ∀ no inner, (s.unsettled true).get no = some inner → ∃ d x, s.dlv? d = some x ∧ x.sender = true ∧ x.id = no
  present : ∀ d x, s.dlv? d = some x → x.sender = true → x.localSettled = false → x.dropped = false → s.error = none →
    ∃ inner, (s.unsettled true).get x.id = some inner

theorem OwnInv.fresh {s : Session} (h : OwnInv s) (hb : begun s.log + 1 < 2 ^ 32) {d : Ref} {x : Dlv}
    (hx : s.dlv? d = some x) (hs : x.sender = true) : x.id ≠ s.nextOutgoingId := by
  intro he
  obtain ⟨i, hi, hid⟩ := h.ids d x hx hs
  rw [hid, h.next] at he
  have := congrArg UInt32.toNat he
  rw [UInt32.toNat_ofNat', UInt32.toNat_ofNat', Nat.mod_eq_of_lt (by omega), Nat.mod_eq_of_lt (by omega)] at this
  omega

theorem Session.dlv?_back {s s' : Session} (h : Micro s s') {d : Ref} {x' : Dlv} (hx' : s'.dlv? d = some x') :
    (∃ x, s.dlv? d = some x ∧ Older x x') ∨ s.dlv? d = none := by
  cases hx : s.dlv? d with
  | none => exact .inr rfl
  | some x =>
    obtain ⟨y, hy, hk⟩ := h.dlv_kept d x hx
    obtain rfl : y = x' := by simpa [hy] using hx'
    exact .inl ⟨x, rfl, hk⟩

theorem Micro.ownInv {s s' : Session} (h : Micro s s') (hi : OwnInv s) (hb : begun s'.log < 2 ^ 32) : OwnInv s' := by
  have hmono := h.begun_mono
  refine ⟨h.nextInv hi.next, ?_, ?_, ?_, ?_⟩
  · intro d x' hx' hs
    rcases dlv?_back h hx' with ⟨x, hx, hk⟩ | hn
    · obtain ⟨i, hi, hid⟩ := hi.ids d x hx (hk.sender ▸ hs)
      exact ⟨i, by omega, hk.id.trans hid⟩
    · rcases (h.dlv_new hx' hn).2.1 with hf | ⟨_, hid, hb'⟩
      · rw [hs] at hf; simp at hf
      · exact ⟨begun s.log, by omega, hid.trans hi.next⟩
  · intro d d' x' y' hx' hy' hsx hsy hid
    rcases dlv?_back h hx' with ⟨x, hx, hk⟩ | hn <;> rcases dlv?_back h hy' with ⟨y, hy, hk'⟩ | hn'
    · exact hi.uniq d d' x y hx hy (hk.sender ▸ hsx) (hk'.sender ▸ hsy) (by rw [← hk.id, ← hk'.id, hid])
    · rcases (h.dlv_new hy' hn').2.1 with hf | ⟨_, hid', hb'⟩
      · rw [hsy] at hf; simp at hf
      · exact (hi.fresh (by omega) hx (hk.sender ▸ hsx) (by rw [← hk.id, hid, hid'])).elim
    · rcases (h.dlv_new hx' hn).2.1 with hf | ⟨_, hid', hb'⟩
      · rw [hsx] at hf; simp at hf
      · exact (hi.fresh (by omega) hy (hk'.sender ▸ hsy) (by rw [← hk'.id, ← hid, hid'])).elim
    · exact (h.dlv_new hx' hn).1.trans (h.dlv_new hy' hn').1.symm
  · intro no inner hg
    rcases h.rec_back hg with ⟨inner₀, h₀⟩ | hnew
    · obtain ⟨d, x, hx, hs, hid⟩ := hi.owner no inner₀ h₀
      obtain ⟨x', hx', hk⟩ := h.dlv_kept d x hx
      exact ⟨d, x', hx', hk.sender.trans hs, hk.id.trans hid⟩
    · exact hnew
  · intro d x' hx' hs hl hd he
    rcases dlv?_back h hx' with ⟨x, hx, hk⟩ | hn
    · have hl' : x.localSettled = false := by
        cases hc : x.localSettled with
        | false => rfl
        | true => rw [hk.localSettled hc] at hl; simp at hl
      have hd' : x.dropped = false := by
        cases hc : x.dropped with
        | false => rfl
        | true => rw [hk.dropped hc] at hd; simp at hd
      have he' : s.error = none := by
        cases hc : s.error with
        | none => rfl
        | some e =>
          have := h.error_mono (by rw [hc]; rfl)
          rw [he] at this; simp at this
      obtain ⟨inner, hg⟩ := hi.present d x hx (hk.sender ▸ hs) hl' hd' he'
      rcases h.rec_fwd hg with hf | hf | ⟨d₁, y, y', hy, hsy, hidy, hy', hdr⟩
      · rw [hk.id]; exact hf
      · rw [he'] at hf; simp at hf
      · obtain rfl := hi.uniq d d₁ x y hx hy (hk.sender ▸ hs) hsy hidy.symm
        obtain rfl : y' = x' := by simpa [hy'] using hx'
        rw [hd] at hdr; simp at hdr
    · have := (h.dlv_new hx' hn).2.2.2 hl
      rwa [hs] at this

/-- The record of a delivery the application has not settled nor dropped is there, unless the session has failed or
another delivery with the same id was dropped. -/
def PresentInv (s : Session) : Prop := ∀ d x, s.dlv? d = some x → x.localSettled = false → x.dropped = false →
  s.error = none → (∃ inner, (s.unsettled x.sender).get x.id = some inner) ∨
    ∃ d' x', d' ≠ d ∧ s.dlv? d' = some x' ∧ x'.sender = x.sender ∧ x'.id = x.id ∧ x'.dropped = true

theorem Micro.presentInv {s s' : Session} (h : Micro s s') (hi : PresentInv s) : PresentInv s' := by
  intro d x' hx' hl hd he
  rcases dlv?_back h hx' with ⟨x, hx, hk⟩ | hn
  · have hl' : x.localSettled = false := by
      cases hc : x.localSettled with
      | false => rfl
      | true => rw [hk.localSettled hc] at hl; simp at hl
    have hd' : x.dropped = false := by
      cases hc : x.dropped with
      | false => rfl
      | true => rw [hk.dropped hc] at hd; simp at hd
    have he' : s.error = none := by
      cases hc : s.error with
      | none => rfl
      | some e =>
        have := h.error_mono (by rw [hc]; rfl)
        rw [he] at this; simp at this
    rw [hk.id, hk.sender]
    rcases hi d x hx hl' hd' he' with ⟨inner, hg⟩ | ⟨d', y, hne, hy, hsy, hid, hdr⟩
    · rcases h.rec_fwd hg with hf | hf | ⟨d₁, y, y', hy, hsy, hidy, hy', hdr⟩
      · exact .inl hf
      · rw [he'] at hf; simp at hf
      · obtain ⟨z, hz, hkz⟩ := h.dlv_kept d₁ y hy
        obtain rfl : z = y' := by simpa [hz] using hy'
        refine .inr ⟨d₁, z, ?_, hz, hkz.sender.trans hsy, hkz.id.trans hidy, hdr⟩
        rintro rfl
        obtain rfl : z = x' := by simpa [hz] using hx'
        rw [hd] at hdr; simp at hdr
    · obtain ⟨z, hz, hkz⟩ := h.dlv_kept d' y hy
      exact .inr ⟨d', z, hne, hz, hkz.sender.trans hsy, hkz.id.trans hid, hkz.dropped hdr⟩
  · exact .inl ((h.dlv_new hx' hn).2.2.2 hl)

theorem Session.Reachable.presentInv {s : Session} (h : Reachable s) : PresentInv s := by
  refine h.invariant ?_ (fun _ _ hm hp => hm.presentInv hp)
  rintro s ⟨id, b, mfs, ch, b, rfl⟩ d x hx
  simp [Session.new, dlv?] at hx

/-- A record with a future waiting on it has nothing to report. -/
def QuietTx (s : Session) : Prop := ∀ b no inner w, (s.unsettled b).get no = some inner → inner.tx = some w →
  inner.state = none ∧ inner.error = none

theorem Micro.quietTx {s s' : Session} (h : Micro s s') (hi : QuietTx s) : QuietTx s' := by
  intro b no inner w hg ht
  rcases h.txKept.2 b no inner w hg ht with ⟨inner₀, h₀, ht₀, h₁, h₂⟩ | ⟨_, h₁, h₂, _⟩
  · obtain ⟨h₃, h₄⟩ := hi b no inner₀ w h₀ ht₀
    rw [h₃] at h₁
    exact ⟨h₁.elim _root_.id _root_.id, h₂.trans h₄⟩
  · exact ⟨h₁, h₂⟩

theorem Session.Reachable.quietTx {s : Session} (h : Reachable s) : QuietTx s := by
  refine h.invariant ?_ (fun _ _ hm hp => hm.quietTx hp)
  rintro s ⟨id, b, mfs, ch, b, rfl⟩ b no inner w hg
  cases b <;> simp [Session.new, unsettled] at hg

/-! ## Futures -/

namespace Session

/-- A later `wait` on delivery `d` took the record's channel. -/
def Later (s : Session) (w d : Ref) : Prop := ∃ (w' : Ref) (t : WaitTask), w < w' ∧ s.waits[w']? = some t ∧ t.dlv = d

/-- The record of delivery `no` went with the session, or its link was detached. -/
def RecGone (s : Session) (no : UInt32) : Prop :=
  (s.error.isSome ∧ (s.unsettled true).get no = none) ∨
    ∃ inner, (s.unsettled true).get no = some inner ∧ inner.error.isSome

/-- What the state of future `w` on the sent delivery `x` means. -/
def WaitOk (s : Session) (w d : Ref) (x : Dlv) : WaitState → Prop
  | .waiting none => x.dropped = false ∧ x.localSettled = false ∧
      ∃ inner, (s.unsettled true).get x.id = some inner ∧ inner.tx = some w
  | .waiting (some true) => x.dropped = false ∧ x.localSettled = false ∧ (Covered s.log x.id ∨ RecGone s x.id)
  | .waiting (some false) => x.dropped = false ∧ x.localSettled = false ∧ Later s w d
  | .done (.ok (some st)) => Heard s.log x.id st
  | .done (.ok none) => x.localSettled = true ∨ Covered s.log x.id
  | .done (.error e) => (e = .linkDetached none ∧ s.error.isSome) ∨
      (∃ f, .peer (.detach f) ∈ s.log ∧ e = .linkDetached f.error) ∨ (e = .connectionDropped ∧ Later s w d)
  | .cancelled => True

theorem WaitOk.step {s s' : Session} (hm : Micro s s') {w : Ref} {t t' : WaitTask} {x x' : Dlv}
    (h : WaitOk s w t.dlv x t.st) (hk : Older x x')
    (hf : ∀ m, t.st = .waiting m → x'.dropped = x.dropped ∧ x'.localSettled = x.localSettled)
    (hg : t.st = .waiting (some true) → RecGone s x.id → RecGone s' x.id)
    (ht : (t' = t ∧ (t.st = .waiting none → ∀ inner, (s.unsettled true).get x.id = some inner → inner.tx = some w →
          ∃ inner', (s'.unsettled true).get x.id = some inner' ∧ inner'.tx = some w)) ∨
      (t' = WaitTask.wake true t ∧ (t.st = .waiting none → Covered s'.log x.id ∨ RecGone s' x.id)) ∨
      (t' = WaitTask.wake false t ∧ (t.st = .waiting none → Later s' w t.dlv))) :
    WaitOk s' w t'.dlv x' t'.st := by
  obtain ⟨evs, hl⟩ := hm.log_grows
  have later : Later s w t.dlv → Later s' w t.dlv := by
    rintro ⟨w', u, hw, hu, hd⟩
    obtain ⟨u', hu', hd'⟩ := hm.waitsKept.fwd hu
    exact ⟨w', u', hw, hu', hd'.trans hd⟩
  have cov : Covered s.log x.id → Covered s'.log x.id := fun h => by rw [hl]; exact h.append _
  have idle : (∀ m, t.st ≠ .waiting m) → WaitOk s' w t.dlv x' t.st := by
    intro hn
    rcases hst : t.st with m | r | _
    · exact (hn m hst).elim
    · rw [hst] at h
      rcases r with e | (_ | st)
      · rcases h with ⟨h, he⟩ | ⟨f, hf, h⟩ | ⟨h, hL⟩
        · exact .inl ⟨h, hm.error_mono he⟩
        · exact .inr (.inl ⟨f, by rw [hl]; simp [hf], h⟩)
        · exact .inr (.inr ⟨h, later hL⟩)
      · rcases h with h | h
        · exact .inl (hk.localSettled h)
        · exact .inr (by rw [hk.id]; exact cov h)
      · show Heard _ _ _
        rw [hk.id, hl]
        exact Heard.append h _
    · trivial
  have waked : ∀ m, (WaitTask.wake m t).dlv = t.dlv := fun m => wake_dlv m t
  have mailed : ∀ b, t.st = .waiting (some b) → WaitOk s' w t.dlv x' t.st := by
    intro b hst
    obtain ⟨hd, hs⟩ := hf _ hst
    rw [hst] at h ⊢
    cases b with
    | true =>
      obtain ⟨h₁, h₂, h₃⟩ := h
      refine ⟨hd.trans h₁, hs.trans h₂, ?_⟩
      rw [hk.id]
      exact h₃.imp cov (hg hst)
    | false =>
      obtain ⟨h₁, h₂, h₃⟩ := h
      exact ⟨hd.trans h₁, hs.trans h₂, later h₃⟩
  have wst : ∀ m, (t.st = .waiting none ∧ (WaitTask.wake m t).st = .waiting (some m)) ∨
      (WaitTask.wake m t).st = t.st ∧ t.st ≠ .waiting none := by
    intro m
    rcases t with ⟨d, st⟩
    cases st with
    | waiting mail => cases mail <;> simp [WaitTask.wake]
    | done _ => simp [WaitTask.wake]
    | cancelled => simp [WaitTask.wake]
  have other : t.st ≠ .waiting none → WaitOk s' w t.dlv x' t.st := by
    intro hne
    rcases hst : t.st with m | r | _
    · rcases m with _ | b
      · exact (hne hst).elim
      · rw [← hst]; exact mailed b hst
    · rw [← hst]; exact idle (by simp [hst])
    · rw [← hst]; exact idle (by simp [hst])
  rcases ht with ⟨rfl, hA⟩ | ⟨rfl, hB⟩ | ⟨rfl, hC⟩
  · by_cases hst : t'.st = .waiting none
    · obtain ⟨hd, hs⟩ := hf _ hst
      rw [hst] at h ⊢
      obtain ⟨h₁, h₂, inner, hi, htx⟩ := h
      refine ⟨hd.trans h₁, hs.trans h₂, ?_⟩
      rw [hk.id]
      exact hA hst inner hi htx
    · exact other hst
  · rw [waked]
    rcases wst true with ⟨hst, hw⟩ | ⟨hw, hst⟩
    · rw [hw]
      obtain ⟨hd, hs⟩ := hf _ hst
      rw [hst] at h
      exact ⟨hd.trans h.1, hs.trans h.2.1, by rw [hk.id]; exact hB hst⟩
    · rw [hw]; exact other hst
  · rw [waked]
    rcases wst false with ⟨hst, hw⟩ | ⟨hw, hst⟩
    · rw [hw]
      obtain ⟨hd, hs⟩ := hf _ hst
      rw [hst] at h
      exact ⟨hd.trans h.1, hs.trans h.2.1, hC hst⟩
    · rw [hw]; exact other hst

end Session

/-- While a future waits on a delivery, its flags do not change. -/
theorem Micro.flags_kept {s s' : Session} (h : Micro s s') {d w : Ref} {x x' : Dlv} {t : WaitTask} {m}
    (hx : s.dlv? d = some x) (hx' : s'.dlv? d = some x') (ht : s.waits[w]? = some t) (hd : t.dlv = d)
    (hst : t.st = .waiting m) : x'.dropped = x.dropped ∧ x'.localSettled = x.localSettled := by
  have same : s'.dlv? d = s.dlv? d → x'.dropped = x.dropped ∧ x'.localSettled = x.localSettled := by
    intro h
    rw [h, hx] at hx'
    obtain rfl : x = x' := by simpa using hx'
    exact ⟨rfl, rfl⟩
  cases h.dlv with
  | quiet evs hl he hb hs hr => exact same (dlv?_congr hs.dlvs d)
  | failed hl hs hr => exact same (dlv?_congr hs.dlvs d)
  | sent tag settled h evs hl he hb hm hs hr =>
    refine same ?_
    rw [dlv?_grown (hs.dlvs.trans (addDlv_dlvs _ _ _)), if_neg (Nat.ne_of_lt (dlv?_lt hx))]
  | received id tag settled h evs hl he hb hs hr =>
    refine same ?_
    rw [dlv?_grown (hs.dlvs.trans (addDlv_dlvs _ _ _)), if_neg (Nat.ne_of_lt (dlv?_lt hx))]
  | settle d' st hf h =>
    subst h
    have hne : d' ≠ d := fun he => (free_iff.mp hf).2 w t ht m hst (hd.trans he.symm)
    rcases settle_cases s d' st with h | ⟨y, hy, _, _, h⟩
    · exact same (by rw [h])
    · refine same ?_
      rw [h]
      exact (modDlv_dlv? _ _ _ _).trans (if_neg hne)
  | update d' st hf h => subst h; exact same (dlv?_congr (by simp) d)
  | drop d' hf h =>
    subst h
    have hne : d' ≠ d := fun he => (free_iff.mp hf).2 w t ht m hst (hd.trans he.symm)
    exact same (by rw [dropDelivery_dlv?, if_neg hne])
  | wait d' hf h => subst h; exact same (dlv?_congr (by simp) d)
  | resume w h =>
    subst h
    rcases waitResume_dlv? s w d with h | ⟨y, hy, h⟩
    · exact same h
    · obtain rfl : y = x := by simpa [hy] using hx
      rw [h] at hx'
      obtain rfl : { y with remoteSettled := true } = x' := by simpa using hx'
      exact ⟨rfl, rfl⟩
  | cancel w h => subst h; exact same (dlv?_congr rfl d)
  | dispose disp no hp hn h => subst h; exact same (dlv?_congr (by simp) d)
  | failDlvs b hd f hf h => subst h; exact same (dlv?_congr (by simp) d)
  | clearSnd he h => subst h; exact same (dlv?_congr (by simp) d)
  | clearRcv he h => subst h; exact same (dlv?_congr (by simp) d)

def WaitsOk (s : Session) : Prop := ∀ (w : Ref) (t : WaitTask) (x : Dlv), s.waits[w]? = some t →
  s.dlv? t.dlv = some x → x.sender = true → WaitOk s w t.dlv x t.st

theorem Micro.waitsOk {s s' : Session} (h : Micro s s') (hw : WaitInv s) (ho : OwnInv s) (hr : RecInv s)
    (hb : begun s'.log < 2 ^ 32) (hi : WaitsOk s) : WaitsOk s' := by
  intro w t' x' ht' hx' hs'
  -- how to conclude for a future that was there before
  have key : ∀ t x, s.waits[w]? = some t → s.dlv? t.dlv = some x → x.sender = true → t'.dlv = t.dlv →
      (t.st = .waiting (some true) → RecGone s x.id → RecGone s' x.id) →
      ((t' = t ∧ (t.st = .waiting none → ∀ inner, (s.unsettled true).get x.id = some inner → inner.tx = some w →
          ∃ inner', (s'.unsettled true).get x.id = some inner' ∧ inner'.tx = some w)) ∨
      (t' = WaitTask.wake true t ∧ (t.st = .waiting none → Covered s'.log x.id ∨ RecGone s' x.id)) ∨
      (t' = WaitTask.wake false t ∧ (t.st = .waiting none → Later s' w t.dlv))) → WaitOk s' w t'.dlv x' t'.st := by
    intro t x ht hx hs hd hg hc
    obtain ⟨y, hy, hk⟩ := h.dlv_kept _ x hx
    obtain rfl : y = x' := by rw [hd, hy] at hx'; simpa using hx'
    exact (hi w t x ht hx hs).step h hk (fun m hm => h.flags_kept hx hy ht rfl hm) hg hc
  -- a future that was there before, on a sent delivery
  have old : ∀ t, s.waits[w]? = some t → t'.dlv = t.dlv → ∃ x, s.dlv? t.dlv = some x ∧ x.sender = true := by
    intro t ht hd
    obtain ⟨x, hx⟩ := hw.refs w t ht
    obtain ⟨y, hy, hk⟩ := h.dlv_kept _ x hx
    obtain rfl : y = x' := by rw [hd, hy] at hx'; simpa using hx'
    exact ⟨x, hx, hk.sender ▸ hs'⟩
  have gone : ∀ no, s'.error = s.error → (s'.unsettled true).get no = (s.unsettled true).get no → RecGone s no → RecGone s' no := by
    intro no h₁ h₂ hg
    unfold RecGone
    rw [h₁, h₂]
    exact hg
  -- nothing happened to this future and its record
  have same : s'.waits[w]? = s.waits[w]? → s.error = s'.error ∨ s'.error.isSome → (∀ x, s.dlv? t'.dlv = some x → x.sender = true →
      (s'.unsettled true).get x.id = (s.unsettled true).get x.id) → WaitOk s' w t'.dlv x' t'.st := by
    intro h₁ h₂ h₃
    rw [h₁] at ht'
    obtain ⟨x, hx, hs⟩ := old t' ht' rfl
    have h₃ := h₃ x hx hs
    refine key t' x ht' hx hs rfl (fun _ hg => ?_) (.inl ⟨rfl, fun _ inner hin htx => ⟨inner, by rw [h₃]; exact hin, htx⟩⟩)
    unfold RecGone
    rw [h₃]
    rcases hg with ⟨he, hg⟩ | hg
    · exact .inl ⟨h.error_mono he, hg⟩
    · exact .inr hg
  -- a future of a received delivery is woken
  have notMine : ∀ (no : UInt32) inner, (s.unsettled false).get no = some inner → inner.tx = some w → ∀ t, s.waits[w]? = some t →
      t'.dlv = t.dlv → False := by
    intro no inner hin htx t ht hd
    obtain ⟨t₁, x₁, ht₁, hx₁, hs₁, _⟩ := hw.tx false no inner w hin htx
    obtain rfl : t₁ = t := by simpa [ht₁] using ht
    obtain ⟨x, hx, hs⟩ := old t₁ ht hd
    obtain rfl : x₁ = x := by simpa [hx₁] using hx
    rw [hs] at hs₁; simp at hs₁
  have hmono := h.begun_mono
  cases h.dlv with
  | quiet evs hl he hb hs hr => exact same (hs.waits_get w) (.inl hr.symm) fun _ _ _ => by rw [hs.uns]
  | failed hl hs hr => exact same (hs.waits_get w) (.inr hr) fun _ _ _ => by rw [hs.uns]
  | sent tag settled hd evs hl he hbe hm hs hre =>
    have hb' : begun s.log + 1 < 2 ^ 32 := by rw [hl, begun_append, hbe] at hb; exact hb
    have hnone : (s.unsettled true).get s.nextOutgoingId = none := by
      cases hg : (s.unsettled true).get s.nextOutgoingId with
      | none => rfl
      | some inner =>
        obtain ⟨d, x, hx, hsx, hid⟩ := ho.owner _ _ hg
        exact (ho.fresh hb' hx hsx hid).elim
    refine same ?_ (.inl hre.symm) fun x hx hsx => ?_
    · rw [hs.waits_get, addDlv_waits, if_neg]
      rintro ⟨_, h⟩
      have : ((s.unsettled true).get s.nextOutgoingId).bind DlvInner.tx = some w := h
      rw [hnone] at this
      simp at this
    · rw [hs.uns, addDlv_unsettled]
      split
      · rw [Map.get_insert, if_neg]
        exact fun h => ho.fresh hb' hx hsx h.symm
      · rfl
  | received id tag settled hd evs hl he hbe hs hre =>
    have hu : ∀ no, (s'.unsettled true).get no = (s.unsettled true).get no := by
      intro no; rw [hs.uns, addDlv_unsettled, if_neg (by simp [newDlv])]
    have hwt := (hs.waits_get w).trans (addDlv_waits _ _ _ _)
    split at hwt
    · next hc =>
      obtain ⟨inner, hin, htx⟩ := Option.bind_eq_some_iff.mp hc.2
      rw [ht'] at hwt
      obtain ⟨t, ht, rfl⟩ := Option.map_eq_some_iff.mp hwt.symm
      exact (notMine _ inner hin htx t ht (wake_dlv _ _)).elim
    · exact same hwt (.inl hre.symm) fun x _ _ => hu x.id
  | settle d st hf h => subst h; exact same (by simp) (.inl (by simp)) fun _ _ _ => by rw [unsettled_settle]
  | update d st hf h => subst h; exact same (by simp) (.inl (by simp)) fun _ _ _ => by rw [unsettled_update]
  | drop d hf h =>
    subst h
    obtain ⟨⟨y, hy, hdr⟩, hfree⟩ := free_iff.mp hf
    -- records of other deliveries stay
    have hrec : ∀ x e, s.dlv? e = some x → x.sender = true → e ≠ d →
        ((s.dropDelivery d).unsettled true).get x.id = (s.unsettled true).get x.id := by
      intro x e hx hsx hne
      rcases unsettled_drop hy true with ⟨h, _⟩ | h <;> rw [h]
      split
      · next hsy =>
        rw [Map.get_erase, if_neg]
        exact fun hid => hne (ho.uniq e d x y hx hy hsx hsy hid.symm)
      · rfl
    have hwt : (s.dropDelivery d).waits[w]? = s.waits[w]? ∨ ((s.unsettled y.sender).get y.id).bind DlvInner.tx = some w ∧
        (s.dropDelivery d).waits[w]? = s.waits[w]?.map (WaitTask.wake true) := by
      have hrw : (s.dropRecord d y).waits[w]? = if ((s.unsettled y.sender).get y.id).bind DlvInner.tx = some w then
          s.waits[w]?.map (WaitTask.wake true) else s.waits[w]? := by
        rw [dropRecord, notify_get, setUnsettled_waits]; rfl
      have hrw' : (s.dropRecord d y).waits[w]? = s.waits[w]? ∨ ((s.unsettled y.sender).get y.id).bind DlvInner.tx = some w ∧
        (s.dropRecord d y).waits[w]? = s.waits[w]?.map (WaitTask.wake true) := by
        rw [hrw]
        split
        · next hc => exact .inr ⟨hc, rfl⟩
        · exact .inl rfl
      rcases dropDelivery_cases hy with ⟨_, h⟩ | ⟨inner, _, ⟨_, _, h⟩ | ⟨_, h⟩⟩
      · exact .inl (by rw [h]; rfl)
      · rw [h]; exact hrw'
      · rw [h]; exact hrw'
    have fin : ∀ t, s.waits[w]? = some t → t' = t → WaitOk (s.dropDelivery d) w t'.dlv x' t'.st := by
      intro t ht hte
      obtain ⟨x, hx, hsx⟩ := old t ht (by rw [hte])
      by_cases hd : t.dlv = d
      · refine key t x ht hx hsx (by rw [hte]) (fun hst => ?_) (.inl ⟨hte, fun hst => ?_⟩)
        · exact (hfree w t ht _ hst hd).elim
        · exact (hfree w t ht _ hst hd).elim
      · have hre := hrec x t.dlv hx hsx hd
        refine key t x ht hx hsx (by rw [hte]) (fun _ => gone _ (by simp) hre)
          (.inl ⟨hte, fun _ inner hin htx => ⟨inner, by rw [hre]; exact hin, htx⟩⟩)
    rcases hwt with hwt | ⟨hc, hwt⟩
    · rw [hwt] at ht'
      exact fin t' ht' rfl
    · rw [ht'] at hwt
      obtain ⟨t, ht, hte⟩ := Option.map_eq_some_iff.mp hwt.symm
      obtain ⟨inner, hin, htx⟩ := Option.bind_eq_some_iff.mp hc
      obtain ⟨t₁, x₁, ht₁, hx₁, hs₁, hid₁⟩ := hw.tx _ _ inner w hin htx
      obtain rfl : t₁ = t := by simpa [ht₁] using ht
      have hdl : t'.dlv = t₁.dlv := by rw [← hte, wake_dlv]
      obtain ⟨x, hx, hsx⟩ := old t₁ ht hdl
      obtain rfl : x₁ = x := by simpa [hx₁] using hx
      have hd := ho.uniq t₁.dlv d x₁ y hx hy hsx (hs₁ ▸ hsx) hid₁
      refine fin t₁ ht ?_
      rw [← hte]
      have := hfree w t₁ ht
      rcases t₁ with ⟨e, st⟩
      cases st with
      | waiting m => exact (this m rfl hd).elim
      | done _ => rfl
      | cancelled => rfl
  | wait d hf h =>
    subst h
    obtain ⟨y, hy, hdr⟩ := held_iff.mp hf
    have hx₀ : ∀ e, (s.waitStart d).dlv? e = s.dlv? e := dlv?_congr (by simp)
    by_cases hwl : w = s.waits.length
    · subst hwl
      have hdl : t'.dlv = d := by
        rcases waitStart_waits hy s.waits.length with ⟨t, ht, _⟩ | ⟨_, hn | ⟨_, u, hu, hd⟩⟩
        · simp at ht
        · rw [ht'] at hn; simp at hn
        · obtain rfl : u = t' := by simpa [hu] using ht'
          exact hd
      rw [hdl, hx₀, hy] at hx'
      obtain rfl : y = x' := by simpa using hx'
      rcases waitStart_cases hy with ⟨hls, h⟩ | ⟨hls, hn, h⟩ | ⟨inner, res, inner', hls, hg, hc, h⟩ | ⟨inner, hls, hg, _, _, h⟩
      · rw [h, finishWait_get, if_pos rfl, pushWait_get, if_pos rfl] at ht'
        obtain rfl : (⟨d, .done (.ok none)⟩ : WaitTask) = t' := by simpa using ht'
        exact .inl hls
      · rw [h, finishWait_get, if_pos rfl, pushWait_get, if_pos rfl] at ht'
        obtain rfl : (⟨d, .done (.error (.linkDetached none))⟩ : WaitTask) = t' := by simpa using ht'
        refine .inl ⟨rfl, ?_⟩
        rw [waitStart_error]
        cases he : s.error with
        | some e => rfl
        | none =>
          obtain ⟨inner, hin⟩ := ho.present d y hy hs' hls hdr he
          rw [hs', hin] at hn; simp at hn
      · rw [h, finishWait_get, if_pos rfl, setUnsettled_waits, pushWait_get, if_pos rfl] at ht'
        obtain rfl : (⟨d, .done res⟩ : WaitTask) = t' := by simpa using ht'
        rw [hs'] at hg
        obtain ⟨_, _, _, _, _, hres⟩ := checkInner_some hc
        rcases hres with ⟨st, hst, rfl⟩ | ⟨e, he, rfl⟩
        · show Heard _ _ _
          rw [waitStart_log]
          exact (hr _ _ hg).state st hst
        · obtain ⟨f, hf, hfe⟩ := (hr _ _ hg).error e he
          exact .inr (.inl ⟨f, by rw [waitStart_log]; exact hf, hfe⟩)
      · rw [hs'] at hg h
        have htx : inner.tx ≠ some s.waits.length := by
          intro htx
          obtain ⟨t, _, ht, _⟩ := hw.tx true _ inner _ hg htx
          simp at ht
        have ht'' := ht'
        rw [h, notify_get, if_neg htx, setUnsettled_waits, pushWait_get, if_pos rfl] at ht''
        obtain rfl : (⟨d, .waiting none⟩ : WaitTask) = t' := by simpa using ht''
        refine ⟨hdr, hls, { inner with tx := some s.waits.length }, ?_, rfl⟩
        rw [h, notify_unsettled, unsettled_setUnsettled, if_pos rfl, Map.get_insert, if_pos rfl]
    · -- an older future
      have herr : (s.waitStart d).error = s.error := by simp
      rcases waitStart_cases hy with ⟨hls, h⟩ | ⟨hls, hn, h⟩ | ⟨inner, res, inner', hls, hg, hc, h⟩ | ⟨inner, hls, hg, _, _, h⟩
      · refine same ?_ (.inl herr.symm) fun x _ _ => by rw [h]; rfl
        rw [h, finishWait_get, if_neg (Ne.symm hwl), pushWait_get, if_neg hwl]
      · refine same ?_ (.inl herr.symm) fun x _ _ => by rw [h]; rfl
        rw [h, finishWait_get, if_neg (Ne.symm hwl), pushWait_get, if_neg hwl]
      · have hwt : (s.waitStart d).waits[w]? = s.waits[w]? := by
          rw [h, finishWait_get, if_neg (Ne.symm hwl), setUnsettled_waits, pushWait_get, if_neg hwl]
        rw [hwt] at ht'
        obtain ⟨x, hx, hsx⟩ := old t' ht' rfl
        obtain ⟨_, h₁, h₂, _⟩ := checkInner_some hc
        have hu : ((s.waitStart d).unsettled true).get x.id = if y.sender = true ∧ y.id = x.id then some inner' else
            (s.unsettled true).get x.id := by
          rw [h, finishWait_unsettled, unsettled_setUnsettled]
          by_cases hsy : y.sender = true
          · rw [if_pos hsy, Map.get_insert, hsy]; simp
          · simp [hsy]
        refine key t' x ht' hx hsx rfl (fun _ hg' => ?_) (.inl ⟨rfl, fun _ inner₀ hin htx => ?_⟩)
        · unfold RecGone
          rw [hu, herr]
          split
          · next hc' =>
            rw [hc'.1, hc'.2] at hg
            right
            rcases hg' with ⟨_, hgn⟩ | ⟨i, hi', he⟩
            · rw [hg] at hgn; simp at hgn
            · obtain rfl : inner = i := by simpa [hg] using hi'
              exact ⟨inner', rfl, by rw [h₂]; exact he⟩
          · exact hg'
        · rw [hu]
          split
          · next hc' =>
            rw [hc'.1, hc'.2, hin] at hg
            obtain rfl : inner₀ = inner := by simpa using hg
            exact ⟨inner', rfl, h₁.trans htx⟩
          · exact ⟨inner₀, hin, htx⟩
      · have hwt : (s.waitStart d).waits[w]? = if inner.tx = some w then s.waits[w]?.map (WaitTask.wake false) else s.waits[w]? := by
          rw [h, notify_get, setUnsettled_waits, pushWait_get, if_neg hwl]
        have hu : ∀ no, ((s.waitStart d).unsettled true).get no = if y.sender = true ∧ y.id = no then
            some { inner with tx := some s.waits.length } else (s.unsettled true).get no := by
          intro no
          rw [h, notify_unsettled, unsettled_setUnsettled]
          by_cases hsy : y.sender = true
          · rw [if_pos hsy, Map.get_insert, hsy]; simp
          · simp [hsy]
        have hgone : ∀ no, RecGone s no → RecGone (s.waitStart d) no := by
          intro no hg'
          unfold RecGone
          rw [hu, herr]
          split
          · next hc' =>
            rw [hc'.1, hc'.2] at hg
            right
            rcases hg' with ⟨_, hgn⟩ | ⟨i, hi', he⟩
            · rw [hg] at hgn; simp at hgn
            · obtain rfl : inner = i := by simpa [hg] using hi'
              exact ⟨_, rfl, he⟩
          · exact hg'
        split at hwt
        · next htx =>
          rw [ht'] at hwt
          obtain ⟨t, ht, hte⟩ := Option.map_eq_some_iff.mp hwt.symm
          have hdl : t'.dlv = t.dlv := by rw [← hte, wake_dlv]
          obtain ⟨x, hx, hsx⟩ := old t ht hdl
          refine key t x ht hx hsx hdl (fun _ => hgone _) (.inr (.inr ⟨hte.symm, fun _ => ?_⟩))
          obtain ⟨t₁, x₁, ht₁, hx₁, hs₁, hid₁⟩ := hw.tx _ _ inner w hg htx
          obtain rfl : t₁ = t := by simpa [ht₁] using ht
          obtain rfl : x₁ = x := by simpa [hx₁] using hx
          have hd := ho.uniq t₁.dlv d x₁ y hx hy hsx (hs₁ ▸ hsx) hid₁
          rcases waitStart_waits hy s.waits.length with ⟨t, ht, _⟩ | ⟨_, hn | ⟨_, u, hu, hdu⟩⟩
          · simp at ht
          · rw [h, notify_get, setUnsettled_waits, pushWait_get] at hn
            simp at hn
            split at hn <;> simp at hn
          · exact ⟨s.waits.length, u, (List.getElem?_eq_some_iff.mp ht).1, hu, hdu.trans hd.symm⟩
        · next htx =>
          rw [hwt] at ht'
          obtain ⟨x, hx, hsx⟩ := old t' ht' rfl
          refine key t' x ht' hx hsx rfl (fun _ => hgone _) (.inl ⟨rfl, fun _ inner₀ hin htx₀ => ?_⟩)
          rw [hu]
          split
          · next hc' =>
            rw [hc'.1, hc'.2, hin] at hg
            obtain rfl : inner₀ = inner := by simpa using hg
            exact (htx htx₀).elim
          · exact ⟨inner₀, hin, htx₀⟩
  | resume v h =>
    subst h
    have herr : (s.waitResume v).error = s.error := by simp
    have hgone : ∀ no, RecGone s no → RecGone (s.waitResume v) no := by
      intro no hg
      unfold RecGone
      rw [herr]
      rcases unsettled_resume s v true with h | ⟨k, i, i', h₀, h, he, _⟩ <;> rw [h]
      · exact hg
      · rw [Map.get_insert]
        split
        · next hk =>
          subst hk
          right
          rcases hg with ⟨_, hgn⟩ | ⟨j, hj, hje⟩
          · rw [h₀] at hgn; simp at hgn
          · obtain rfl : i = j := by simpa [h₀] using hj
            exact ⟨i', rfl, by rw [he]; exact hje⟩
        · exact hg
    have hkeep : ∀ no inner, (s.unsettled true).get no = some inner → inner.tx = some w →
        ∃ inner', ((s.waitResume v).unsettled true).get no = some inner' ∧ inner'.tx = some w := by
      intro no inner hin htx
      rcases unsettled_resume s v true with h | ⟨k, i, i', h₀, h, _, he⟩ <;> rw [h]
      · exact ⟨inner, hin, htx⟩
      · rw [Map.get_insert]
        split
        · next hk =>
          subst hk
          obtain rfl : i = inner := by simpa [h₀] using hin
          exact ⟨i', rfl, he.trans htx⟩
        · exact ⟨inner, hin, htx⟩
    have idle : (s.waitResume v).waits[w]? = s.waits[w]? → WaitOk (s.waitResume v) w t'.dlv x' t'.st := by
      intro hwt
      rw [hwt] at ht'
      obtain ⟨x, hx, hsx⟩ := old t' ht' rfl
      exact key t' x ht' hx hsx rfl (fun _ => hgone _) (.inl ⟨rfl, fun _ => hkeep _⟩)
    by_cases hwv : v = w
    · subst hwv
      rcases waitResume_cases s v with h | ⟨d, mail, hwd, hcase⟩
      · exact idle (by rw [h])
      · -- the future is finished
        have fin : ∀ (s₁ : Session) res, s₁.waits = s.waits → s.waitResume v = s₁.finishWait v res → t' = ⟨d, .done res⟩ := by
          intro s₁ res h₁ h
          rw [h, finishWait_get, if_pos rfl, h₁, hwd] at ht'
          simpa using ht'.symm
        obtain ⟨y, hy⟩ := hw.refs v _ hwd
        have hold : ∀ res, t' = ⟨d, .done res⟩ → y.sender = true ∧ y.id = x'.id ∧ (x'.localSettled = y.localSettled) := by
          rintro res rfl
          obtain ⟨y', hy', hk⟩ := h.dlv_kept d y hy
          obtain rfl : y' = x' := by simpa [hy'] using hx'
          exact ⟨hk.sender ▸ hs', hk.id.symm, (h.flags_kept hy hy' hwd rfl rfl).2⟩
        rcases hcase with ⟨rfl, h⟩ | ⟨x, rfl, hx, hcase⟩
        · have hte := fin s _ rfl h
          obtain ⟨hsy, hid, _⟩ := hold _ hte
          have := hi v _ y hwd hy hsy
          obtain ⟨_, _, w', u, hlt, hu, hdu⟩ : _ ∧ _ ∧ Later s v d := this
          rw [hte]
          refine .inr (.inr ⟨rfl, ?_⟩)
          obtain ⟨u', hu', hdu'⟩ := (MicroOn.waitsKept (A := fun _ => True) (.waitResume v)).fwd hu
          exact ⟨w', u', hlt, hu', hdu'.trans hdu⟩
        · obtain rfl : y = x := by simpa [hy] using hx
          rcases hcase with ⟨hn, h⟩ | ⟨inner, hg, hcase⟩
          · have hte := fin s _ rfl h
            obtain ⟨hsy, hid, _⟩ := hold _ hte
            obtain ⟨hd₁, hd₂, _⟩ : _ ∧ _ ∧ (Covered s.log y.id ∨ RecGone s y.id) := hi v _ y hwd hy hsy
            rw [hte]
            refine .inl ⟨rfl, ?_⟩
            rw [herr]
            cases he : s.error with
            | some e => rfl
            | none =>
              obtain ⟨inner, hin⟩ := ho.present d y hy hsy hd₂ hd₁ he
              rw [hsy, hin] at hn; simp at hn
          · rcases hcase with ⟨res, inner', hc, h⟩ | ⟨hst, herr', h⟩
            · have hte := fin _ _ (by rw [setUnsettled_waits]; split <;> rfl) h
              obtain ⟨hsy, hid, _⟩ := hold _ hte
              rw [hsy] at hg
              obtain ⟨_, _, _, _, _, hres⟩ := checkInner_some hc
              rw [hte]
              rcases hres with ⟨st, hst, rfl⟩ | ⟨e, he, rfl⟩
              · show Heard _ _ _
                rw [waitResume_log, ← hid]
                exact (hr _ _ hg).state st hst
              · obtain ⟨f, hf, hfe⟩ := (hr _ _ hg).error e he
                exact .inr (.inl ⟨f, by rw [waitResume_log]; exact hf, hfe⟩)
            · have hte := fin _ _ (by split <;> rfl) h
              obtain ⟨hsy, hid, _⟩ := hold _ hte
              obtain ⟨hd₁, hd₂, hor⟩ : _ ∧ _ ∧ (Covered s.log y.id ∨ RecGone s y.id) := hi v _ y hwd hy hsy
              rw [hsy] at hg
              rw [hte]
              refine .inr ?_
              rw [waitResume_log, ← hid]
              rcases hor with hor | ⟨_, hgn⟩ | ⟨i, hi', he⟩
              · exact hor
              · rw [hg] at hgn; simp at hgn
              · obtain rfl : inner = i := by simpa [hg] using hi'
                rw [herr'] at he; simp at he
    · refine idle ?_
      rcases waitResume_cases s v with h | ⟨d, mail, hwd, ⟨_, h⟩ | ⟨x, _, hx, ⟨_, h⟩ | ⟨inner, hg, h⟩⟩⟩
      · rw [h]
      · rw [h, finishWait_get, if_neg hwv]
      · rw [h, finishWait_get, if_neg hwv]
      · rcases h with ⟨res, inner', hc, h⟩ | ⟨_, _, h⟩
        · rw [h, finishWait_get, if_neg hwv, setUnsettled_waits]; split <;> rfl
        · rw [h, finishWait_get, if_neg hwv]; split <;> rfl
  | cancel v h =>
    subst h
    by_cases hv : v = w
    · rw [modWait_get, if_pos hv] at ht'
      obtain ⟨t, ht, hte⟩ := Option.map_eq_some_iff.mp ht'
      obtain ⟨x, hx, hsx⟩ := old t ht (by rw [← hte])
      cases hst : t.st with
      | done r =>
        refine key t x ht hx hsx (by rw [← hte]) (fun h => by rw [hst] at h; simp at h)
          (.inl ⟨?_, fun h => by rw [hst] at h; simp at h⟩)
        rw [← hte]
        rcases t with ⟨e, st⟩
        simp only at hst
        simp [hst]
      | waiting m => rw [← hte]; simp only [hst]; trivial
      | cancelled => rw [← hte]; simp only [hst]; trivial
    · exact same (by rw [modWait_get, if_neg hv]) (.inl rfl) fun _ _ _ => rfl
  | dispose disp no hp hn h =>
    subst h
    have hwt := disposeOne_waits (decide (disp.role = .receiver)) disp s no w
    have herr : (disposeOne (decide (disp.role = .receiver)) disp s no).error = s.error := by simp
    have hgone : ∀ k, RecGone s k → RecGone (disposeOne (decide (disp.role = .receiver)) disp s no) k := by
      intro k hg
      unfold RecGone
      rw [herr, disposeOne_unsettled]
      split
      · rcases hg with ⟨he, hg⟩ | ⟨i, hi', he⟩
        · exact .inl ⟨he, by rw [hg]; rfl⟩
        · exact .inr ⟨i.dispose disp, by rw [hi']; rfl, he⟩
      · exact hg
    split at hwt
    · next hc =>
      obtain ⟨inner, hin, htx⟩ := Option.bind_eq_some_iff.mp hc
      rw [ht'] at hwt
      obtain ⟨t, ht, hte⟩ := Option.map_eq_some_iff.mp hwt.symm
      have hdl : t'.dlv = t.dlv := by rw [← hte, wake_dlv]
      obtain ⟨t₁, x₁, ht₁, hx₁, hs₁, hid₁⟩ := hw.tx _ _ inner w hin htx
      obtain rfl : t₁ = t := by simpa [ht₁] using ht
      obtain ⟨x, hx, hsx⟩ := old t₁ ht hdl
      obtain rfl : x₁ = x := by simpa [hx₁] using hx
      rw [hsx] at hs₁
      refine key t₁ x₁ ht hx hsx hdl (fun _ => hgone _) (.inr (.inl ⟨hte.symm, fun _ => .inl ?_⟩))
      rw [disposeOne_log, hid₁]
      rw [← hs₁] at hin
      obtain ⟨⟨a, r, hb⟩, _, _⟩ := hr _ _ hin
      obtain ⟨pre, hpre⟩ := List.getLast?_eq_some_iff.mp hp
      refine ⟨pre, disp, [], hpre, ⟨a, r, ?_⟩, by simpa using hs₁.symm, covers_of hn⟩
      rw [hpre] at hb
      simpa using hb
    · next hc =>
      rw [hwt] at ht'
      obtain ⟨x, hx, hsx⟩ := old t' ht' rfl
      refine key t' x ht' hx hsx rfl (fun _ => hgone _) (.inl ⟨rfl, fun _ inner hin htx => ?_⟩)
      rw [disposeOne_unsettled, if_neg]
      · exact ⟨inner, hin, htx⟩
      · rintro ⟨h₁, h₂⟩
        rw [h₁, h₂, hin] at hc
        exact hc htx
  | failDlvs b hd f hf h =>
    subst h
    have hwt := failDeliveries_waits s b hd (.linkDetached f.error) w
    have herr : (s.failDeliveries b hd (.linkDetached f.error)).error = s.error := by simp
    have hgone : ∀ k, RecGone s k → RecGone (s.failDeliveries b hd (.linkDetached f.error)) k := by
      intro k hg
      unfold RecGone
      rw [herr, failDeliveries_unsettled]
      split
      · next hb' =>
        subst hb'
        rw [Map.get_mapVals]
        rcases hg with ⟨he, hg⟩ | ⟨i, hi', he⟩
        · exact .inl ⟨he, by rw [hg]; rfl⟩
        · refine .inr ⟨_, by rw [hi']; rfl, ?_⟩
          dsimp only
          split
          · rfl
          · exact he
      · exact hg
    split at hwt
    · next hc =>
      obtain ⟨⟨no, inner⟩, hmem, hc⟩ := List.any_eq_true.mp hc
      have hin := (hw.wf b).get_of_mem hmem
      obtain ⟨hh, htx⟩ : inner.handle = hd ∧ inner.tx = some w := by simpa using hc
      rw [ht'] at hwt
      obtain ⟨t, ht, hte⟩ := Option.map_eq_some_iff.mp hwt.symm
      have hdl : t'.dlv = t.dlv := by rw [← hte, wake_dlv]
      obtain ⟨t₁, x₁, ht₁, hx₁, hs₁, hid₁⟩ := hw.tx _ _ inner w hin htx
      obtain rfl : t₁ = t := by simpa [ht₁] using ht
      obtain ⟨x, hx, hsx⟩ := old t₁ ht hdl
      obtain rfl : x₁ = x := by simpa [hx₁] using hx
      rw [hsx] at hs₁
      subst hs₁
      refine key t₁ x₁ ht hx hsx hdl (fun _ => hgone _) (.inr (.inl ⟨hte.symm, fun _ => .inr (.inr ?_)⟩))
      rw [failDeliveries_unsettled, if_pos rfl, Map.get_mapVals, hid₁, hin]
      exact ⟨_, rfl, by dsimp only; rw [if_pos hh]; rfl⟩
    · next hc =>
      rw [hwt] at ht'
      obtain ⟨x, hx, hsx⟩ := old t' ht' rfl
      refine key t' x ht' hx hsx rfl (fun _ => hgone _) (.inl ⟨rfl, fun _ inner hin htx => ?_⟩)
      rw [failDeliveries_unsettled]
      split
      · next hb' =>
        subst hb'
        rw [Map.get_mapVals, hin]
        refine ⟨_, rfl, ?_⟩
        dsimp only
        split
        · next hh =>
          exfalso
          apply hc
          exact List.any_eq_true.mpr ⟨_, Map.mem_of_get hin, by simp [hh, htx]⟩
        · exact htx
      · exact ⟨inner, hin, htx⟩
  | clearSnd he h =>
    subst h
    have hwt := dropSent_waits s w
    have hgone : ∀ k, RecGone s.dropSent k := by
      intro k
      refine .inl ⟨by simpa using he, ?_⟩
      rw [dropSent_unsettled, if_pos rfl]; rfl
    split at hwt
    · next hc =>
      rw [ht'] at hwt
      obtain ⟨t, ht, hte⟩ := Option.map_eq_some_iff.mp hwt.symm
      have hdl : t'.dlv = t.dlv := by rw [← hte, wake_dlv]
      obtain ⟨x, hx, hsx⟩ := old t ht hdl
      exact key t x ht hx hsx hdl (fun _ _ => hgone _) (.inr (.inl ⟨hte.symm, fun _ => .inr (hgone _)⟩))
    · next hc =>
      rw [hwt] at ht'
      obtain ⟨x, hx, hsx⟩ := old t' ht' rfl
      refine key t' x ht' hx hsx rfl (fun _ _ => hgone _) (.inl ⟨rfl, fun _ inner hin htx => ?_⟩)
      exfalso
      apply hc
      exact List.any_eq_true.mpr ⟨_, Map.mem_of_get hin, by simp [htx]⟩
  | clearRcv he h =>
    subst h
    have hwt := dropReceived_waits s w
    split at hwt
    · next hc =>
      obtain ⟨⟨no, inner⟩, hmem, hc⟩ := List.any_eq_true.mp hc
      have hin := (hw.wf false).get_of_mem hmem
      rw [ht'] at hwt
      obtain ⟨t, ht, hte⟩ := Option.map_eq_some_iff.mp hwt.symm
      exact (notMine no inner hin (by simpa using hc) t ht (by rw [← hte, wake_dlv])).elim
    · exact same hwt (.inl (by simp)) fun x _ _ => by rw [dropReceived_unsettled, if_pos rfl]

/-- Everything said about sent deliveries and the futures on them, as long as ids have not wrapped around. -/
theorem Session.Reachable.waitsOk {s : Session} (h : Reachable s) (hb : begun s.log < 2 ^ 32) : OwnInv s ∧ WaitsOk s := by
  have := h.invariant (P := fun s => WaitInv s ∧ RecInv s ∧ (begun s.log < 2 ^ 32 → OwnInv s ∧ WaitsOk s)) ?_ ?_
  · exact this.2.2 hb
  · rintro s ⟨id, b, mfs, ch, b, rfl⟩
    refine ⟨?_, ?_, fun _ => ⟨⟨rfl, ?_, ?_, ?_, ?_⟩, ?_⟩⟩
    · exact Session.Reachable.waitInv ⟨_, [], ⟨id, _, mfs, ch, b, rfl⟩, rfl⟩
    · exact Session.Reachable.recInv ⟨_, [], ⟨id, _, mfs, ch, b, rfl⟩, rfl⟩
    · intro d x hx; simp [Session.new, dlv?] at hx
    · intro d d' x x' hx; simp [Session.new, dlv?] at hx
    · intro no inner hg; simp [Session.new, unsettled] at hg
    · intro d x hx; simp [Session.new, dlv?] at hx
    · intro w t x ht; simp [Session.new] at ht
  · rintro s s' hm ⟨hw, hr, hc⟩
    refine ⟨hm.waitInv hw, hm.recInv hr, fun hb => ?_⟩
    obtain ⟨ho, hk⟩ := hc (Nat.lt_of_le_of_lt hm.begun_mono hb)
    exact ⟨hm.ownInv ho hb, hm.waitsOk hw ho hr hb hk⟩

end Amqp.Rt
