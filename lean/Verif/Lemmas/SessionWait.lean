import Verif.Lemmas.SessionDisp
/-!
# Records of deliveries and the futures waiting on them
-/

namespace Amqp.Rt
open Session

/-! ## Ranges and history -/

theorem Session.mem_idRange {first last no : UInt32} : no ∈ idRange first last ↔ first ≤ no ∧ no ≤ last := by
  unfold idRange
  simp only [List.mem_map, List.mem_range, UInt32.le_iff_toNat_le]
  constructor
  · rintro ⟨i, hi, rfl⟩
    have := last.toNat_lt
    rw [UInt32.toNat_ofNat', Nat.mod_eq_of_lt (by omega)]
    omega
  · rintro ⟨h₁, h₂⟩
    refine ⟨no.toNat - first.toNat, by omega, ?_⟩
    rw [Nat.add_sub_cancel' h₁]
    simp

theorem Covered.append {log : List Ev} {no : UInt32} (h : Covered log no) (evs : List Ev) : Covered (log ++ evs) no := by
  obtain ⟨pre, d, post, rfl, h⟩ := h
  exact ⟨pre, d, post ++ evs, by simp, h⟩

theorem Heard.append {log : List Ev} {no : UInt32} {st} (h : Heard log no st) (evs : List Ev) :
    Heard (log ++ evs) no st := by
  obtain ⟨pre, d, post, rfl, h⟩ := h
  exact ⟨pre, d, post ++ evs, by simp, h⟩

theorem Heard.covered {log : List Ev} {no : UInt32} {st} (h : Heard log no st) : Covered log no := by
  obtain ⟨pre, d, post, rfl, h₁, h₂, h₃, _⟩ := h
  exact ⟨pre, d, post, rfl, h₁, h₂, h₃⟩

theorem sub_le_sub {a b c : UInt32} (h₁ : a ≤ b) (h₂ : b ≤ c) : b - a ≤ c - a := by
  rw [UInt32.le_iff_toNat_le] at *
  rw [UInt32.toNat_sub_of_le _ _ (UInt32.le_iff_toNat_le.mpr h₁),
    UInt32.toNat_sub_of_le _ _ (UInt32.le_iff_toNat_le.mpr (Nat.le_trans h₁ h₂))]
  omega

theorem le_of_sub_le_sub {a b c : UInt32} (h₁ : a ≤ c) (h₂ : b - a ≤ c - a) : a ≤ b ∧ b ≤ c := by
  rw [UInt32.le_iff_toNat_le] at *
  rw [UInt32.toNat_sub_of_le _ _ (UInt32.le_iff_toNat_le.mpr h₁), UInt32.toNat_sub] at h₂
  rw [UInt32.le_iff_toNat_le]
  have := a.toNat_lt
  have := b.toNat_lt
  have := c.toNat_lt
  omega

theorem covers_of {disp : Disposition} {no : UInt32}
    (hn : (disp.last = none ∧ no = disp.first) ∨ ∃ last, disp.last = some last ∧ no ∈ idRange disp.first last) :
    disp.Covers no := by
  unfold Disposition.Covers
  rcases hn with ⟨h, rfl⟩ | ⟨last, h, hm⟩
  · simp [h]
  · simp only [h]
    exact sub_le_sub (mem_idRange.mp hm).1 (mem_idRange.mp hm).2

/-! ## Effects -/

namespace Session

theorem checkInner_some {inner inner' : DlvInner} {res} (h : checkInner inner = (some res, inner')) :
    inner'.handle = inner.handle ∧ inner'.tx = inner.tx ∧ inner'.error = inner.error ∧ inner'.settled = inner.settled ∧
      (inner'.state = inner.state ∨ inner'.state = none) ∧
      ((∃ st, inner.state = some st ∧ res = .ok (some st)) ∨ ∃ e, inner.error = some e ∧ res = .error e) := by
  unfold checkInner at h
  split at h
  · next m hm =>
    obtain ⟨rfl, rfl⟩ : Except.ok (some (DeliveryState.modified m)) = res ∧ { inner with state := none } = inner' := by
      simpa using h
    exact ⟨rfl, rfl, rfl, rfl, .inr rfl, .inl ⟨_, hm, rfl⟩⟩
  · next st _ hst =>
    obtain ⟨rfl, rfl⟩ : Except.ok (some st) = res ∧ inner = inner' := by simpa using h
    exact ⟨rfl, rfl, rfl, rfl, .inl rfl, .inl ⟨_, hst, rfl⟩⟩
  · next hst =>
    obtain ⟨⟨e, he, rfl⟩, rfl⟩ : (∃ e, inner.error = some e ∧ Except.error e = res) ∧ inner = inner' := by simpa using h
    exact ⟨rfl, rfl, rfl, rfl, .inl rfl, .inr ⟨_, he, rfl⟩⟩

theorem checkInner_none {inner inner' : DlvInner} (h : checkInner inner = (none, inner')) :
    inner' = inner ∧ inner.state = none ∧ inner.error = none := by
  unfold checkInner at h
  split at h
  · simp at h
  · simp at h
  · next hst =>
    obtain ⟨h₁, rfl⟩ : inner.error = none ∧ inner = inner' := by simpa using h
    exact ⟨rfl, hst, h₁⟩

/-- A new `wait` future. -/
def pushWait (s : Session) (d : Ref) : Session := { s with waits := s.waits ++ [(⟨d, .waiting none⟩ : WaitTask)] }

@[simp] theorem pushWait_unsettled (s : Session) (d b) : (s.pushWait d).unsettled b = s.unsettled b := rfl
@[simp] theorem pushWait_dlvs (s : Session) (d) : (s.pushWait d).dlvs = s.dlvs := rfl

theorem pushWait_get (s : Session) (d w : Ref) :
    (s.pushWait d).waits[w]? = if w = s.waits.length then some ⟨d, .waiting none⟩ else s.waits[w]? := by
  simp only [pushWait, List.getElem?_append]
  split
  · next hlt => rw [if_neg (Nat.ne_of_lt hlt)]
  · next hge =>
    split
    · next heq => subst heq; simp
    · next hne =>
      have h₂ : s.waits.length ≤ w := Nat.le_of_not_lt hge
      have h₁ : [(⟨d, .waiting none⟩ : WaitTask)].length ≤ w - s.waits.length :=
        Nat.sub_pos_of_lt (Nat.lt_of_le_of_ne h₂ (fun h => hne h.symm))
      rw [List.getElem?_eq_none h₁, List.getElem?_eq_none h₂]

/-- The four outcomes of the first poll. -/
theorem waitStart_cases {s : Session} {d : Ref} {x : Dlv} (hx : s.dlv? d = some x) :
    (x.localSettled = true ∧ s.waitStart d = (s.pushWait d).finishWait s.waits.length (.ok none)) ∨
    (x.localSettled = false ∧ (s.unsettled x.sender).get x.id = none ∧
      s.waitStart d = (s.pushWait d).finishWait s.waits.length (.error (.linkDetached none))) ∨
    (∃ inner res inner', x.localSettled = false ∧ (s.unsettled x.sender).get x.id = some inner ∧
      checkInner inner = (some res, inner') ∧
      s.waitStart d = ((s.pushWait d).setUnsettled x.sender ((s.unsettled x.sender).insert x.id inner')).finishWait
        s.waits.length res) ∨
    (∃ inner, x.localSettled = false ∧ (s.unsettled x.sender).get x.id = some inner ∧ inner.state = none ∧
      inner.error = none ∧
      s.waitStart d = ((s.pushWait d).setUnsettled x.sender
        ((s.unsettled x.sender).insert x.id { inner with tx := some s.waits.length })).notify inner.tx false) := by
  unfold waitStart
  rw [hx]
  dsimp only
  cases hl : x.localSettled with
  | true => exact .inl ⟨rfl, rfl⟩
  | false =>
    right
    simp only [Bool.false_eq_true, if_false]
    show _ ∨ _
    have hu : ∀ b, ({ s with waits := s.waits ++ [(⟨d, .waiting none⟩ : WaitTask)] } : Session).unsettled b =
      s.unsettled b := fun _ => rfl
    rw [hu]
    cases hg : (s.unsettled x.sender).get x.id with
    | none => exact .inl ⟨trivial, rfl, rfl⟩
    | some inner =>
      right
      rcases hc : checkInner inner with ⟨res | res, inner'⟩
      · right
        obtain ⟨rfl, h₁, h₂⟩ := checkInner_none hc
        exact ⟨_, trivial, rfl, h₁, h₂, by dsimp only; rw [hc]; rfl⟩
      · left
        exact ⟨inner, res, inner', trivial, rfl, hc, by dsimp only; rw [hc]; rfl⟩

/-- The outcomes of a poll after the channel has fired. -/
theorem waitResume_cases (s : Session) (w : Ref) :
    s.waitResume w = s ∨
    ∃ d mail, s.waits[w]? = some ⟨d, .waiting (some mail)⟩ ∧
      ((mail = false ∧ s.waitResume w = s.finishWait w (.error .connectionDropped)) ∨
      ∃ x, mail = true ∧ s.dlv? d = some x ∧
        (((s.unsettled x.sender).get x.id = none ∧ s.waitResume w = s.finishWait w (.error (.linkDetached none))) ∨
        ∃ inner, (s.unsettled x.sender).get x.id = some inner ∧
          let s₁ := if inner.settled then s.modDlv d fun d => { d with remoteSettled := true } else s
          (∃ res inner', checkInner inner = (some res, inner') ∧
            s.waitResume w = (s₁.setUnsettled x.sender ((s.unsettled x.sender).insert x.id inner')).finishWait w res) ∨
          (inner.state = none ∧ inner.error = none ∧ s.waitResume w = s₁.finishWait w (.ok none)))) := by
  unfold waitResume
  split
  · next d mail hw =>
    dsimp only
    cases mail with
    | false => exact .inr ⟨d, false, hw, .inl ⟨rfl, rfl⟩⟩
    | true =>
      simp only [Bool.not_true, Bool.false_eq_true, if_false]
      show _ ∨ _
      cases hx : s.dlv? d with
      | none => exact .inl rfl
      | some x =>
        refine .inr ⟨d, true, hw, .inr ⟨x, rfl, hx, ?_⟩⟩
        dsimp only
        cases hg : (s.unsettled x.sender).get x.id with
        | none => exact .inl ⟨rfl, rfl⟩
        | some inner =>
          refine .inr ⟨inner, rfl, ?_⟩
          dsimp only
          have hu : ∀ b, (if inner.settled then s.modDlv d fun d => { d with remoteSettled := true } else s).unsettled b =
              s.unsettled b := by intro b; split <;> rfl
          rcases hc : checkInner inner with ⟨res | res, inner'⟩
          · right
            obtain ⟨rfl, h₁, h₂⟩ := checkInner_none hc
            exact ⟨h₁, h₂, rfl⟩
          · left
            exact ⟨res, inner', rfl, by rw [hu]⟩
  · exact .inl rfl

end Session

/-! ## What records contain -/

/-- What a record of a sent delivery says was heard from the peer. -/
structure RecOk (log : List Ev) (no : UInt32) (inner : DlvInner) : Prop where
  begun : ∃ t r, .begun t r no ∈ log
  state : ∀ st, inner.state = some st → Heard log no st
  error : ∀ e, inner.error = some e → ∃ f, .peer (.detach f) ∈ log ∧ e = .linkDetached f.error

theorem RecOk.mono {log evs : List Ev} {no : UInt32} {inner inner' : DlvInner} (h : RecOk log no inner)
    (hs : inner'.state = inner.state ∨ inner'.state = none) (he : inner'.error = inner.error) :
    RecOk (log ++ evs) no inner' := by
  obtain ⟨⟨t, r, hb⟩, h₁, h₂⟩ := h
  refine ⟨⟨t, r, by simp [hb]⟩, fun st hst => ?_, fun e hee => ?_⟩
  · rcases hs with hs | hs
    · exact (h₁ st (hs ▸ hst)).append _
    · rw [hs] at hst; simp at hst
  · obtain ⟨f, hf, rfl⟩ := h₂ e (he ▸ hee)
    exact ⟨f, by simp [hf], rfl⟩

def RecInv (s : Session) : Prop := ∀ no inner, (s.unsettled true).get no = some inner → RecOk s.log no inner

theorem Micro.recInv {s s' : Session} (h : Micro s s') (hi : RecInv s) : RecInv s' := by
  have same : ∀ evs, s'.log = s.log ++ evs → s'.unsettled true = s.unsettled true → RecInv s' := by
    intro evs hl hu no inner hg
    rw [hu] at hg
    rw [hl]
    exact (hi no inner hg).mono (.inl rfl) rfl
  have upd : ∀ k inner₀ inner₁, (s.unsettled true).get k = some inner₀ →
      (inner₁.state = inner₀.state ∨ inner₁.state = none) → inner₁.error = inner₀.error → s'.log = s.log →
      s'.unsettled true = (s.unsettled true).insert k inner₁ → RecInv s' := by
    intro k inner₀ inner₁ h₀ h₁ h₂ hl hu no inner hg
    rw [hu, Map.get_insert] at hg
    rw [hl]
    split at hg
    · next hk =>
      subst hk
      obtain rfl : inner₁ = inner := by simpa using hg
      have := (hi _ _ h₀).mono (evs := []) h₁ h₂
      rwa [List.append_nil] at this
    · exact hi no inner hg
  cases h.dlv with
  | quiet evs hl he hb hs hr => exact same evs hl (hs.uns true)
  | failed hl hs hr => exact same [] (by simp [hl]) (hs.uns true)
  | sent tag settled h evs hl he hb hm hs hr =>
    intro no inner hg
    rw [hs.uns true, addDlv_unsettled] at hg
    rw [hl]
    split at hg
    · rw [Map.get_insert] at hg
      split at hg
      · next hk =>
        obtain rfl : DlvInner.new h = inner := by simpa using hg
        obtain ⟨t, r, hm⟩ := hm
        refine ⟨⟨t, r, ?_⟩, by simp [DlvInner.new], by simp [DlvInner.new]⟩
        rw [← hk]
        exact List.mem_append_right _ hm
      · exact (hi no inner hg).mono (.inl rfl) rfl
    · exact (hi no inner hg).mono (.inl rfl) rfl
  | received id tag settled h evs hl he hb hs hr =>
    exact same evs hl (by rw [hs.uns true, addDlv_unsettled, if_neg (by simp [newDlv])])
  | settle d st hf h =>
    subst h
    rcases settle_cases s d st with h | ⟨x, hx, _, _, h⟩
    · exact same [] (by simp [h]) (by rw [h])
    · exact same [.disposed d true st, .frame (dispFrame x true st)] (by rw [h]; simp) (by rw [h]; rfl)
  | update d st hf h =>
    subst h
    rcases updateState_cases s d st with h | ⟨x, hx, h⟩
    · exact same [] (by simp [h]) (by rw [h])
    · exact same [.disposed d false st, .frame (dispFrame x false st)] (by rw [h]; simp) (by rw [h]; rfl)
  | drop d hf h =>
    subst h
    obtain ⟨⟨x, hx, hd⟩, _⟩ := free_iff.mp hf
    have sub : ∀ no inner, ((s.dropRecord d x).unsettled true).get no = some inner →
        (s.unsettled true).get no = some inner := by
      intro no inner hg
      unfold dropRecord at hg
      rw [notify_unsettled, unsettled_setUnsettled] at hg
      split at hg
      · next hb =>
        rw [hb, Map.get_erase] at hg
        split at hg
        · simp at hg
        · exact hg
      · exact hg
    rcases dropDelivery_cases hx with ⟨_, h⟩ | ⟨inner, _, ⟨_, _, h⟩ | ⟨_, h⟩⟩
    · exact same [] (by simp [h]) (by rw [h]; rfl)
    · intro no inner hg
      rw [h, postDisp_unsettled] at hg
      rw [h, show ((s.dropRecord d x).postDisp d x true dropRejection).log =
        s.log ++ [.disposed d true dropRejection, .frame (dispFrame x true dropRejection)] by simp [dropRecord]]
      exact (hi no inner (sub no inner hg)).mono (.inl rfl) rfl
    · intro no inner hg
      rw [h] at hg
      rw [h, show (s.dropRecord d x).log = s.log by simp [dropRecord]]
      exact hi no inner (sub no inner hg)
  | wait d hf h =>
    subst h
    obtain ⟨x, hx, hd⟩ := held_iff.mp hf
    rcases waitStart_cases hx with ⟨_, h⟩ | ⟨_, _, h⟩ | ⟨inner, res, inner', _, hg, hc, h⟩ | ⟨inner, _, hg, _, _, h⟩
    · exact same [] (by simp) (by rw [h]; rfl)
    · exact same [] (by simp) (by rw [h]; rfl)
    · obtain ⟨_, _, h₁, _, h₂, _⟩ := checkInner_some hc
      by_cases hb : x.sender = true
      · rw [hb] at hg h
        exact upd _ _ _ hg h₂ h₁ (by simp) (by rw [h, finishWait_unsettled, unsettled_setUnsettled, if_pos rfl])
      · refine same [] (by simp) ?_
        rw [h, finishWait_unsettled, unsettled_setUnsettled, if_neg hb]; rfl
    · by_cases hb : x.sender = true
      · rw [hb] at hg h
        refine upd _ inner { inner with tx := some s.waits.length } hg (.inl rfl) rfl (by simp) ?_
        rw [h, notify_unsettled, unsettled_setUnsettled, if_pos rfl]
      · refine same [] (by simp) ?_
        rw [h, notify_unsettled, unsettled_setUnsettled, if_neg hb]; rfl
  | resume w h =>
    subst h
    rcases waitResume_cases s w with h | ⟨d, mail, hw, ⟨_, h⟩ | ⟨x, _, hx, ⟨_, h⟩ | ⟨inner, hg, h⟩⟩⟩
    · exact same [] (by simp) (by rw [h])
    · exact same [] (by simp) (by rw [h]; rfl)
    · exact same [] (by simp) (by rw [h]; rfl)
    · have hu : ∀ b, (if inner.settled then s.modDlv d fun d => { d with remoteSettled := true } else s).unsettled b =
          s.unsettled b := by intro b; split <;> rfl
      rcases h with ⟨res, inner', hc, h⟩ | ⟨_, _, h⟩
      · obtain ⟨_, _, h₁, _, h₂, _⟩ := checkInner_some hc
        by_cases hb : x.sender = true
        · rw [hb] at hg h
          exact upd _ _ _ hg h₂ h₁ (by simp) (by rw [h, finishWait_unsettled, unsettled_setUnsettled, if_pos rfl])
        · refine same [] (by simp) ?_
          rw [h, finishWait_unsettled, unsettled_setUnsettled, if_neg hb, hu]
      · exact same [] (by simp) (by rw [h, finishWait_unsettled, hu])
  | cancel w h => subst h; exact same [] (by simp) rfl
  | dispose disp no hp hn h =>
    subst h
    intro no' inner hg
    rw [disposeOne_unsettled] at hg
    rw [disposeOne_log]
    split at hg
    · next hc =>
      obtain ⟨hr, rfl⟩ := hc
      obtain ⟨inner₀, h₀, rfl⟩ := Option.map_eq_some_iff.mp hg
      obtain ⟨⟨t, r, hb⟩, h₁, h₂⟩ := hi _ _ h₀
      refine ⟨⟨t, r, hb⟩, fun st hst => ?_, h₂⟩
      simp only [DlvInner.dispose] at hst
      split at hst
      · obtain ⟨pre, hpre⟩ : ∃ pre, s.log = pre ++ [.peer (.disposition disp)] := by
          obtain ⟨hne, hl⟩ := List.getLast?_eq_some_iff.mp hp
          exact ⟨hne, hl⟩
        refine ⟨pre, disp, [], hpre, ⟨t, r, ?_⟩, by simpa using hr, covers_of hn, hst⟩
        rw [hpre] at hb
        simpa using hb
      · exact h₁ st hst
    · exact hi _ _ hg
  | failDlvs b hd f hf h =>
    subst h
    intro no inner hg
    rw [failDeliveries_unsettled] at hg
    rw [failDeliveries_log]
    split at hg
    · next hb =>
      subst hb
      rw [Map.get_mapVals] at hg
      obtain ⟨inner₀, h₀, rfl⟩ := Option.map_eq_some_iff.mp hg
      obtain ⟨h₁, h₂, h₃⟩ := hi _ _ h₀
      split
      · exact ⟨h₁, h₂, fun e he => ⟨f, hf, by simpa using he.symm⟩⟩
      · exact ⟨h₁, h₂, h₃⟩
    · exact hi _ _ hg
  | clearSnd he h =>
    subst h
    intro no inner hg
    rw [dropSent_unsettled, if_pos rfl] at hg
    simp [Map.get_empty] at hg
  | clearRcv he h =>
    subst h
    exact same [] (by simp) (by rw [dropReceived_unsettled, if_pos rfl])

theorem Session.Reachable.recInv {s : Session} (h : Reachable s) : RecInv s := by
  refine h.invariant ?_ (fun _ _ hm hp => hm.recInv hp)
  rintro s ⟨id, b, mfs, ch, b, rfl⟩ no inner hg
  simp [Session.new, unsettled, Map.get_empty] at hg

end Amqp.Rt
