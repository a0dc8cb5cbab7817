import Verif.Lemmas.SessionWaitInv
import Verif.Lemmas.SessionRcv
import Verif.Spec.Router
/-!
# Deliveries nobody has touched
-/

namespace Amqp.Rt
open Session

/-- Nothing was done with a delivery since it was made. -/
structure Pristine (s : Session) (d : Ref) (settled : Bool) : Prop where
  object : ∃ x, s.dlv? d = some x ∧ x.dropped = false ∧ x.remoteSettled = false ∧ x.localSettled = settled
  waits : ∀ (w : Ref) (t : WaitTask), s.waits[w]? = some t → t.dlv ≠ d
  disposals : ∀ p ∈ disposals s.log, p.1 ≠ d

theorem Pristine.free {s : Session} {d : Ref} {b : Bool} (h : Pristine s d b) : s.free d = true := by
  obtain ⟨x, hx, hd, _⟩ := h.object
  exact free_iff.mpr ⟨⟨x, hx, hd⟩, fun w t ht _ _ => h.waits w t ht⟩

theorem Session.waitResume_other {s : Session} {w d : Ref} (h : ∀ t : WaitTask, s.waits[w]? = some t → t.dlv ≠ d) :
    (s.waitResume w).dlv? d = s.dlv? d := by
  unfold waitResume
  split
  · next t _ ht =>
    have hne := h _ ht
    have upd : ∀ (s' : Session) (c : Bool),
        s'.dlvs = (if c then s.modDlv t fun d => { d with remoteSettled := true } else s).dlvs → s'.dlv? d = s.dlv? d := by
      intro s' c h
      cases c
      · exact dlv?_congr h d
      · exact ((dlv?_congr h d).trans (modDlv_dlv? _ _ _ _)).trans (if_neg hne)
    dsimp only
    split
    · rfl
    · split
      · split
        · next inner _ => refine upd _ inner.settled ?_; split <;> simp
        · rfl
      · rfl
  · rfl

variable {A : Ref → Prop}

theorem MicroOn.untouched {s s' : Session} (h : MicroOn A s s') {d : Ref} (hA : ¬ A d) {b : Bool} (hp : Pristine s d b) :
    s'.dlv? d = s.dlv? d := by
  obtain ⟨x, hx, _⟩ := hp.object
  have grown : ∀ y, s'.dlvs = s.dlvs ++ [y] → s'.dlv? d = s.dlv? d := by
    intro y h
    rw [dlv?_grown h, if_neg (Nat.ne_of_lt (dlv?_lt hx))]
  have upd : ∀ (d' : Ref) (f : Dlv → Dlv), A d' →
      s'.dlv? d = (if d' = d then (s.dlv? d).map f else s.dlv? d) → s'.dlv? d = s.dlv? d := by
    intro d' f hd h
    rw [h, if_neg]
    rintro rfl
    exact hA hd
  cases h.dlv with
  | quiet evs hl he hb hs hr => exact dlv?_congr hs.dlvs d
  | failed hl hs hr => exact dlv?_congr hs.dlvs d
  | sent tag settled h evs hl he hb hm hs hr => exact grown _ hs.dlvs
  | received id tag settled h evs hl he hb hs hr => exact grown _ hs.dlvs
  | @settle d' st hA' hf h =>
    subst h
    rcases settle_cases s d' st with h | ⟨y, hy, _, _, h⟩
    · rw [h]
    · exact upd d' _ hA' (by rw [h]; exact modDlv_dlv? _ _ _ _)
  | update d' st hf h => subst h; exact dlv?_congr (by simp) d
  | @drop d' hA' hf h => subst h; exact upd d' _ hA' (dropDelivery_dlv? _ _ _)
  | wait d' hf h => subst h; exact dlv?_congr (by simp) d
  | resume w h => subst h; exact waitResume_other fun t ht => hp.waits w t ht
  | cancel w h => subst h; rfl
  | dispose disp no hp hn h => subst h; exact dlv?_congr (by simp) d
  | failDlvs b hd f hf h => subst h; exact dlv?_congr (by simp) d
  | clearSnd he h => subst h; exact dlv?_congr (by simp) d
  | clearRcv he h => subst h; exact dlv?_congr (by simp) d

/-- What a small change adds to the disposals. -/
theorem MicroOn.disposals {s s' : Session} (h : MicroOn A s s') :
    Rt.disposals s'.log = Rt.disposals s.log ∨
    ∃ d b st, A d ∧ s.free d = true ∧ Rt.disposals s'.log = Rt.disposals s.log ++ [(d, b, st)] := by
  have quiet : ∀ evs, s'.log = s.log ++ evs → (∀ e ∈ evs, ¬ e.Disposing) → Rt.disposals s'.log = Rt.disposals s.log :=
    fun evs hl he => by rw [hl, disposals_append, disposals_quiet he, List.append_nil]
  have same : s'.log = s.log → Rt.disposals s'.log = Rt.disposals s.log := fun h => by rw [h]
  cases h.dlv with
  | quiet evs hl he hb hs hr => exact .inl (quiet evs hl he)
  | failed hl hs hr => exact .inl (same hl)
  | sent tag settled h evs hl he hb hm hs hr => exact .inl (quiet evs hl he)
  | received id tag settled h evs hl he hb hs hr => exact .inl (quiet evs hl he)
  | @settle d st hA hf h =>
    subst h
    rcases settle_cases s d st with h | ⟨x, hx, h₁, h₂, h⟩
    · exact .inl (by rw [h])
    · exact .inr ⟨d, true, st, hA, hf, by rw [h, postDisp_log, disposals_append]; simp [Rt.disposals]⟩
  | @update d st hA hf h =>
    subst h
    rcases updateState_cases s d st with h | ⟨x, hx, h⟩
    · exact .inl (by rw [h])
    · exact .inr ⟨d, false, st, hA, hf, by rw [h, postDisp_log, disposals_append]; simp [Rt.disposals]⟩
  | @drop d hA hf h =>
    subst h
    obtain ⟨⟨x, hx, hd⟩, _⟩ := free_iff.mp hf
    rcases dropDelivery_cases hx with ⟨_, h⟩ | ⟨inner, _, ⟨h₁, h₂, h⟩ | ⟨_, h⟩⟩
    · exact .inl (by rw [h]; rfl)
    · refine .inr ⟨d, true, dropRejection, hA, hf, ?_⟩
      rw [h, postDisp_log, disposals_append]
      simp [Rt.disposals, dropRecord]
    · exact .inl (by rw [h]; simp [dropRecord])
  | wait d hf h => subst h; exact .inl (same (by simp))
  | resume w h => subst h; exact .inl (same (by simp))
  | cancel w h => subst h; exact .inl (same (by simp))
  | dispose disp no hp hn h => subst h; exact .inl (same (by simp))
  | failDlvs b hd f hf h => subst h; exact .inl (same (by simp))
  | clearSnd he h => subst h; exact .inl (same (by simp))
  | clearRcv he h => subst h; exact .inl (same (by simp))

theorem MicroOn.pristine {s s' : Session} (h : MicroOn A s s') {d : Ref} (hA : ¬ A d) {b : Bool} (hp : Pristine s d b) :
    Pristine s' d b where
  object := by rw [h.untouched hA hp]; exact hp.object
  waits w t ht := by
    have := h.waitsKept w
    rw [ht] at this
    rcases this with ⟨t₀, ht₀, hd⟩ | ⟨_, hd, _⟩
    · rw [hd]; exact hp.waits w t₀ ht₀
    · rintro rfl; exact hA hd
  disposals p hm := by
    rcases h.disposals with h | ⟨d', b', st, hd, _, h⟩
    · exact hp.disposals p (h ▸ hm)
    · rw [h] at hm
      rcases List.mem_append.mp hm with hm | hm
      · exact hp.disposals p hm
      · obtain rfl : p = (d', b', st) := by simpa using hm
        rintro rfl
        exact hA hd

/-- A delivery that was just made. -/
theorem MicroOn.made {s s' : Session} (h : MicroOn A s s') (hw : WaitInv s) (hr : DispRefs s) {x : Dlv}
    (hd : s'.dlvs = s.dlvs ++ [x]) (hx : x.dropped = false ∧ x.remoteSettled = false) :
    Pristine s' s.dlvs.length x.localSettled where
  object := ⟨x, by rw [dlv?_grown hd, if_pos rfl], hx.1, hx.2, rfl⟩
  waits w t ht := by
    have := h.waitsKept w
    rw [ht] at this
    have lt : ∃ x, s.dlv? t.dlv = some x := by
      rcases this with ⟨t₀, ht₀, hd⟩ | ⟨_, _, h⟩
      · rw [hd]; exact hw.refs w t₀ ht₀
      · exact h
    obtain ⟨y, hy⟩ := lt
    exact Nat.ne_of_lt (dlv?_lt hy)
  disposals p hm := by
    refine Nat.ne_of_lt ?_
    rcases h.disposals with h | ⟨d', b', st, _, hf, h⟩
    · exact hr p (h ▸ hm)
    · rw [h] at hm
      rcases List.mem_append.mp hm with hm | hm
      · exact hr p hm
      · obtain rfl : p = (d', b', st) := by simpa using hm
        obtain ⟨⟨y, hy, _⟩, _⟩ := free_iff.mp hf
        exact dlv?_lt hy

/-! ## Deliveries in queues -/

/-- The messages waiting in the queue of a link. -/
def queued (s : Session) (r : Ref) : List (Ref × Transfer) := ((s.rcv? r).map Rcv.queue).getD []

theorem keys_eq (s : Session) (r : Ref) : keys s r = (handedOn r s.log ++ queued s r).map fun p => (p.1, p.2.head) := rfl

theorem queued_key {s : Session} {r d : Ref} {t : Transfer} (h : (d, t) ∈ queued s r) : (d, t.head) ∈ keys s r := by
  rw [keys_eq, List.map_append]
  exact List.mem_append_right _ (List.mem_map.mpr ⟨_, h, rfl⟩)

theorem handed_key {s : Session} {r d : Ref} {t : Transfer} (h : (d, t) ∈ handedOn r s.log) : (d, t.head) ∈ keys s r := by
  rw [keys_eq, List.map_append]
  exact List.mem_append_left _ (List.mem_map.mpr ⟨_, h, rfl⟩)

theorem mem_handedOn {r d : Ref} {t : Transfer} {log : List Ev} : (d, t) ∈ handedOn r log ↔ .handed r d t ∈ log := by
  unfold handedOn
  rw [List.mem_filterMap]
  constructor
  · rintro ⟨e, he, h⟩
    split at h
    · next r' d' t' =>
      split at h
      · next hr => subst hr; cases h; exact he
      · cases h
    · cases h
  · intro h
    exact ⟨_, h, by simp⟩

/-- What is in the queue was not handed out. -/
theorem OwnDlv.queued_ne {s : Session} (h : OwnDlv s) {r r' d : Ref} {t t' : Transfer} (hq : (d, t) ∈ queued s r) :
    (d, t') ∉ handedOn r' s.log := by
  intro hh
  obtain rfl := h.disjoint r r' d _ _ (queued_key hq) (handed_key hh)
  have := h.sorted r
  rw [keys_eq, List.map_append, List.pairwise_append] at this
  exact Nat.lt_irrefl _ (this.2.2 (d, t'.head) (List.mem_map.mpr ⟨_, hh, rfl⟩) (d, t.head) (List.mem_map.mpr ⟨_, hq, rfl⟩))

/-- What waits in a queue, nobody has touched. -/
def QueuesPristine (s : Session) : Prop :=
  ∀ r d t, (d, t) ∈ queued s r → Pristine s d (t.head.settled.getD false)

/-- What is in a queue was there before, or was just made. -/
theorem Micro.queued {s s' : Session} (h : Micro s s') (hi : RcvInv s) (ho' : OwnDlv s') {r d : Ref} {t : Transfer}
    (hm : (d, t) ∈ Rt.queued s' r) :
    (∃ t₀, (d, t₀) ∈ Rt.queued s r ∧ t₀.head = t.head) ∨
    (d = s.dlvs.length ∧ ∃ id, s'.dlvs = s.dlvs ++ [newDlv false id (t.head.deliveryTag.getD []) (t.head.settled.getD false)]) := by
  have old : (d, t.head) ∈ Rt.keys s r → ∃ t₀, (d, t₀) ∈ Rt.queued s r ∧ t₀.head = t.head := by
    intro hk
    rw [keys_eq] at hk
    obtain ⟨⟨d₀, t₀⟩, hm₀, he⟩ := List.mem_map.mp hk
    obtain ⟨rfl, hhd⟩ : d₀ = d ∧ t₀.head = t.head := by simpa using he
    rcases List.mem_append.mp hm₀ with hm₀ | hm₀
    · exfalso
      refine ho'.queued_ne hm (t' := t₀) (r' := r) ?_
      obtain ⟨evs, hl⟩ := h.log_grows
      rw [hl, handedOn_append]
      exact List.mem_append_left _ hm₀
    · exact ⟨t₀, hm₀, hhd⟩
  rcases h.keys hi with hk | ⟨r₀, h₀, id, hk, _, hd⟩
  · exact .inl (old (hk r ▸ queued_key hm))
  · have := queued_key hm
    rw [hk] at this
    split at this
    · rcases List.mem_append.mp this with this | this
      · exact .inl (old this)
      · obtain ⟨rfl, rfl⟩ : d = s.dlvs.length ∧ t.head = h₀ := by simpa using this
        exact .inr ⟨rfl, id, hd⟩
    · exact .inl (old this)

theorem MicroOn.queuesPristine {s s' : Session} (h : MicroOn A s s') (hw : WaitInv s) (hr : DispRefs s) (hi : RcvInv s)
    (ho' : OwnDlv s') (hq : QueuesPristine s) (hA : ∀ r d t, (d, t) ∈ queued s r → ¬ A d) : QueuesPristine s' := by
  intro r d t hm
  rcases Micro.queued h.any hi ho' hm with ⟨t₀, h₀, he⟩ | ⟨rfl, id, hd⟩
  · rw [← he]
    exact h.pristine (hA r d t₀ h₀) (hq r d t₀ h₀)
  · exact h.made hw hr hd ⟨rfl, rfl⟩

/-! ## Steps -/

theorem Session.Reachable.micro {s s' : Session} (h : Reachable s) (hs : Micros s s')
    {P : Session → Prop} (h₀ : ∀ s, Session.Fresh s → P s) (hP : ∀ s s', Micro s s' → P s → P s') : P s' := by
  exact hs.invariant hP (h.invariant h₀ hP)

/-- All that is known of every state between the steps of an execution. -/
structure Between (s : Session) : Prop where
  wait : WaitInv s
  refs : DispRefs s
  disp : DispInv s
  slots : RcvSlots s
  rcv : RcvInv s
  own : OwnDlv s

theorem Micro.between {s s' : Session} (h : Micro s s') (hb : Between s) : Between s' where
  wait := h.waitInv hb.wait
  refs := (h.dispInv hb.refs hb.disp).1
  disp := (h.dispInv hb.refs hb.disp).2
  slots := h.rcvSlots hb.slots
  rcv := h.rcvInv hb.slots hb.rcv
  own := h.ownDlv hb.rcv hb.own

theorem Session.Reachable.between {s : Session} (h : Reachable s) : Between s :=
  ⟨h.waitInv, h.dispInv.1, h.dispInv.2, h.rcvSlots, h.rcvInv, h.ownDlv⟩

/-- A step that touches only what `A` names. -/
theorem Session.step_microsOn_held (s : Session) (a : Step) (hA : ∀ d, a.actsOn d → d < s.dlvs.length → A d) :
    MicrosOn A s (s.step a) := by
  by_cases h : ∀ d, a.actsOn d → d < s.dlvs.length
  · exact step_microsOn s a fun d hd => hA d hd (h d hd)
  · have : s.step a = s := by
      have key : ∀ d, ¬ d < s.dlvs.length → s.free d = false ∧ s.held d = false := by
        intro d hd
        have hn : s.held d = false := by
          cases hh : s.held d
          · rfl
          · obtain ⟨x, hx, _⟩ := held_iff.mp hh
            exact absurd (dlv?_lt hx) hd
        exact ⟨by simp [Session.free, hn], hn⟩
      cases a with
      | settle d st => 
        have := key d (fun hd => h fun d' hd' => by obtain rfl : d = d' := hd'; exact hd)
        simp [step, this.1]
      | update d st => 
        have := key d (fun hd => h fun d' hd' => by obtain rfl : d = d' := hd'; exact hd)
        simp [step, this.1]
      | dropDelivery d => 
        have := key d (fun hd => h fun d' hd' => by obtain rfl : d = d' := hd'; exact hd)
        simp [step, this.1]
      | wait d => 
        have := key d (fun hd => h fun d' hd' => by obtain rfl : d = d' := hd'; exact hd)
        simp [step, this.2]
      | _ => exact absurd (fun d hd => hd.elim) h
    rw [this]
    exact .refl

/-- What a step leaves alone. -/
theorem MicrosOn.own {s s' : Session} (h : MicrosOn A s s') (hb : Between s) (hA : ∀ d, A d → d < s.dlvs.length)
    (hq : QueuesPristine s) (hAq : ∀ r d t, (d, t) ∈ queued s r → ¬ A d) :
    Between s' ∧ QueuesPristine s' ∧ (∀ r d t, (d, t) ∈ queued s' r → ¬ A d) ∧
      ∀ d b, ¬ A d → Pristine s d b → Pristine s' d b := by
  suffices h : Between s' ∧ s.dlvs.length ≤ s'.dlvs.length ∧ QueuesPristine s' ∧ (∀ r d t, (d, t) ∈ queued s' r → ¬ A d) ∧
      ∀ d b, ¬ A d → Pristine s d b → Pristine s' d b from ⟨h.1, h.2.2⟩
  induction h with
  | refl => exact ⟨hb, Nat.le_refl _, hq, hAq, fun _ _ _ h => h⟩
  | tail _ hm ih =>
    obtain ⟨hb', hle, hq', hAq', hp'⟩ := ih
    have hb'' := Micro.between hm.any hb'
    refine ⟨hb'', Nat.le_trans hle (Micro.dlvs_length hm.any), hm.queuesPristine hb'.wait hb'.refs hb'.rcv hb''.own hq' hAq',
      ?_, fun d b hd hp => hm.pristine hd (hp' d b hd hp)⟩
    intro r d t hmem
    rcases Micro.queued hm.any hb'.rcv hb''.own hmem with ⟨t₀, h₀, _⟩ | ⟨rfl, _⟩
    · exact hAq' r d t₀ h₀
    · exact fun h => absurd (hA _ h) (Nat.not_lt.mpr hle)

/-! ## Deliveries that are finished -/

theorem disposalsOf_nil {d : Ref} {log : List Ev} (h : ∀ p ∈ disposals log, p.1 ≠ d) : disposalsOf d log = [] :=
  List.filterMap_eq_nil_iff.mpr fun p hp => if_neg (h p hp)

/-- The delivery object is gone; `ds` was sent for it. -/
def Finished (s : Session) (d : Ref) (ds : List (Bool × DeliveryState)) : Prop :=
  (∃ x, s.dlv? d = some x ∧ x.dropped = true) ∧ disposalsOf d s.log = ds

theorem Micro.finished {s s' : Session} (h : Micro s s') {d : Ref} {ds} (hf : Finished s d ds) : Finished s' d ds := by
  obtain ⟨⟨x, hx, hdr⟩, hds⟩ := hf
  obtain ⟨x', hx', hk⟩ := h.dlv_kept d x hx
  refine ⟨⟨x', hx', hk.dropped hdr⟩, ?_⟩
  rw [← hds]
  rcases h.disposals with h | ⟨d', b', st, _, hf, h⟩
  · simp only [disposalsOf, h]
  · obtain ⟨⟨y, hy, hyd⟩, _⟩ := free_iff.mp hf
    have : d' ≠ d := by
      rintro rfl
      obtain rfl : y = x := by simpa [hx] using hy.symm
      rw [hyd] at hdr; cases hdr
    simp [disposalsOf, h, this]

theorem Session.step_finished {s : Session} {d : Ref} {ds} (hf : Finished s d ds) (a : Step) : Finished (s.step a) d ds :=
  (step_micros s a).invariant (P := fun s => Finished s d ds) (fun _ _ h hp => h.finished hp) hf

/-- Settling an untouched delivery and dropping it. -/
theorem Pristine.settled {s : Session} {d : Ref} {b : Bool} (h : Pristine s d b) (st : DeliveryState) :
    Finished ((s.step (.settle d st)).step (.dropDelivery d)) d (if b then [] else [(true, st)]) := by
  obtain ⟨x, hx, hd, hrem, hloc⟩ := h.object
  have h₁ : s.step (.settle d st) = s.settle d st := by simp [step, h.free]
  have hx₁ : ∃ x₁, (s.settle d st).dlv? d = some x₁ ∧ x₁.dropped = false ∧ x₁.localSettled = true := by
    rcases settle_cases s d st with he | ⟨y, hy, _, _, he⟩
    · refine ⟨x, by rw [he]; exact hx, hd, ?_⟩
      cases hl : x.localSettled
      · exfalso
        have : (s.settle d st).log ≠ s.log := by unfold settle; rw [hx]; simp [hl, hrem]
        exact this (by rw [he])
      · rfl
    · refine ⟨{ x with localSettled := true }, ?_, hd, rfl⟩
      rw [he]
      exact (modDlv_dlv? s d d _).trans (by rw [if_pos rfl, hx]; rfl)
  have hl₁ : disposalsOf d (s.settle d st).log = if b then [] else [(true, st)] := by
    have hn := disposalsOf_nil h.disposals
    unfold settle
    rw [hx]
    cases hb : b
    · rw [hb] at hloc
      simp only [hrem, hloc, Bool.false_eq_true, if_false]
      rw [postDisp_log, disposalsOf, disposals_append, List.filterMap_append]
      rw [disposalsOf] at hn
      rw [modDlv_log, hn]
      simp [Rt.disposals]
    · rw [hb] at hloc
      simp [hrem, hloc, hn]
  obtain ⟨x₁, hx₁, hd₁, hloc₁⟩ := hx₁
  have hfree : (s.settle d st).free d = true := by
    refine free_iff.mpr ⟨⟨x₁, hx₁, hd₁⟩, fun w t ht _ _ => ?_⟩
    rw [settle_waits] at ht
    exact h.waits w t ht
  have h₂ : (s.settle d st).step (.dropDelivery d) = (s.settle d st).dropDelivery d := by simp [step, hfree]
  rw [h₁, h₂]
  refine ⟨⟨{ x₁ with dropped := true }, by rw [dropDelivery_dlv?, if_pos rfl, hx₁]; rfl, rfl⟩, ?_⟩
  rw [← hl₁]
  rcases dropDelivery_cases hx₁ with ⟨_, h'⟩ | ⟨inner, _, ⟨_, h', _⟩ | ⟨_, h'⟩⟩
  · rw [h']; rfl
  · rw [hloc₁] at h'; cases h'
  · rw [h']; simp [dropRecord]

/-- Dropping an untouched delivery. -/
theorem Pristine.dropped {s : Session} {d : Ref} {b : Bool} (h : Pristine s d b) :
    Finished (s.step (.dropDelivery d)) d [] ∨ (b = false ∧ Finished (s.step (.dropDelivery d)) d [(true, dropRejection)]) := by
  obtain ⟨x, hx, hd, hrem, hloc⟩ := h.object
  have h₁ : s.step (.dropDelivery d) = s.dropDelivery d := by simp [step, h.free]
  have hn := disposalsOf_nil h.disposals
  have hdr : ∃ x', (s.dropDelivery d).dlv? d = some x' ∧ x'.dropped = true :=
    ⟨{ x with dropped := true }, by rw [dropDelivery_dlv?, if_pos rfl, hx]; rfl, rfl⟩
  rw [h₁]
  rcases dropDelivery_cases hx with ⟨_, h'⟩ | ⟨inner, _, ⟨_, hl, h'⟩ | ⟨_, h'⟩⟩
  · exact .inl ⟨hdr, by rw [h']; exact hn⟩
  · refine .inr ⟨hloc.symm.trans hl, hdr, ?_⟩
    rw [h', postDisp_log, disposalsOf, disposals_append, List.filterMap_append]
    rw [disposalsOf] at hn
    have : (s.dropRecord d x).log = s.log := by simp [dropRecord]
    rw [this, hn]
    simp [Rt.disposals]
  · exact .inl ⟨hdr, by rw [h']; simpa [dropRecord] using hn⟩

end Amqp.Rt
