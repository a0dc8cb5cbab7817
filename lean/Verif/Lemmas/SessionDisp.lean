import Verif.Lemmas.SessionDlv
/-!
# Dispositions sent and records kept
-/

namespace Amqp.Rt
open Session

namespace Session

theorem dlv?_lt {s : Session} {d : Ref} {x : Dlv} (h : s.dlv? d = some x) : d < s.dlvs.length :=
  (List.getElem?_eq_some_iff.mp h).1

theorem dlv?_congr {s s' : Session} (h : s'.dlvs = s.dlvs) (d : Ref) : s'.dlv? d = s.dlv? d := by simp only [dlv?, h]

theorem modDlv_dlv? (s : Session) (d d' : Ref) (f : Dlv → Dlv) :
    (s.modDlv d f).dlv? d' = if d = d' then (s.dlv? d').map f else s.dlv? d' := by
  simp only [modDlv, dlv?, List.getElem?_modify]
  split <;> rename_i h
  · simp
  · cases h' : s.dlvs[d']? <;> simp

theorem dlv?_grown {s s' : Session} {x : Dlv} (h : s'.dlvs = s.dlvs ++ [x]) (d : Ref) :
    s'.dlv? d = if d = s.dlvs.length then some x else s.dlv? d := by
  simp only [dlv?, h, List.getElem?_append]
  split
  · next hlt => rw [if_neg (Nat.ne_of_lt hlt)]
  · next hge =>
    split
    · next heq => subst heq; simp
    · next hne =>
      have h₂ : s.dlvs.length ≤ d := Nat.le_of_not_lt hge
      have h₁ : [x].length ≤ d - s.dlvs.length := Nat.sub_pos_of_lt (Nat.lt_of_le_of_ne h₂ (fun h => hne h.symm))
      rw [List.getElem?_eq_none h₁, List.getElem?_eq_none h₂]

theorem held_iff {s : Session} {d : Ref} : s.held d = true ↔ ∃ x, s.dlv? d = some x ∧ x.dropped = false := by
  unfold held
  split
  · next x hx => simp [hx]
  · next hx => simp [hx]

theorem free_iff {s : Session} {d : Ref} : s.free d = true ↔ (∃ x, s.dlv? d = some x ∧ x.dropped = false) ∧
    ∀ (w : Ref) (t : WaitTask), s.waits[w]? = some t → ∀ m, t.st = .waiting m → t.dlv ≠ d := by
  unfold free
  rw [Bool.and_eq_true, held_iff, List.all_eq_true]
  refine and_congr_right fun _ => ⟨fun h w t ht m hm => ?_, fun h t ht => ?_⟩
  · have := h t (List.mem_of_getElem? ht)
    rw [hm] at this
    simpa using this
  · obtain ⟨w, hw⟩ := List.getElem?_of_mem ht
    split
    · next m hm => simpa using h w t hw m hm
    · rfl

theorem settle_cases (s : Session) (d : Ref) (st : DeliveryState) :
    s.settle d st = s ∨ ∃ x, s.dlv? d = some x ∧ x.remoteSettled = false ∧ x.localSettled = false ∧
      s.settle d st = (s.modDlv d fun d => { d with localSettled := true }).postDisp d x true st := by
  unfold settle
  split
  · next x hx =>
    split
    · exact .inl rfl
    · next h₁ =>
      split
      · exact .inl rfl
      · next h₂ => exact .inr ⟨x, hx, by simpa using h₁, by simpa using h₂, rfl⟩
  · exact .inl rfl

theorem updateState_cases (s : Session) (d : Ref) (st : DeliveryState) :
    s.updateState d st = s ∨ ∃ x, s.dlv? d = some x ∧ s.updateState d st = s.postDisp d x false st := by
  unfold updateState
  split
  · next x hx =>
    split
    · exact .inl rfl
    · exact .inr ⟨x, hx, rfl⟩
  · exact .inl rfl

/-- The state after `Drop` took out the record. -/
def dropRecord (s : Session) (d : Ref) (x : Dlv) : Session :=
  ((s.modDlv d fun d => { d with dropped := true }).setUnsettled x.sender ((s.unsettled x.sender).erase x.id)).notify
    (((s.unsettled x.sender).get x.id).bind DlvInner.tx) true

theorem dropDelivery_cases {s : Session} {d : Ref} {x : Dlv} (hx : s.dlv? d = some x) :
    ((s.unsettled x.sender).get x.id = none ∧ s.dropDelivery d = s.modDlv d fun d => { d with dropped := true }) ∨
    ∃ inner, (s.unsettled x.sender).get x.id = some inner ∧
      ((x.remoteSettled = false ∧ x.localSettled = false ∧
          s.dropDelivery d = (s.dropRecord d x).postDisp d x true dropRejection) ∨
        ((x.remoteSettled = true ∨ x.localSettled = true) ∧ s.dropDelivery d = s.dropRecord d x)) := by
  unfold dropDelivery dropRecord
  rw [hx]
  dsimp only
  rw [modDlv_unsettled]
  cases hg : (s.unsettled x.sender).get x.id with
  | none => exact .inl ⟨rfl, rfl⟩
  | some inner =>
    refine .inr ⟨inner, rfl, ?_⟩
    rw [Option.bind_some]
    cases h₁ : x.remoteSettled <;> cases h₂ : x.localSettled <;> simp

end Session

/-! ## What is kept of a delivery -/

/-- A delivery object keeps its identity, and its flags stay set. -/
structure Session.Older (x x' : Dlv) : Prop where
  id : x'.id = x.id
  tag : x'.tag = x.tag
  sender : x'.sender = x.sender
  localSettled : x.localSettled = true → x'.localSettled = true
  remoteSettled : x.remoteSettled = true → x'.remoteSettled = true
  dropped : x.dropped = true → x'.dropped = true

theorem Session.Older.refl (x : Dlv) : Older x x := ⟨rfl, rfl, rfl, _root_.id, _root_.id, _root_.id⟩

theorem Session.waitResume_dlv? (s : Session) (w d : Ref) :
    (s.waitResume w).dlv? d = s.dlv? d ∨ ∃ x, s.dlv? d = some x ∧
      (s.waitResume w).dlv? d = some { x with remoteSettled := true } := by
  have upd : ∀ (s' : Session) (c : Bool) (d' : Ref) (x : Dlv), s.dlv? d' = some x →
      s'.dlvs = (if c then s.modDlv d' fun d => { d with remoteSettled := true } else s).dlvs →
      s'.dlv? d = s.dlv? d ∨ ∃ x, s.dlv? d = some x ∧ s'.dlv? d = some { x with remoteSettled := true } := by
    intro s' c d' x hx h
    cases c
    · exact .inl (dlv?_congr h d)
    · have h := (dlv?_congr h d).trans (modDlv_dlv? _ _ _ _)
      split at h
      · next he => subst he; rw [hx] at h; exact .inr ⟨x, hx, h⟩
      · exact .inl h
  unfold waitResume
  split
  · dsimp only
    split
    · exact .inl rfl
    · split
      · next x hx =>
        split
        · next inner _ =>
          refine upd _ inner.settled _ x hx ?_
          split <;> simp
        · exact .inl rfl
      · exact .inl rfl
  · exact .inl rfl

theorem Session.dropDelivery_dlv? (s : Session) (d d' : Ref) :
    (s.dropDelivery d).dlv? d' = if d = d' then (s.dlv? d').map fun x => { x with dropped := true } else s.dlv? d' := by
  cases hx : s.dlv? d with
  | none =>
    have : s.dropDelivery d = s := by unfold dropDelivery; rw [hx]
    rw [this]
    split
    · next h => subst h; rw [hx]; rfl
    · rfl
  | some x =>
    rcases dropDelivery_cases hx with ⟨_, h⟩ | ⟨inner, _, ⟨_, _, h⟩ | ⟨_, h⟩⟩ <;> rw [h, ← modDlv_dlv?] <;>
      refine dlv?_congr ?_ _ <;> simp [dropRecord]

theorem Micro.dlv_kept {s s' : Session} (h : Micro s s') (d : Ref) (x : Dlv) (hx : s.dlv? d = some x) :
    ∃ x', s'.dlv? d = some x' ∧ Older x x' := by
  have same : s'.dlvs = s.dlvs → ∃ x', s'.dlv? d = some x' ∧ Older x x' :=
    fun h => ⟨x, (dlv?_congr h d).trans hx, .refl x⟩
  have grown : ∀ y, s'.dlvs = s.dlvs ++ [y] → ∃ x', s'.dlv? d = some x' ∧ Older x x' := by
    intro y h
    refine ⟨x, ?_, .refl x⟩
    rw [dlv?_grown h, if_neg (Nat.ne_of_lt (dlv?_lt hx)), hx]
  have upd : ∀ (d' : Ref) (f : Dlv → Dlv), (∀ x, Older x (f x)) →
      s'.dlv? d = (if d' = d then (s.dlv? d).map f else s.dlv? d) → ∃ x', s'.dlv? d = some x' ∧ Older x x' := by
    intro d' f hf h
    rw [hx] at h
    split at h
    · exact ⟨f x, h, hf x⟩
    · exact ⟨x, h, .refl x⟩
  cases h.dlv with
  | quiet evs hl he hb hs hr => exact same hs.dlvs
  | failed hl hs hr => exact same hs.dlvs
  | sent tag settled h evs hl he hb hm hs hr => exact grown _ hs.dlvs
  | received id tag settled h evs hl he hb hs hr => exact grown _ hs.dlvs
  | settle d' st hf h =>
    subst h
    rcases settle_cases s d' st with h | ⟨y, hy, _, _, h⟩
    · exact same (by rw [h])
    · refine upd d' _ ?_ (by rw [h]; exact modDlv_dlv? _ _ _ _)
      exact fun x => ⟨rfl, rfl, rfl, fun _ => rfl, _root_.id, _root_.id⟩
  | update d' st hf h => subst h; exact same (by simp)
  | drop d' hf h =>
    subst h
    refine upd d' _ ?_ (dropDelivery_dlv? _ _ _)
    exact fun x => ⟨rfl, rfl, rfl, _root_.id, _root_.id, fun _ => rfl⟩
  | wait d' hf h => subst h; exact same (by simp)
  | resume w h =>
    subst h
    rcases waitResume_dlv? s w d with h | ⟨y, hy, h⟩
    · exact ⟨x, h.trans hx, .refl x⟩
    · obtain rfl : y = x := by simpa [hy] using hx
      exact ⟨_, h, rfl, rfl, rfl, _root_.id, fun _ => rfl, _root_.id⟩
  | cancel w h => subst h; exact same rfl
  | dispose disp no hp hn h => subst h; exact same (by simp)
  | failDlvs b hd f hf h => subst h; exact same (by simp)
  | clearSnd he h => subst h; exact same (by simp)
  | clearRcv he h => subst h; exact same (by simp)

/-- The log only grows. -/
theorem Micro.log_grows {s s' : Session} (h : Micro s s') : ∃ evs, s'.log = s.log ++ evs := by
  cases h.dlv with
  | quiet evs hl he hb hs hr => exact ⟨evs, hl⟩
  | failed hl hs hr => exact ⟨[], by simp [hl]⟩
  | sent tag settled h evs hl he hb hm hs hr => exact ⟨evs, hl⟩
  | received id tag settled h evs hl he hb hs hr => exact ⟨evs, hl⟩
  | settle d st hf h =>
    subst h
    rcases settle_log s d st with h | ⟨_, _, h⟩
    · exact ⟨[], by simp [h]⟩
    · exact ⟨_, h⟩
  | update d st hf h =>
    subst h
    rcases updateState_log s d st with h | ⟨_, _, h⟩
    · exact ⟨[], by simp [h]⟩
    · exact ⟨_, h⟩
  | drop d hf h =>
    subst h
    rcases dropDelivery_log s d with h | ⟨_, _, h⟩
    · exact ⟨[], by simp [h]⟩
    · exact ⟨_, h⟩
  | wait d hf h => subst h; exact ⟨[], by simp⟩
  | resume w h => subst h; exact ⟨[], by simp⟩
  | cancel w h => subst h; exact ⟨[], by simp⟩
  | dispose disp no hp hn h => subst h; exact ⟨[], by simp⟩
  | failDlvs b hd f hf h => subst h; exact ⟨[], by simp⟩
  | clearSnd he h => subst h; exact ⟨[], by simp⟩
  | clearRcv he h => subst h; exact ⟨[], by simp⟩

theorem Session.run_log (s : Session) (steps : List Step) : ∃ evs, (s.run steps).log = s.log ++ evs := by
  have := (run_micros s steps).invariant (P := fun s' => ∃ evs, s'.log = s.log ++ evs)
  refine this ?_ ⟨[], by simp⟩
  rintro a b hm ⟨evs, h⟩
  obtain ⟨evs', h'⟩ := hm.log_grows
  exact ⟨evs ++ evs', by rw [h', h, List.append_assoc]⟩

/-! ## Dispositions on the wire -/

theorem sentDispositions_append (a b : List Ev) :
    sentDispositions (a ++ b) = sentDispositions a ++ sentDispositions b := by simp [sentDispositions]
theorem disposals_append (a b : List Ev) : disposals (a ++ b) = disposals a ++ disposals b := by simp [disposals]

theorem sentDispositions_quiet {evs : List Ev} (h : ∀ e ∈ evs, ¬ e.Disposing) : sentDispositions evs = [] := by
  apply List.filterMap_eq_nil_iff.mpr
  intro e he
  split
  · exact (h _ he trivial).elim
  · rfl

theorem disposals_quiet {evs : List Ev} (h : ∀ e ∈ evs, ¬ e.Disposing) : disposals evs = [] := by
  apply List.filterMap_eq_nil_iff.mpr
  intro e he
  split
  · exact (h _ he trivial).elim
  · rfl

/-- Every disposition sent is one asked for through a delivery object. -/
def DispInv (s : Session) : Prop :=
  (sentDispositions s.log).map some =
    (disposals s.log).map fun p => (s.dlv? p.1).map fun x =>
      { role := if x.sender then .sender else .receiver, first := x.id, last := none, settled := p.2.1
        state := some p.2.2, batchable := false }

/-- What a small change adds to the dispositions sent. -/
theorem Micro.disp {s s' : Session} (h : Micro s s') :
    (∃ evs, s'.log = s.log ++ evs ∧ ∀ e ∈ evs, ¬ e.Disposing) ∨
    ∃ d x b st, s.dlv? d = some x ∧ s.free d = true ∧
      s'.log = s.log ++ [.disposed d b st, .frame (dispFrame x b st)] ∧
      (b = true → x.localSettled = false ∧ x.remoteSettled = false ∧
        ∃ x', s'.dlv? d = some x' ∧ (x'.localSettled = true ∨ x'.dropped = true)) := by
  cases h.dlv with
  | quiet evs hl he hb hs hr => exact .inl ⟨evs, hl, he⟩
  | failed hl hs hr => exact .inl ⟨[], by simp [hl], by simp⟩
  | sent tag settled h evs hl he hb hm hs hr => exact .inl ⟨evs, hl, he⟩
  | received id tag settled h evs hl he hb hs hr => exact .inl ⟨evs, hl, he⟩
  | settle d st hf h =>
    subst h
    rcases settle_cases s d st with h | ⟨x, hx, h₁, h₂, h⟩
    · exact .inl ⟨[], by simp [h], by simp⟩
    · refine .inr ⟨d, x, true, st, hx, hf, by rw [h]; simp, fun _ => ⟨h₂, h₁, ?_⟩⟩
      refine ⟨{ x with localSettled := true }, ?_, .inl rfl⟩
      rw [h]
      refine (modDlv_dlv? s d d _).trans ?_
      rw [if_pos rfl, hx]; rfl
  | update d st hf h =>
    subst h
    rcases updateState_cases s d st with h | ⟨x, hx, h⟩
    · exact .inl ⟨[], by simp [h], by simp⟩
    · exact .inr ⟨d, x, false, st, hx, hf, by rw [h]; simp, by simp⟩
  | drop d hf h =>
    subst h
    obtain ⟨⟨x, hx, hd⟩, _⟩ := free_iff.mp hf
    rcases dropDelivery_cases hx with ⟨_, h⟩ | ⟨inner, _, ⟨h₁, h₂, h⟩ | ⟨_, h⟩⟩
    · exact .inl ⟨[], by simp [h], by simp⟩
    · refine .inr ⟨d, x, true, dropRejection, hx, hf, by rw [h]; simp [dropRecord], fun _ => ⟨h₂, h₁, ?_⟩⟩
      refine ⟨{ x with dropped := true }, ?_, .inr rfl⟩
      rw [dropDelivery_dlv?, if_pos rfl, hx]; rfl
    · exact .inl ⟨[], by simp [h, dropRecord], by simp⟩
  | wait d hf h => subst h; exact .inl ⟨[], by simp, by simp⟩
  | resume w h => subst h; exact .inl ⟨[], by simp, by simp⟩
  | cancel w h => subst h; exact .inl ⟨[], by simp, by simp⟩
  | dispose disp no hp hn h => subst h; exact .inl ⟨[], by simp, by simp⟩
  | failDlvs b hd f hf h => subst h; exact .inl ⟨[], by simp, by simp⟩
  | clearSnd he h => subst h; exact .inl ⟨[], by simp, by simp⟩
  | clearRcv he h => subst h; exact .inl ⟨[], by simp, by simp⟩

/-- Disposals name objects that exist. -/
def DispRefs (s : Session) : Prop := ∀ p ∈ disposals s.log, p.1 < s.dlvs.length

theorem Micro.dlvs_length {s s' : Session} (h : Micro s s') : s.dlvs.length ≤ s'.dlvs.length := by
  rcases Nat.lt_or_ge (s'.dlvs.length) s.dlvs.length with hlt | hge
  · exfalso
    obtain ⟨x', hx', _⟩ := h.dlv_kept s'.dlvs.length _ (List.getElem?_eq_getElem hlt)
    exact Nat.lt_irrefl _ (dlv?_lt hx')
  · exact hge

theorem Micro.dispInv {s s' : Session} (h : Micro s s') (hr : DispRefs s) (hi : DispInv s) :
    DispRefs s' ∧ DispInv s' := by
  have hold : (disposals s.log).map (fun p => (s'.dlv? p.1).map fun x =>
        ({ role := if x.sender then .sender else .receiver, first := x.id, last := none, settled := p.2.1
           state := some p.2.2, batchable := false } : Disposition)) =
      (disposals s.log).map (fun p => (s.dlv? p.1).map fun x =>
        { role := if x.sender then .sender else .receiver, first := x.id, last := none, settled := p.2.1
          state := some p.2.2, batchable := false }) := by
    refine List.map_congr_left fun p hp => ?_
    obtain ⟨x', hx', hk⟩ := h.dlv_kept p.1 _ (List.getElem?_eq_getElem (hr p hp))
    have : s.dlv? p.1 = some _ := List.getElem?_eq_getElem (hr p hp)
    rw [hx', this, Option.map_some, Option.map_some, hk.sender, hk.id]
  have hlen := h.dlvs_length
  rcases h.disp with ⟨evs, hl, he⟩ | ⟨d, x, b, st, hx, _, hl, _⟩
  · refine ⟨?_, ?_⟩
    · intro p hp
      rw [hl, disposals_append, disposals_quiet he, List.append_nil] at hp
      exact Nat.lt_of_lt_of_le (hr p hp) hlen
    · unfold DispInv
      rw [hl, sentDispositions_append, sentDispositions_quiet he, disposals_append, disposals_quiet he, List.append_nil,
        List.append_nil, hold]
      exact hi
  · obtain ⟨x', hx', hk⟩ := h.dlv_kept d x hx
    refine ⟨?_, ?_⟩
    · intro p hp
      rw [hl, disposals_append] at hp
      rcases List.mem_append.mp hp with hp | hp
      · exact Nat.lt_of_lt_of_le (hr p hp) hlen
      · obtain rfl : p = (d, b, st) := by simpa [disposals] using hp
        exact dlv?_lt hx'
    · unfold DispInv
      rw [hl, sentDispositions_append, disposals_append, List.map_append, List.map_append, hold]
      congr 1
      simp [sentDispositions, disposals, dispFrame, hx', hk.sender, hk.id]

theorem Session.Reachable.dispInv {s : Session} (h : Reachable s) : DispRefs s ∧ DispInv s := by
  refine h.invariant (P := fun s => DispRefs s ∧ DispInv s) ?_ (fun _ _ hm hp => hm.dispInv hp.1 hp.2)
  rintro s ⟨id, b, mfs, ch, b, rfl⟩
  exact ⟨by intro p hp; simp [Session.new, disposals] at hp, rfl⟩

/-! ## Settled once -/

theorem settlements_append (d : Ref) (a b : List Ev) : settlements d (a ++ b) = settlements d a ++ settlements d b := by
  simp [settlements]

theorem settlements_quiet (d : Ref) {evs : List Ev} (h : ∀ e ∈ evs, ¬ e.Disposing) : settlements d evs = [] := by
  apply List.filterMap_eq_nil_iff.mpr
  intro e he
  split
  · exact (h _ he trivial).elim
  · rfl

/-- A delivery is settled at most once, and its object knows. -/
def OnceInv (d : Ref) (s : Session) : Prop :=
  settlements d s.log = [] ∨ ∃ st x, settlements d s.log = [st] ∧ s.dlv? d = some x ∧
    (x.localSettled = true ∨ x.dropped = true)

theorem Micro.onceInv {d : Ref} {s s' : Session} (h : Micro s s') (hi : OnceInv d s) : OnceInv d s' := by
  rcases h.disp with ⟨evs, hl, he⟩ | ⟨d', x, b, st, hx, hf, hl, hb⟩
  · have e₁ : settlements d s'.log = settlements d s.log := by
      rw [hl, settlements_append, settlements_quiet d he, List.append_nil]
    rcases hi with hi | ⟨st, x, hi, hx, hor⟩
    · exact .inl (e₁.trans hi)
    · obtain ⟨x', hx', hk⟩ := h.dlv_kept d x hx
      exact .inr ⟨st, x', e₁.trans hi, hx', hor.imp hk.localSettled hk.dropped⟩
  · obtain ⟨⟨y, hy, hdr⟩, _⟩ := free_iff.mp hf
    obtain rfl : y = x := by simpa [hy] using hx
    by_cases hd : d' = d ∧ b = true
    · obtain ⟨rfl, rfl⟩ := hd
      obtain ⟨hloc, _, x', hx', hor⟩ := hb rfl
      rcases hi with hi | ⟨st', z, hi, hz, hor'⟩
      · refine .inr ⟨st, x', ?_, hx', hor⟩
        rw [hl, settlements_append, hi]
        simp [settlements]
      · obtain rfl : y = z := by simpa [hz] using hy.symm
        rw [hloc, hdr] at hor'
        simp at hor'
    · have e₁ : settlements d s'.log = settlements d s.log := by
        rw [hl, settlements_append]
        have : settlements d [.disposed d' b st, .frame (dispFrame y b st)] = [] := by
          cases b
          · simp [settlements]
          · have : d' ≠ d := fun h => hd ⟨h, rfl⟩
            simp [settlements, this]
        rw [this, List.append_nil]
      rcases hi with hi | ⟨st', z, hi, hz, hor⟩
      · exact .inl (e₁.trans hi)
      · obtain ⟨x', hx', hk⟩ := h.dlv_kept d z hz
        exact .inr ⟨st', x', e₁.trans hi, hx', hor.imp hk.localSettled hk.dropped⟩

theorem Session.Reachable.onceInv {s : Session} (h : Reachable s) (d : Ref) : OnceInv d s := by
  refine h.invariant (P := OnceInv d) ?_ (fun _ _ hm hp => hm.onceInv hp)
  rintro s ⟨id, b, mfs, ch, b, rfl⟩
  exact .inl rfl

end Amqp.Rt
