import Verif.Lemmas.SessionSettle
import Verif.Spec.Examples
/-! Deliveries and their outcomes: C27–C29, C46, C47. -/

namespace Amqp.Rt
open Session Examples

/-! ## C27 -/

/-- A disposition frame does what `settle_deliveries` does, and nothing else; nothing once the session has failed. -/
theorem c27_disposition_step (s : Session) (disp : Disposition) :
    s.step (.peer (.disposition disp)) = if s.error.isSome then s.note (.peer (.disposition disp))
      else (s.note (.peer (.disposition disp))).settleDeliveries disp := by
  cases h : s.error.isSome <;> simp [step, onPeer, finishFrame, handleFrame, enqueue, note, h]

/-- **C27** Exactly the records of the deliveries the disposition is about are updated: those this side sent if the peer
speaks as receiver, those it received otherwise.

Missing for the full property: ranges that pass from 4294967295 to 0; see `c27_wrapping_range_ignored`. -/
theorem c27_records_partial (s : Session) (disp : Disposition) (h : ∀ last, disp.last = some last → disp.first ≤ last)
    (sent : Bool) (no : UInt32) :
    ((s.settleDeliveries disp).unsettled sent).get no =
      if (sent = true ↔ disp.role = .receiver) ∧ disp.Covers no then
        ((s.unsettled sent).get no).map fun r =>
          { r with settled := r.settled || disp.settled, state := disp.state.or r.state, tx := none }
      else (s.unsettled sent).get no := by
  rw [settleDeliveries_eq, foldl_dispose_unsettled]
  have h₁ : (decide (disp.role = .receiver) = sent) ↔ (sent = true ↔ disp.role = .receiver) := by
    cases sent <;> simp
  simp only [h₁, mem_dispIds h]
  split
  · congr 1
    funext r
    unfold DlvInner.dispose
    cases disp.state <;> rfl
  · rfl

/-- **C27** Exactly the futures waiting on those records are told. -/
theorem c27_waiters_partial (s : Session) (disp : Disposition) (h : ∀ last, disp.last = some last → disp.first ≤ last)
    (w : Ref) :
    (∀ no r, disp.Covers no → (s.unsettled (disp.role = .receiver)).get no = some r → r.tx = some w →
      (s.settleDeliveries disp).waits[w]? = s.waits[w]?.map (WaitTask.wake true)) ∧
    ((∀ no r, disp.Covers no → (s.unsettled (disp.role = .receiver)).get no = some r → r.tx ≠ some w) →
      (s.settleDeliveries disp).waits[w]? = s.waits[w]?) := by
  rw [settleDeliveries_eq, foldl_dispose_waits]
  constructor
  · intro no r hc hr ht
    rw [if_pos]
    exact List.any_eq_true.mpr ⟨no, (mem_dispIds h no).mpr hc, by simp [hr, ht]⟩
  · intro hn
    rw [if_neg]
    intro ha
    obtain ⟨no, hm, ht⟩ := List.any_eq_true.mp ha
    obtain ⟨r, hr, ht⟩ := Option.bind_eq_some_iff.mp (by simpa using ht)
    exact hn no r ((mem_dispIds h no).mp hm) hr ht

/-- **C27** Records and waiting futures aside, nothing changes. -/
theorem c27_nothing_else (s : Session) (disp : Disposition) :
    ∃ waits snd rcv, s.settleDeliveries disp = { s with waits, unsettledSnd := snd, unsettledRcv := rcv } := by
  rw [settleDeliveries_eq]
  exact foldl_dispose_frame _ _ _ _

def aDisposition (role : Role) (first : UInt32) (last : Option UInt32) (settled : Bool) (state : Option DeliveryState) :
    Disposition :=
  { role, first, last, settled, state, batchable := false }

/-- The application has sent three deliveries and waits for all of them. -/
def sentDemo : Session := (start 10).run (attachOne ++ flow (aFlow (some 7) (some 0) (some 9) (some 1) 10) ++
  [.send (aSend 0 [1] false), .send (aSend 0 [2] false), .send (aSend 0 [3] false), .wait 0, .wait 1, .wait 2])

example : Reachable sentDemo := reachable _ _ _
example : (List.range 4).map (fun i => ((sentDemo.settleDeliveries
      (aDisposition .receiver 2 (some 9) true none)).unsettledSnd.get (UInt32.ofNat (i + 1))).map DlvInner.settled) =
    [some false, some true, some true, none] := by decide
example : (sentDemo.settleDeliveries (aDisposition .receiver 2 (some 9) true none)).waits.map (·.st matches .waiting none) =
    [true, false, false] := by decide

/-- The peer attached a sender link and sent two deliveries, with ids 4294967295 and 0. -/
def wrapDemo : Session := (start 10).run ([.peer (.attach (anAttach "a" 7 .sender)), pass 0, pass 0,
  .peer (.transfer (aTransfer 7 (some 0xffffffff) false [1])), .peer (.transfer (aTransfer 7 (some 0) false [2]))])

/-- **C27** is violated by a range that passes from 4294967295 to 0: both deliveries are in it and neither is touched. -/
theorem c27_wrapping_range_ignored :
    ∃ (s : Session) (disp : Disposition), Reachable s ∧ disp.Covers 0xffffffff ∧ disp.Covers 0 ∧ disp.settled = true ∧
      disp.role = .sender ∧
      [0xffffffff, 0].map (fun no => ((s.settleDeliveries disp).unsettledRcv.get no).map DlvInner.settled) =
        [some false, some false] :=
  ⟨wrapDemo, aDisposition .sender 0xffffffff (some 0) true none, reachable _ _ _, by decide, by decide, rfl, rfl, by decide⟩

/-! ## C28 -/

/-- **C28** A delivery is settled at most once, whatever happens. -/
theorem c28_settled_once (s : Session) (hs : Reachable s) (d : Ref) : (settlements d s.log).length ≤ 1 := by
  rcases hs.onceInv d with h | ⟨_, _, h, _⟩ <;> simp [h]

/-- **C28** What was settled stays settled with the same outcome, whatever happens later. -/
theorem c28_first_settlement_stays (s : Session) (hs : Reachable s) (d : Ref) (st : DeliveryState)
    (h : settlements d s.log = [st]) (steps : List Step) : settlements d (s.run steps).log = [st] := by
  obtain ⟨evs, hl⟩ := run_log s steps
  obtain ⟨s₀, pre, hf, rfl⟩ := hs
  have hr : Reachable ((s₀.run pre).run steps) := ⟨s₀, pre ++ steps, hf, by simp [run]⟩
  have := c28_settled_once _ hr d
  rw [hl, settlements_append, h] at this ⊢
  simpa using this

/-- **C28** The first `settle` on a delivery that is not settled yet decides its outcome. -/
theorem c28_first_settle_wins (s : Session) (hs : Reachable s) (d : Ref) (x : Dlv) (st : DeliveryState)
    (hx : s.dlv? d = some x) (hf : s.free d = true) (hl : x.localSettled = false) (hr : x.remoteSettled = false)
    (steps : List Step) : settlements d ((s.step (.settle d st)).run steps).log = [st] := by
  have hone : settlements d (s.step (.settle d st)).log = [st] := by
    have hstep : s.step (.settle d st) = s.settle d st := by simp [step, hf]
    rcases settle_cases s d st with h | ⟨y, hy, _, _, h⟩
    · exfalso
      have : (s.settle d st).log ≠ s.log := by
        unfold settle
        rw [hx]
        simp [hl, hr]
      exact this (by rw [h])
    · rw [hstep, h, postDisp_log, settlements_append]
      obtain ⟨⟨z, hz, hdr⟩, _⟩ := free_iff.mp hf
      obtain rfl : z = x := by simpa [hz] using hx
      have : settlements d s.log = [] := by
        rcases hs.onceInv d with h | ⟨_, z', _, hz', hor⟩
        · exact h
        · obtain rfl : z' = z := by simpa [hz'] using hz
          rw [hl, hdr] at hor; simp at hor
      simp only [modDlv, this, List.nil_append]
      simp [settlements]
  obtain ⟨s₀, pre, hf', rfl⟩ := hs
  exact c28_first_settlement_stays _ ⟨s₀, pre ++ [.settle d st], hf', by simp [run]⟩ d st hone steps

/-- **C28** The disposition frames posted are those asked for through delivery objects, in that order, each for the id of
its object and in the role this side has. -/
theorem c28_dispositions_on_wire (s : Session) (hs : Reachable s) :
    (sentDispositions s.log).map some = (disposals s.log).map fun (d, settled, st) =>
      (s.dlv? d).map fun x =>
        { role := if x.sender then .sender else .receiver, first := x.id, last := none, settled
          state := some st, batchable := false } :=
  hs.dispInv.2

/-- **C28** Dropping a delivery that was not settled sends a rejection, unless the session has failed or another delivery
with the same id was dropped before (which takes a peer that reuses the id of an unsettled delivery). -/
theorem c28_drop_rejects (s : Session) (hs : Reachable s) (d : Ref) (x : Dlv) (hx : s.dlv? d = some x)
    (hf : s.free d = true) (hl : x.localSettled = false) (hr : x.remoteSettled = false) (he : s.error = none)
    (hu : ∀ d' x', s.dlv? d' = some x' → x'.sender = x.sender → x'.id = x.id → x'.dropped = true → d' = d) :
    ∃ r : Rejected, settlements d (s.step (.dropDelivery d)).log = [.rejected r] := by
  obtain ⟨⟨z, hz, hdr⟩, _⟩ := free_iff.mp hf
  obtain rfl : z = x := by simpa [hz] using hx
  have hstep : s.step (.dropDelivery d) = s.dropDelivery d := by simp [step, hf]
  have hnone : settlements d s.log = [] := by
    rcases hs.onceInv d with h | ⟨_, z', _, hz', hor⟩
    · exact h
    · obtain rfl : z' = z := by simpa [hz'] using hz
      rw [hl, hdr] at hor; simp at hor
  rcases dropDelivery_cases hx with ⟨hn, _⟩ | ⟨inner, _, ⟨_, _, h⟩ | ⟨hor, _⟩⟩
  · rcases hs.presentInv d z hx hl hdr he with ⟨inner, hi⟩ | ⟨d', x', hne, hx', h₁, h₂, h₃⟩
    · rw [hn] at hi; simp at hi
    · exact (hne (hu d' x' hx' h₁ h₂ h₃)).elim
  · refine ⟨{ error := some { condition := .custom (sym "Internal error"), description := none, info := none } }, ?_⟩
    rw [hstep, h, postDisp_log, settlements_append, show (s.dropRecord d z).log = s.log by simp [dropRecord], hnone]
    simp [settlements, dropRejection]
  · rw [hl, hr] at hor; simp at hor

/-- **C28** A settled delivery sends nothing more when it is settled again, updated or dropped. -/
theorem c28_settled_is_final (s : Session) (d : Ref) (x : Dlv) (hx : s.dlv? d = some x)
    (h : x.localSettled = true ∨ x.remoteSettled = true) (st : DeliveryState) :
    (s.step (.settle d st)).log = s.log ∧ (s.step (.update d st)).log = s.log ∧ (s.step (.dropDelivery d)).log = s.log := by
  refine ⟨?_, ?_, ?_⟩ <;> simp only [step] <;> split <;> try rfl
  · unfold settle
    rw [hx]
    rcases h with h | h <;> simp [h]
  · unfold updateState
    rw [hx]
    rcases h with h | h <;> simp [h]
  · rcases dropDelivery_cases hx with ⟨_, h'⟩ | ⟨inner, _, ⟨h₁, h₂, _⟩ | ⟨_, h'⟩⟩
    · rw [h']; rfl
    · rw [h₁, h₂] at h; simp at h
    · rw [h']; simp [dropRecord]

def accepted : DeliveryState := .accepted {}

/-- A received delivery is accepted, rejected and dropped: one acceptance goes out; the other is dropped: a rejection. -/
def settleDemo : Session := wrapDemo.run [.settle 0 accepted, .settle 0 (.released {}), .dropDelivery 0, .dropDelivery 1]

example : settlements 0 settleDemo.log = [accepted] ∧ settlements 1 settleDemo.log = [dropRejection] ∧
    (sentDispositions settleDemo.log).map (·.first) = [0xffffffff, 0] := ⟨rfl, rfl, rfl⟩

/-! ## C29 -/

/-- **C29** What a finished `wait` on a sent delivery reports, when it was the last one on that delivery: the state of a
disposition about it that the peer sent after the delivery went out; no state if it was sent settled, or was settled by
this side, or such a disposition had none; or an error because the session failed or the peer detached a link.

Missing for the full property: an earlier of several `wait`s on one delivery; see `c29_second_wait_breaks_first`.  Ids are
taken not to have wrapped around. -/
theorem c29_outcome_partial (s : Session) (hs : Reachable s) (hb : begun s.log < 2 ^ 32) (w d : Ref) (x : Dlv)
    (r : Except PErr (Option DeliveryState)) (hw : s.waits[w]? = some ⟨d, .done r⟩) (hx : s.dlv? d = some x)
    (hsend : x.sender = true) (hlast : ∀ (w' : Ref) (t : WaitTask), s.waits[w']? = some t → t.dlv = d → w' ≤ w) :
    match r with
    | .ok (some st) => Heard s.log x.id st
    | .ok none => x.localSettled = true ∨ Covered s.log x.id
    | .error e => (e = .linkDetached none ∧ s.error.isSome) ∨
        ∃ f : Detach, .peer (.detach f) ∈ s.log ∧ e = .linkDetached f.error := by
  have := (hs.waitsOk hb).2 w _ x hw hx hsend
  rcases r with e | (_ | st)
  · rcases this with h | h | ⟨_, w', t, hlt, ht, hd⟩
    · exact .inl h
    · exact .inr h
    · exact absurd (hlast w' t ht hd) (Nat.not_le_of_lt hlt)
  · exact this
  · exact this

/-- **C29** With several `wait`s, the earlier ones may also fail because a later one took their place; the states they
report are still the peer's. -/
theorem c29_outcome_many_waits (s : Session) (hs : Reachable s) (hb : begun s.log < 2 ^ 32) (w d : Ref) (x : Dlv)
    (r : Except PErr (Option DeliveryState)) (hw : s.waits[w]? = some ⟨d, .done r⟩) (hx : s.dlv? d = some x)
    (hsend : x.sender = true) :
    match r with
    | .ok (some st) => Heard s.log x.id st
    | .ok none => x.localSettled = true ∨ Covered s.log x.id
    | .error e => (e = .linkDetached none ∧ s.error.isSome) ∨
        (∃ f : Detach, .peer (.detach f) ∈ s.log ∧ e = .linkDetached f.error) ∨
        (e = .connectionDropped ∧ ∃ (w' : Ref) (t : WaitTask), w < w' ∧ s.waits[w']? = some t ∧ t.dlv = d) := by
  have := (hs.waitsOk hb).2 w _ x hw hx hsend
  rcases r with e | (_ | st) <;> exact this

/-- **C29** A `wait` that still blocks has a record to be told by, which has heard neither a state nor an error. -/
theorem c29_blocked_is_connected (s : Session) (hs : Reachable s) (hb : begun s.log < 2 ^ 32) (w d : Ref) (x : Dlv)
    (hw : s.waits[w]? = some ⟨d, .waiting none⟩) (hx : s.dlv? d = some x) (hsend : x.sender = true) :
    x.localSettled = false ∧ x.dropped = false ∧ ∃ r : DlvInner, s.unsettledSnd.get x.id = some r ∧ r.tx = some w ∧
      r.state = none ∧ r.error = none := by
  obtain ⟨h₁, h₂, r, hr, ht⟩ := (hs.waitsOk hb).2 w _ x hw hx hsend
  obtain ⟨h₃, h₄⟩ := hs.quietTx true _ r w hr ht
  exact ⟨h₂, h₁, r, hr, ht, h₃, h₄⟩

theorem Session.Reachable.step {s : Session} (h : Reachable s) (a : Step) : Reachable (s.step a) := by
  obtain ⟨s₀, pre, hf, rfl⟩ := h
  exact ⟨s₀, pre ++ [a], hf, by simp [run]⟩

/-- **C29** A disposition about a delivery releases whoever waits for it. -/
theorem c29_disposition_releases (s : Session) (hs : Reachable s) (hb : begun s.log < 2 ^ 32) (disp : Disposition)
    (h : ∀ last, disp.last = some last → disp.first ≤ last) (he : s.error = none) (hrole : disp.role = .receiver) (w d : Ref)
    (x : Dlv) (hx : s.dlv? d = some x) (hsend : x.sender = true) (hc : disp.Covers x.id) :
    (s.step (.peer (.disposition disp))).waits[w]? ≠ some ⟨d, .waiting none⟩ := by
  intro hw
  have hs' := hs.step (.peer (.disposition disp))
  have heq : s.step (.peer (.disposition disp)) = (s.note (.peer (.disposition disp))).settleDeliveries disp := by
    rw [c27_disposition_step, he]; rfl
  obtain ⟨_, _, _, hfr⟩ := c27_nothing_else (s.note (.peer (.disposition disp))) disp
  have hx' : (s.step (.peer (.disposition disp))).dlv? d = some x := by rw [heq, hfr]; exact hx
  have hb' : begun (s.step (.peer (.disposition disp))).log < 2 ^ 32 := by
    rw [heq, hfr]
    show begun (s.log ++ [_]) < _
    rw [begun_append]; exact hb
  obtain ⟨_, _, r, hr, ht, _⟩ := c29_blocked_is_connected _ hs' hb' w d x hw hx' hsend
  have := c27_records_partial (s.note (.peer (.disposition disp))) disp h true x.id
  rw [if_pos ⟨by simp [hrole], hc⟩] at this
  rw [heq] at hr
  rw [show ((s.note (.peer (.disposition disp))).settleDeliveries disp).unsettledSnd.get x.id = _ from this] at hr
  obtain ⟨r₀, _, rfl⟩ := Option.map_eq_some_iff.mp hr
  simp at ht

/-- **C29** The end of the session or the failure of the connection releases everyone. -/
theorem c29_failure_releases (s : Session) (hs : Reachable s) (e : PErr) (hb : begun (s.step (.fail e)).log < 2 ^ 32)
    (w d : Ref) (x : Dlv) (hx : (s.step (.fail e)).dlv? d = some x) (hsend : x.sender = true) :
    (s.step (.fail e)).waits[w]? ≠ some ⟨d, .waiting none⟩ := by
  intro hw
  obtain ⟨_, _, r, hr, _⟩ := c29_blocked_is_connected _ (hs.step _) hb w d x hw hx hsend
  rw [show (s.step (.fail e)).unsettledSnd = .empty from setError_unsettledSnd s e] at hr
  simp at hr

/-- **C29** A `wait` that was released finishes when it is polled. -/
theorem c29_released_finishes (s : Session) (hs : Reachable s) (w d : Ref) (m : Bool)
    (hw : s.waits[w]? = some ⟨d, .waiting (some m)⟩) :
    ∃ r, (s.step (.resumeWait w)).waits[w]? = some ⟨d, .done r⟩ := by
  show ∃ r, (s.waitResume w).waits[w]? = some ⟨d, .done r⟩
  have fin : ∀ (s₁ : Session) res, s₁.waits = s.waits → s.waitResume w = s₁.finishWait w res →
      ∃ r, (s.waitResume w).waits[w]? = some ⟨d, .done r⟩ := by
    intro s₁ res h₁ h
    rw [h, finishWait_get, if_pos rfl, h₁, hw]
    exact ⟨res, rfl⟩
  rcases waitResume_cases s w with h | ⟨d', mail, hwd, ⟨_, h⟩ | ⟨x, _, hx, ⟨_, h⟩ | ⟨inner, hg, h⟩⟩⟩
  · exfalso
    have : (s.waitResume w).waits[w]? ≠ s.waits[w]? := by
      obtain ⟨x, hx⟩ := hs.waitInv.refs w _ hw
      unfold waitResume
      rw [hw]
      dsimp only at hx ⊢
      cases m with
      | false => rw [Bool.not_false, if_pos rfl, finishWait_get, if_pos rfl, hw]; simp
      | true =>
        rw [Bool.not_true, if_neg (by simp), hx]
        dsimp only
        split
        · split
          · rw [finishWait_get, if_pos rfl, setUnsettled_waits]
            split <;> simp [modDlv, hw]
          · rw [finishWait_get, if_pos rfl]
            split <;> simp [modDlv, hw]
        · rw [finishWait_get, if_pos rfl, hw]; simp
    exact this (by rw [h])
  · exact fin s _ rfl h
  · exact fin s _ rfl h
  · rcases h with ⟨res, inner', hc, h⟩ | ⟨_, _, h⟩
    · exact fin _ _ (by rw [setUnsettled_waits]; split <;> rfl) h
    · exact fin _ _ (by split <;> rfl) h

/-- **C29** Waiting on a delivery that was sent settled, or that this side settled, finishes at once. -/
theorem c29_settled_resolves (s : Session) (d : Ref) (x : Dlv) (hx : s.dlv? d = some x) (hd : x.dropped = false)
    (hl : x.localSettled = true) : (s.step (.wait d)).waits[s.waits.length]? = some ⟨d, .done (.ok none)⟩ := by
  have hstep : s.step (.wait d) = s.waitStart d := by
    have : s.held d = true := held_iff.mpr ⟨x, hx, hd⟩
    simp [step, this]
  rcases waitStart_cases hx with ⟨_, h⟩ | ⟨h', _⟩ | ⟨_, _, _, h', _⟩ | ⟨_, h', _⟩
  · rw [hstep, h, finishWait_get, if_pos rfl, pushWait_get, if_pos rfl]; rfl
  · rw [hl] at h'; simp at h'
  · rw [hl] at h'; simp at h'
  · rw [hl] at h'; simp at h'

/-- The three deliveries of `sentDemo`: two accepted, the third failed with the session. -/
def outcomeDemo : Session := sentDemo.run [.peer (.disposition (aDisposition .receiver 1 (some 2) true (some accepted))),
  .resumeWait 0, .resumeWait 1, .fail .connectionDropped, .resumeWait 2]

example : outcomeDemo.waits.map (·.st) = [.done (.ok (some accepted)), .done (.ok (some accepted)),
    .done (.error (.linkDetached none))] := rfl
example : begun outcomeDemo.log < 2 ^ 32 ∧ (outcomeDemo.dlv? 0).map Dlv.sender = some true := by decide

/-- **C29** is violated when a delivery is awaited twice (`wait` takes `&self`): the first `wait` fails with
`ConnectionDropped` although nothing was closed, and the peer has accepted the delivery. -/
theorem c29_second_wait_breaks_first :
    ∃ s : Session, Reachable s ∧ s.error = none ∧ (∀ e, e ∈ s.log → ∀ f, e ≠ .peer (.detach f)) ∧
      s.waits.map (fun t => (t.dlv, t.st)) = [(0, .done (.error .connectionDropped)), (0, .done (.ok (some accepted)))] := by
  refine ⟨_, reachable 10 65535 (attachOne ++ flow (aFlow (some 7) (some 0) (some 9) (some 1) 10) ++
    [.send (aSend 0 [1] false), .wait 0, .wait 0, .resumeWait 0,
      .peer (.disposition (aDisposition .receiver 1 none true (some accepted))), .resumeWait 1]), rfl, ?_, rfl⟩
  have h : ∀ e ∈ ((start 10).run (attachOne ++ flow (aFlow (some 7) (some 0) (some 9) (some 1) 10) ++
    [.send (aSend 0 [1] false), .wait 0, .wait 0, .resumeWait 0,
      .peer (.disposition (aDisposition .receiver 1 none true (some accepted))), .resumeWait 1])).log,
      (e matches .peer (.detach _)) = false := by decide
  rintro e he f rfl
  exact absurd (h _ he) (by simp)

/-! ## C46 -/

theorem split_at {α : Type} {l : List α} {k : Nat} {e : α} (h : l[k]? = some e) : l = l.take k ++ e :: l.drop (k + 1) := by
  obtain ⟨hk, rfl⟩ := List.getElem?_eq_some_iff.mp h
  rw [List.getElem_cons_drop, List.take_append_drop]

/-- **C46** Once a `wait` has learnt that the receiver settled the delivery, or this side has settled it, the delivery
object sends nothing more.

Missing for the full property: deliveries whose settlement arrived before they were awaited, or that are never awaited; see
`c46_accepted_then_rejected`. -/
theorem c46_no_disposition_after_settlement_partial (s : Session) (d : Ref) (x : Dlv) (hx : s.dlv? d = some x)
    (h : x.remoteSettled = true) (st : DeliveryState) :
    (s.step (.settle d st)).log = s.log ∧ (s.step (.update d st)).log = s.log ∧ (s.step (.dropDelivery d)).log = s.log :=
  c28_settled_is_final s d x hx (.inr h) st

/-- Settlement noticed by `wait`. -/
example : ((sentDemo.run [.peer (.disposition (aDisposition .receiver 1 none true (some accepted))), .resumeWait 0]).dlv? 0).map
    Dlv.remoteSettled = some true := by decide

/-- **C46** is violated: the peer accepts and settles a delivery, `wait` reports so, and dropping the delivery object then
tells the peer that the delivery is rejected. -/
theorem c46_accepted_then_rejected :
    ∃ s : Session, Reachable s ∧ Heard s.log 1 accepted ∧
      s.waits.map (·.st) = [.done (.ok (some accepted))] ∧
      s.log.getLast? = some (.frame (.disposition (aDisposition .sender 1 none true (some dropRejection)))) := by
  refine ⟨_, reachable 10 65535 (attachOne ++ flow (aFlow (some 7) (some 0) (some 9) (some 1) 10) ++
    [.send (aSend 0 [1] false), .peer (.disposition (aDisposition .receiver 1 none true (some accepted))), .wait 0,
      .dropDelivery 0]), ?_, rfl, rfl⟩
  refine ⟨_, aDisposition .receiver 1 none true (some accepted), _, split_at (k := 9) rfl, ⟨0, 0, ?_⟩, rfl, rfl, rfl⟩
  exact List.mem_of_getElem? (i := 7) rfl

/-! ## C47 -/

/-- **C47** A `wait` begun after the receiver reported a state answers at once with that state. -/
theorem c47_late_wait_answers_partial (s : Session) (d : Ref) (x : Dlv) (r : DlvInner) (st : DeliveryState)
    (hx : s.dlv? d = some x) (hd : x.dropped = false) (hl : x.localSettled = false)
    (hr : (s.unsettled x.sender).get x.id = some r) (hst : r.state = some st) :
    (s.step (.wait d)).waits[s.waits.length]? = some ⟨d, .done (.ok (some st))⟩ := by
  have hstep : s.step (.wait d) = s.waitStart d := by
    have : s.held d = true := held_iff.mpr ⟨x, hx, hd⟩
    simp [step, this]
  rcases waitStart_cases hx with ⟨h', _⟩ | ⟨_, h', _⟩ | ⟨inner, res, inner', _, hg, hc, h⟩ | ⟨inner, _, hg, hn, _⟩
  · rw [hl] at h'; simp at h'
  · rw [hr] at h'; simp at h'
  · obtain rfl : inner = r := by simpa [hg] using hr
    have hres : res = .ok (some st) := by
      unfold checkInner at hc
      rw [hst] at hc
      cases st <;> simp_all
    rw [hstep, h, finishWait_get, if_pos rfl, setUnsettled_waits, pushWait_get, if_pos rfl, hres]; rfl
  · obtain rfl : inner = r := by simpa [hg] using hr
    rw [hst] at hn; simp at hn

/-- **C47** is violated when the receiver settles without a state (§2.7.6: state is optional) before `wait` is called: the
delivery is settled and `wait` blocks. -/
theorem c47_settled_without_state_blocks :
    ∃ s : Session, Reachable s ∧ (s.unsettledSnd.get 1).map DlvInner.settled = some true ∧
      s.waits.map (·.st) = [.waiting none] ∧ s.step (.resumeWait 0) = s :=
  ⟨_, reachable 10 65535 (attachOne ++ flow (aFlow (some 7) (some 0) (some 9) (some 1) 10) ++
    [.send (aSend 0 [1] false), .peer (.disposition (aDisposition .receiver 1 none true none)), .wait 0]), by decide, rfl, rfl⟩

/-- **C47** is violated when the outcome is `modified`, which is handed out only once: a second `wait` blocks although the
delivery is settled. -/
theorem c47_modified_reported_once :
    ∃ (s : Session) (m : Modified), Reachable s ∧ Heard s.log 1 (.modified m) ∧
      s.waits.map (·.st) = [.done (.ok (some (.modified m))), .waiting none] ∧ s.step (.resumeWait 1) = s := by
  let m : Modified := { deliveryFailed := none, undeliverableHere := none, messageAnnotations := none }
  refine ⟨_, m, reachable 10 65535 (attachOne ++ flow (aFlow (some 7) (some 0) (some 9) (some 1) 10) ++
    [.send (aSend 0 [1] false), .peer (.disposition (aDisposition .receiver 1 none true (some (.modified m)))), .wait 0,
      .wait 0]), ?_, rfl, rfl⟩
  refine ⟨_, aDisposition .receiver 1 none true (some (.modified m)), _, split_at (k := 9) rfl, ⟨0, 0, ?_⟩, rfl, rfl, rfl⟩
  exact List.mem_of_getElem? (i := 7) rfl

end Amqp.Rt
