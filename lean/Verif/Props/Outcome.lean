import Verif.Lemmas.PairSettle
/-!
# Outcomes between two connected sessions: C68
-/

namespace Amqp.Rt
open Session Examples

/-- A disposition the left session was given is one the right session was asked for. -/
theorem asked_for {σ : Pair} (hs : σ.Sound) (hp : arrived σ.left.log <+: (posted σ.right.log).map Frame.asReceived)
    {disp : Disposition} (h : .peer (.disposition disp) ∈ σ.left.log) :
    ∃ d settled st x, (d, settled, st) ∈ disposals σ.right.log ∧ σ.right.dlv? d = some x ∧
      disp = { role := if x.sender then .sender else .receiver, first := x.id, last := none, settled, state := some st,
               batchable := false } := by
  have h₁ : Frame.disposition disp ∈ arrived σ.left.log := List.mem_filterMap.mpr ⟨_, h, rfl⟩
  obtain ⟨f, hf, hfe⟩ := List.mem_map.mp (hp.subset h₁)
  obtain rfl : f = .disposition disp := by cases f <;> simp [Frame.asReceived] at hfe; rw [hfe]
  have h₂ : disp ∈ sentDispositions σ.right.log := by
    obtain ⟨e, he, hee⟩ := List.mem_filterMap.mp hf
    refine List.mem_filterMap.mpr ⟨e, he, ?_⟩
    cases e <;> simp at hee
    subst hee; rfl
  have h₃ : some disp ∈ (sentDispositions σ.right.log).map some := List.mem_map.mpr ⟨_, h₂, rfl⟩
  rw [c28_dispositions_on_wire _ hs.right] at h₃
  obtain ⟨⟨d, settled, st⟩, hd, hx⟩ := List.mem_map.mp h₃
  obtain ⟨x, hx, hdisp⟩ := Option.map_eq_some_iff.mp hx
  exact ⟨d, settled, st, x, hd, hx, hdisp.symm⟩

/-- **C68** The outcome a `wait` reports for a message is one that the application at the other end gave to that delivery: the
one object there that stands for the transfer frame the message went out with.  Ids are taken not to have wrapped around. -/
theorem c68_outcome {σ₀ : Pair} (hf : σ₀.Fresh) (steps : List PStep) {σ : Pair} (hσ : σ = σ₀.run steps)
    (hb : begun σ.left.log < 2 ^ 32) {t d w : Ref} {x : SendTask} {st : DeliveryState} (hx : σ.left.sends[t]? = some x)
    (hst : x.st = .done (.ok d)) (hw : σ.left.waits[w]? = some ⟨d, .done (.ok (some st))⟩) :
    ∃ d' settled y, (d', settled, st) ∈ disposals σ.right.log ∧ σ.right.dlv? d' = some y ∧ y.sender = false ∧
      .begun t x.req.link y.id ∈ σ.left.log ∧
      ∀ d'' y', σ.right.dlv? d'' = some y' → y'.sender = false → y'.id = y.id → d'' = d' := by
  have hs : σ.Sound := hσ ▸ hf.sound.run steps
  have hp := hσ ▸ c62_frames_in_order hf steps
  obtain ⟨z, hz, hzs, hbeg⟩ := hs.left.doneDlv t x d hx hst
  obtain ⟨pre, disp, post, hlog, _, hrole, hcov, hstate⟩ := c29_outcome_many_waits _ hs.left hb w d z _ hw hz hzs
  obtain ⟨d', settled, st', y, hd, hy, rfl⟩ := asked_for hs hp.2 (disp := disp) (by rw [hlog]; simp)
  obtain rfl : st' = st := by simpa using hstate
  have hys : y.sender = false := by
    cases h : y.sender with
    | false => rfl
    | true => simp [h] at hrole
  have hid : y.id = z.id := by simpa [Disposition.Covers, eq_comm] using hcov
  refine ⟨d', settled, y, hd, hy, hys, hid ▸ hbeg, ?_⟩
  intro d'' y' hy' hys' hid'
  exact inIds_unique ((sentIds_nodup hs.left hb).sublist (Pair.inIds hp.1 hs.right)) hy' hy hys' hys hid'

/-- **C68** The object the other end gave the outcome through held the message: if it was handed to the application there by
the receiver link at the other end of the sender link, then with what was sent. -/
theorem c68_same_message {σ₀ : Pair} (hf : σ₀.Fresh) (steps : List PStep) {σ : Pair} (hσ : σ = σ₀.run steps)
    (hb : begun σ.left.log < 2 ^ 32) {ra rb : Ref} {h : UInt32} (hr : SoleSender σ.left h ra)
    (hc : ∀ x ∈ σ.left.sends, x.req.body.coherent) (ht : receivedOn rb σ.right.log <+: transfersOn h (arrived σ.right.log))
    {d' : Ref} {m : Transfer} (hm : (d', m) ∈ handedOn rb σ.right.log) {y : Dlv} (hy : σ.right.dlv? d' = some y) {t : Ref}
    {x : SendTask} (hbeg : .begun t ra y.id ∈ σ.left.log) (hx : σ.left.sends[t]? = some x) : SameMessage x.req m.asArrival := by
  obtain ⟨i, hi⟩ := List.getElem?_of_mem hm
  obtain ⟨q, hq, hsame⟩ := (c62_messages_in_order hf steps hσ hr hc ht).2 i d' m hi
  have hs : σ.Sound := hσ ▸ hf.sound.run steps
  have hp := hσ ▸ c62_frames_in_order hf steps
  obtain ⟨_, _, hobj⟩ := c31_taken_once hs.right rb
  obtain ⟨y', hy', _, hid, _⟩ := hobj d' m hm
  have hyy : y' = y := by simpa [hy] using hy'.symm
  rw [hyy] at hid
  -- the id of the delivery handed out
  obtain ⟨ds, h₁, h₂, _, h₄⟩ := wire_received hs hr hc
  have hids := assemble_ids h₄
  rw [← h₁, transfersOn_received, List.filterMap_map,
    show ((fun t : Transfer => t.head.deliveryId) ∘ Transfer.asReceived) = fun t => t.head.deliveryId from
      funext fun t => by simp [asReceived_head], (ids_of_link hs.left hr hc).1] at hids
  rw [← transfersOn_received] at hids
  have hdone : (handedOn rb σ.right.log).map (·.2.asArrival) <+:
      (assemble (transfersOn h ((posted σ.left.log).map Frame.asReceived))).done :=
    (c31_in_order hs.right rb).trans (done_prefix (ht.trans (transfersOn_prefix hp.1)))
  have hd : (assemble (transfersOn h ((posted σ.left.log).map Frame.asReceived))).done[i]? = some m.asArrival := by
    have hi' : ((handedOn rb σ.right.log).map (·.2.asArrival))[i]? = some m.asArrival := by
      rw [List.getElem?_map, hi]; rfl
    obtain ⟨c, hc⟩ := hdone
    rw [← hc, List.getElem?_append_left (List.getElem?_eq_some_iff.mp hi').1]; exact hi'
  have hii := congrArg (·[i]?) hids
  simp only [List.getElem?_map, hd, Option.map_some] at hii
  obtain ⟨v, hv, hve⟩ := Option.map_eq_some_iff.mp hii.symm
  obtain ⟨⟨t', no⟩, hst, rfl⟩ := Option.map_eq_some_iff.mp hv
  have hno : some no = some y.id := hve.trans hid
  obtain rfl : no = y.id := by simpa using hno
  -- two sends with that id are the same
  obtain ⟨rfl, _⟩ := starts_unique hs.left hb hbeg (begun_of_startsOn (List.mem_of_getElem? hst))
  rw [(ids_of_link hs.left hr hc).2, filterMap_total, hst] at hq
  · have : x.req = q := by simpa [hx] using hq
    rw [this]; exact hsame
  · intro p hp
    obtain ⟨z, hz⟩ := starts_known hs.left (begun_of_startsOn hp)
    simp [hz]

/-- **C68** When a disposition of the right session reaches the left one, nobody there goes on waiting for the delivery it is
about, unless the left session has failed or was ended. -/
theorem c68_reaches_sender {σ₀ : Pair} (hf : σ₀.Fresh) (steps : List PStep) {σ : Pair} (hσ : σ = σ₀.run steps)
    (hb : begun σ.left.log < 2 ^ 32) (he : σ.left.error = none) (hend : σ.left.ending = false) {disp : Disposition}
    (hn : (posted σ.right.log)[σ.toLeft]? = some (.disposition disp)) (hrole : disp.role = .receiver) {w d : Ref} {x : Dlv}
    (hx : σ.left.dlv? d = some x) (hsend : x.sender = true) (hid : x.id = disp.first) :
    (σ.step .arriveLeft).left.waits[w]? ≠ some ⟨d, .waiting none⟩ ∧
    ∀ no, (σ.step .arriveLeft).left.unsettledSnd.get no =
      if no = disp.first then
        (σ.left.unsettledSnd.get no).map fun r =>
          { r with settled := r.settled || disp.settled, state := disp.state.or r.state, tx := none }
      else σ.left.unsettledSnd.get no := by
  have hs : σ.Sound := hσ ▸ hf.sound.run steps
  have hmem : disp ∈ sentDispositions σ.right.log := by
    obtain ⟨e, hem, hee⟩ := List.mem_filterMap.mp (List.mem_of_getElem? hn)
    refine List.mem_filterMap.mpr ⟨e, hem, ?_⟩
    cases e <;> simp at hee
    subst hee; rfl
  have hlast : disp.last = none := by
    have h₃ : some disp ∈ (sentDispositions σ.right.log).map some := List.mem_map.mpr ⟨_, hmem, rfl⟩
    rw [c28_dispositions_on_wire _ hs.right] at h₃
    obtain ⟨_, _, hx⟩ := List.mem_map.mp h₃
    obtain ⟨_, _, rfl⟩ := Option.map_eq_some_iff.mp hx
    rfl
  have hstep : (σ.step .arriveLeft).left = σ.left.step (.peer (.disposition disp)) := by
    have : σ.nextLeft = some (.disposition disp) := by rw [Pair.nextLeft, hn]; rfl
    simp only [Pair.step, this, deliver, hend]
    rfl
  have hcov : ∀ no, disp.Covers no ↔ no = disp.first := by intro no; unfold Disposition.Covers; rw [hlast]
  rw [hstep]
  refine ⟨c29_disposition_releases σ.left hs.left hb disp (by simp [hlast]) he hrole w d x hx hsend ((hcov _).mpr hid), ?_⟩
  intro no
  have h := c27_records_partial (σ.left.note (.peer (.disposition disp))) disp (by simp [hlast]) true no
  rw [c27_disposition_step, he]
  simp only [hcov, hrole, true_and, iff_self] at h
  exact h

/-- **C68** Once everything has arrived, the left session has been told of every outcome given on the right. -/
theorem c68_all_told {σ₀ : Pair} (hf : σ₀.Fresh) (steps : List PStep) {σ : Pair} (hσ : σ = σ₀.run steps)
    (hend : σ.left.ending = false) (hall : σ.toLeft = (posted σ.right.log).length) {d' : Ref} {settled : Bool}
    {st : DeliveryState} {y : Dlv} (hd : (d', settled, st) ∈ disposals σ.right.log) (hy : σ.right.dlv? d' = some y)
    (hys : y.sender = false) :
    .peer (.disposition { role := .receiver, first := y.id, last := none, settled, state := some st, batchable := false })
      ∈ σ.left.log := by
  have hs : σ.Sound := hσ ▸ hf.sound.run steps
  obtain ⟨_, k, _, h₅, h₆⟩ := hs.toLeft
  rw [h₆ hend, hall, List.take_length] at h₅
  have hm : some ({ role := .receiver, first := y.id, last := none, settled, state := some st, batchable := false } : Disposition)
      ∈ (sentDispositions σ.right.log).map some := by
    rw [c28_dispositions_on_wire _ hs.right]
    exact List.mem_map.mpr ⟨_, hd, by simp [hy, hys]⟩
  obtain ⟨disp, hdm, hde⟩ := List.mem_map.mp hm
  rw [← Option.some.inj hde]
  have hp : Frame.disposition disp ∈ (posted σ.right.log).map Frame.asReceived := by
    obtain ⟨e, he, hee⟩ := List.mem_filterMap.mp hdm
    refine List.mem_map.mpr ⟨.disposition disp, List.mem_filterMap.mpr ⟨e, he, ?_⟩, rfl⟩
    split at hee
    · cases hee; rfl
    · cases hee
  rw [← h₅] at hp
  obtain ⟨e, he, hee⟩ := List.mem_filterMap.mp hp
  split at hee
  · cases hee; exact he
  · cases hee

/-- One message is sent unsettled, taken and accepted, and the sender waits for that. -/
def acceptRun : List PStep := joinOne ++ given 1 ++ [.left (.send (aSend 0 [7] false)), .left (.wait 0), .arriveRight,
  .right (.take 0), .right (.settle 0 accepted)]

example : (aPair.run acceptRun).left.waits = [⟨0, .waiting none⟩] ∧
    disposals (aPair.run acceptRun).right.log = [(0, true, accepted)] ∧
    (posted (aPair.run acceptRun).right.log)[(aPair.run acceptRun).toLeft]?.isSome := ⟨rfl, rfl, rfl⟩

def acceptedRun : List PStep := acceptRun ++ [.arriveLeft, .left (.resumeWait 0)]

example : (aPair.run acceptedRun).left.waits = [⟨0, .done (.ok (some accepted))⟩] ∧
    (aPair.run acceptedRun).left.sends.map (·.st) = [.done (.ok 0)] ∧
    begun (aPair.run acceptedRun).left.log < 2 ^ 32 ∧ SoleSender (aPair.run acceptedRun).left 0 0 ∧
    (handedOn 0 (aPair.run acceptedRun).right.log).map (fun p => (p.1, p.2.payload)) = [(0, [7])] :=
  ⟨rfl, rfl, by decide, sole_one rfl rfl, rfl⟩

end Amqp.Rt
