import Verif.Props.Routing
/-!
# What a detach does to the link's deliveries: C34
-/

namespace Amqp.Rt
open Session Examples

/-- The peer detaches sender link `r`. -/
def SenderDetached (s : Session) (f : Detach) (r : Ref) (l : Snd) : Prop :=
  s.error = none ∧ s.snd? r = some l ∧ ∃ k, s.remoteHandles.get f.handle = some k ∧ s.links.get k = some (.snd (.established r))

/-- The peer detaches receiver link `r`. -/
def ReceiverDetached (s : Session) (f : Detach) (r : Ref) (l : Rcv) : Prop :=
  s.error = none ∧ s.rcv? r = some l ∧ ∃ k, s.remoteHandles.get f.handle = some k ∧ s.links.get k = some (.rcv (.established r))

/-- Record `d` belongs to the deliveries of the link with handle `h`; they fail with `e`. -/
def failed (h : UInt32) (e : PErr) (d : DlvInner) : DlvInner := if d.handle = h then { d with error := some e, tx := none } else d

/-- The deliveries a detach fails: direction `b`, handle `h`, error `e`. -/
structure Fails (s s' : Session) (b : Bool) (h : UInt32) (e : PErr) : Prop where
  own : ∀ id, (s'.unsettled b).get id = ((s.unsettled b).get id).map (failed h e)
  other : s'.unsettled (!b) = s.unsettled (!b)
  dlvs : s'.dlvs = s.dlvs
  waits : ∀ w, s'.waits[w]? =
    if (s.unsettled b).entries.any (fun x => x.2.handle == h && x.2.tx == some w) then s.waits[w]?.map (WaitTask.wake true)
    else s.waits[w]?

theorem Fails.congr {s a b s' : Session} {d : Bool} {h : UInt32} {e : PErr} (hf : Fails a b d h e)
    (h₁ : a.unsettledSnd = s.unsettledSnd) (h₂ : a.unsettledRcv = s.unsettledRcv) (h₃ : a.dlvs = s.dlvs)
    (h₄ : a.waits = s.waits) (g₁ : s'.unsettledSnd = b.unsettledSnd) (g₂ : s'.unsettledRcv = b.unsettledRcv)
    (g₃ : s'.dlvs = b.dlvs) (g₄ : s'.waits = b.waits) : Fails s s' d h e := by
  have ha : ∀ x, a.unsettled x = s.unsettled x := unsettled_congr h₁ h₂
  have hb : ∀ x, s'.unsettled x = b.unsettled x := unsettled_congr g₁ g₂
  refine ⟨fun id => ?_, ?_, ?_, fun w => ?_⟩
  · rw [hb, hf.own, ha]
  · rw [hb, hf.other, ha]
  · rw [g₃, hf.dlvs, h₃]
  · rw [g₄, hf.waits, ha, h₄]

theorem failDeliveries_fails (s : Session) (b : Bool) (h : UInt32) (e : PErr) : Fails s (s.failDeliveries b h e) b h e := by
  refine ⟨fun id => ?_, ?_, by simp, failDeliveries_waits s b h e⟩
  · rw [failDeliveries_unsettled, if_pos rfl, Map.get_mapVals]; rfl
  · rw [failDeliveries_unsettled, if_neg (by cases b <;> simp)]

theorem SenderDetached.fails {s : Session} {f : Detach} {r : Ref} {l : Snd} (h : SenderDetached s f r l) :
    Fails s (s.step (.peer (.detach f))) true (UInt32.ofNat l.id) (.linkDetached f.error) := by
  obtain ⟨he, hl, k, hk, hx⟩ := h
  have hd : ((s.note (.peer (.detach f))).handleDetach f).1 =
      (((s.note (.peer (.detach f))).detachEstablishedSender r l f).forget k f.handle).modSnd r
        (fun l => { l with closed := true }) := by
    unfold handleDetach
    rw [show (s.note (.peer (.detach f))).remoteHandles.get f.handle = some k from hk]
    dsimp only
    rw [show (s.note (.peer (.detach f))).links.get k = some (.snd (.established r)) from hx]
    dsimp only
    rw [show (s.note (.peer (.detach f))).snd? r = some l from hl]
  rw [peer_detach_eq he]
  have enq : ∀ (a : Session) (act : Action), (a.enqueue act).unsettledSnd = a.unsettledSnd ∧
      (a.enqueue act).unsettledRcv = a.unsettledRcv ∧ (a.enqueue act).dlvs = a.dlvs ∧ (a.enqueue act).waits = a.waits := by
    intro a act; unfold enqueue; split <;> exact ⟨rfl, rfl, rfl, rfl⟩
  obtain ⟨e₁, e₂, e₃, e₄⟩ := enq ((s.note (.peer (.detach f))).handleDetach f).1 ((s.note (.peer (.detach f))).handleDetach f).2
  rw [hd] at e₁ e₂ e₃ e₄
  refine (failDeliveries_fails (failPending { s.note (.peer (.detach f)) with linksByName := s.linksByName.erase l.name }
    l.remoteHandle (.linkDetached f.error)) true (UInt32.ofNat l.id) (.linkDetached f.error)).congr ?_ ?_ ?_ ?_ ?_ ?_ ?_ ?_
  · simp [failPending]
  · simp [failPending]
  · simp [failPending]
  · simp [failPending]
  · rw [hd, e₁]; simp [detachEstablishedSender, forget]
  · rw [hd, e₂]; simp [detachEstablishedSender, forget]
  · rw [hd, e₃]; simp [detachEstablishedSender, forget]
  · rw [hd, e₄]; simp [detachEstablishedSender, forget]

theorem ReceiverDetached.fails {s : Session} {f : Detach} {r : Ref} {l : Rcv} (h : ReceiverDetached s f r l) :
    Fails s (s.step (.peer (.detach f))) false l.handle (.linkDetached f.error) := by
  obtain ⟨he, hl, k, hk, hx⟩ := h
  have hd : ((s.note (.peer (.detach f))).handleDetach f).1 =
      (((s.note (.peer (.detach f))).detachEstablishedReceiver r l f).forget k f.handle).modRcv r
        (fun l => { l with closed := true }) := by
    unfold handleDetach
    rw [show (s.note (.peer (.detach f))).remoteHandles.get f.handle = some k from hk]
    dsimp only
    rw [show (s.note (.peer (.detach f))).links.get k = some (.rcv (.established r)) from hx]
    dsimp only
    rw [show (s.note (.peer (.detach f))).rcv? r = some l from hl]
  rw [peer_detach_eq he]
  have enq : ∀ (a : Session) (act : Action), (a.enqueue act).unsettledSnd = a.unsettledSnd ∧
      (a.enqueue act).unsettledRcv = a.unsettledRcv ∧ (a.enqueue act).dlvs = a.dlvs ∧ (a.enqueue act).waits = a.waits := by
    intro a act; unfold enqueue; split <;> exact ⟨rfl, rfl, rfl, rfl⟩
  obtain ⟨e₁, e₂, e₃, e₄⟩ := enq ((s.note (.peer (.detach f))).handleDetach f).1 ((s.note (.peer (.detach f))).handleDetach f).2
  rw [hd] at e₁ e₂ e₃ e₄
  refine (failDeliveries_fails (s.note (.peer (.detach f))) false l.handle (.linkDetached f.error)).congr
    rfl rfl rfl rfl ?_ ?_ ?_ ?_
  · rw [hd, e₁]; rfl
  · rw [hd, e₂]; rfl
  · rw [hd, e₃]; rfl
  · rw [hd, e₄]; rfl

theorem Fails.spelt {s s' : Session} {b : Bool} {h : UInt32} {e : PErr} (hf : Fails s s' b h e) (hs : Reachable s) :
    (∀ id d, (s.unsettled b).get id = some d → d.handle = h →
      (s'.unsettled b).get id = some { d with error := some e, tx := none }) ∧
    (∀ id d, (s.unsettled b).get id = some d → d.handle ≠ h → (s'.unsettled b).get id = some d) ∧
    (∀ id, (s.unsettled b).get id = none → (s'.unsettled b).get id = none) ∧
    s'.unsettled (!b) = s.unsettled (!b) ∧
    (∀ id d w x, (s.unsettled b).get id = some d → d.handle = h → d.tx = some w →
      s.waits[w]? = some ⟨x, .waiting none⟩ → s'.waits[w]? = some ⟨x, .waiting (some true)⟩) ∧
    (∀ w, (∀ id d, (s.unsettled b).get id = some d → d.tx = some w → d.handle ≠ h) → s'.waits[w]? = s.waits[w]?) := by
  refine ⟨fun id d hd hh => ?_, fun id d hd hh => ?_, fun id hd => ?_, hf.other, fun id d w x hd hh hw hx => ?_, fun w hw => ?_⟩
  · rw [hf.own, hd]; simp [failed, hh]
  · rw [hf.own, hd]; simp [failed, hh]
  · rw [hf.own, hd]; rfl
  · rw [hf.waits, if_pos, hx]
    · rfl
    · exact List.any_eq_true.mpr ⟨(id, d), Map.mem_of_get hd, by simp [hh, hw]⟩
  · rw [hf.waits, if_neg]
    intro ha
    obtain ⟨⟨id, d⟩, hm, hp⟩ := List.any_eq_true.mp ha
    simp only [Bool.and_eq_true, beq_iff_eq] at hp
    exact hw id d ((hs.waitInv.wf b).get_of_mem hm) hp.2 hp.1

/-- **C34** When the peer detaches a sender link, every record of a delivery of that link (they carry its handle) gets the
detach error and loses its channel, whose waiter is notified.  All other records, sent and received, stay as they are, and no
other waiter is notified.

Missing for the full property: deliveries are told apart by handle, which a later link may have inherited, see
`c34_inherits`; queued sends are matched by the wrong handle, see `c34_other_send` and `c26_detach_misses_window`. -/
theorem c34_sender_partial (s : Session) (hs : Reachable s) (f : Detach) (r : Ref) (l : Snd) (h : SenderDetached s f r l) :
    let s' := s.step (.peer (.detach f))
    (∀ id d, s.unsettledSnd.get id = some d → d.handle = UInt32.ofNat l.id →
      s'.unsettledSnd.get id = some { d with error := some (.linkDetached f.error), tx := none }) ∧
    (∀ id d, s.unsettledSnd.get id = some d → d.handle ≠ UInt32.ofNat l.id → s'.unsettledSnd.get id = some d) ∧
    (∀ id, s.unsettledSnd.get id = none → s'.unsettledSnd.get id = none) ∧
    s'.unsettledRcv = s.unsettledRcv ∧
    (∀ id d w x, s.unsettledSnd.get id = some d → d.handle = UInt32.ofNat l.id → d.tx = some w →
      s.waits[w]? = some ⟨x, .waiting none⟩ → s'.waits[w]? = some ⟨x, .waiting (some true)⟩) ∧
    (∀ w, (∀ id d, s.unsettledSnd.get id = some d → d.tx = some w → d.handle ≠ UInt32.ofNat l.id) →
      s'.waits[w]? = s.waits[w]?) :=
  h.fails.spelt hs

/-- **C34** The same for receiver links. -/
theorem c34_receiver (s : Session) (hs : Reachable s) (f : Detach) (r : Ref) (l : Rcv) (h : ReceiverDetached s f r l) :
    let s' := s.step (.peer (.detach f))
    (∀ id d, s.unsettledRcv.get id = some d → d.handle = l.handle →
      s'.unsettledRcv.get id = some { d with error := some (.linkDetached f.error), tx := none }) ∧
    (∀ id d, s.unsettledRcv.get id = some d → d.handle ≠ l.handle → s'.unsettledRcv.get id = some d) ∧
    (∀ id, s.unsettledRcv.get id = none → s'.unsettledRcv.get id = none) ∧
    s'.unsettledSnd = s.unsettledSnd ∧
    (∀ id d w x, s.unsettledRcv.get id = some d → d.handle = l.handle → d.tx = some w →
      s.waits[w]? = some ⟨x, .waiting none⟩ → s'.waits[w]? = some ⟨x, .waiting (some true)⟩) ∧
    (∀ w, (∀ id d, s.unsettledRcv.get id = some d → d.tx = some w → d.handle ≠ l.handle) →
      s'.waits[w]? = s.waits[w]?) :=
  h.fails.spelt hs

/-- **C34** … and the waiting application gets the error: polling its `wait` completes it. -/
theorem c34_wait_fails (s : Session) (hs : Reachable s) (f : Detach) (r : Ref) (l : Snd) (h : SenderDetached s f r l)
    (id : UInt32) (d : DlvInner) (w x : Ref) (hd : s.unsettledSnd.get id = some d) (hh : d.handle = UInt32.ofNat l.id)
    (hw : d.tx = some w) (hx : s.waits[w]? = some ⟨x, .waiting none⟩) :
    ((s.step (.peer (.detach f))).step (.resumeWait w)).waits[w]? =
      some ⟨x, .done (.error (.linkDetached f.error))⟩ := by
  obtain ⟨h₁, _, _, _, h₅, _⟩ := c34_sender_partial s hs f r l h
  have hr := h₁ id d hd hh
  have hq := h₅ id d w x hd hh hw hx
  obtain ⟨t, y, ht, hy, hb, hid⟩ := hs.waitInv.tx true id d w hd hw
  rw [hx] at ht
  cases ht
  have hst := (hs.quietTx true id d w hd hw).1
  have hy' : (s.step (.peer (.detach f))).dlv? x = some y := by
    have := h.fails.dlvs
    simp only [dlv?, this]
    exact hy
  generalize s.step (.peer (.detach f)) = s' at *
  show (s'.waitResume w).waits[w]? = _
  unfold waitResume
  rw [hq]
  dsimp only
  rw [if_neg (by simp), hy']
  dsimp only
  have hu : (s'.unsettled y.sender).get y.id = some { d with error := some (.linkDetached f.error), tx := none } := by
    rw [hb, hid]; exact hr
  rw [hu]
  simp only [checkInner, hst]
  simp only [finishWait, modWait, Option.map_some]
  rw [List.getElem?_modify]
  have hw' : ∀ (a : Session) m, a.waits = s'.waits →
      (a.setUnsettled y.sender m).waits[w]? = some ⟨x, .waiting (some true)⟩ := by
    intro a m ha
    rw [setUnsettled_waits, ha]; exact hq
  rw [hw' _ _ (by split <;> rfl)]
  simp

/-- A delivery sent on link 0 and awaited, then the link is detached. -/
def sentAndAwaited : List Step :=
  attachOne ++ flow (aFlow (some 7) (some 0) (some 5) (some 1) 5) ++ [.send (aSend 0 [1] false), .wait 0]

example : ∃ (s : Session) (l : Snd) (d : DlvInner), Reachable s ∧
    SenderDetached s { handle := 7, closed := true, error := none } 0 l ∧ s.unsettledSnd.get 1 = some d ∧
    d.handle = UInt32.ofNat l.id ∧ d.tx = some 0 ∧ s.waits[0]? = some ⟨0, .waiting none⟩ :=
  ⟨(start 5).run sentAndAwaited, _, _, reachable _ _ _, ⟨rfl, rfl, 0, rfl, rfl⟩, rfl, rfl, rfl, rfl⟩

example : ∃ (s : Session) (l : Rcv) (d : DlvInner), Reachable s ∧
    ReceiverDetached s { handle := 5, closed := true, error := none } 0 l ∧ s.unsettledRcv.get 0 = some d ∧
    d.handle = l.handle :=
  ⟨(start 0).run (attachRcv ++ transfers [aTransfer 5 (some 0) false [1]]), _, _, reachable _ _ _,
    ⟨rfl, rfl, 0, rfl, rfl⟩, rfl, rfl⟩

theorem wake_twice (x : SendTask) (m : Except PErr Unit) : SendTask.wake m (SendTask.wake m x) = SendTask.wake m x := by
  unfold SendTask.wake
  rcases x with ⟨req, st⟩
  rcases st with ⟨tag, _ | m'⟩ | ⟨tag, _ | m'⟩ | _ <;> rfl

theorem detachEstablishedSender_sends (s : Session) (r : Ref) (l : Snd) (f : Detach) (hl : s.snd? r = some l) (t : Ref)
    (ht : t ∈ l.pending) : (s.detachEstablishedSender r l f).sends[t]? =
      s.sends[t]?.map (SendTask.wake (.error (.linkDetached f.error))) := by
  unfold detachEstablishedSender
  dsimp only
  rw [post_sends, sndRemoteDetached_get]
  have hp : (failDeliveries (failPending { s with linksByName := s.linksByName.erase l.name } l.remoteHandle
      (.linkDetached f.error)) true (UInt32.ofNat l.id) (.linkDetached f.error)).snd? r = some l := by
    rw [← hl]
    simp [failPending, snd?]
  rw [hp]
  simp only [Option.map_some, Option.getD_some, if_pos ht, failDeliveries_sends, failPending]
  rw [wakeAll_get]
  split
  · rw [Option.map_map]
    congr 1
    funext x
    exact wake_twice x _
  · rfl

/-- **C34** The sends queued for credit on the link fail: they are woken with the detach error. -/
theorem c34_queued_fail (s : Session) (f : Detach) (r : Ref) (l : Snd) (h : SenderDetached s f r l) (t : Ref)
    (ht : t ∈ l.pending) :
    (s.step (.peer (.detach f))).sends[t]? = s.sends[t]?.map (SendTask.wake (.error (.linkDetached f.error))) := by
  obtain ⟨he, hl, k, hk, hx⟩ := h
  have hd : ((s.note (.peer (.detach f))).handleDetach f).1 =
      (((s.note (.peer (.detach f))).detachEstablishedSender r l f).forget k f.handle).modSnd r
        (fun l => { l with closed := true }) := by
    unfold handleDetach
    rw [show (s.note (.peer (.detach f))).remoteHandles.get f.handle = some k from hk]
    dsimp only
    rw [show (s.note (.peer (.detach f))).links.get k = some (.snd (.established r)) from hx]
    dsimp only
    rw [show (s.note (.peer (.detach f))).snd? r = some l from hl]
  rw [peer_detach_eq he]
  have enq : ∀ (a : Session) (act : Action), (a.enqueue act).sends = a.sends := by
    intro a act; unfold enqueue; split <;> rfl
  rw [enq, hd]
  exact detachEstablishedSender_sends (s.note (.peer (.detach f))) r l f hl t ht

example : ∃ (s : Session) (l : Snd), Reachable s ∧
    SenderDetached s { handle := 7, closed := true, error := none } 0 l ∧ 0 ∈ l.pending :=
  ⟨(start 5).run (attachOne ++ [.send (aSend 0 [1] false)]), _, reachable _ _ _, ⟨rfl, rfl, 0, rfl, rfl⟩, by decide⟩

/-- **C34** Violated: detaching one link fails a send queued on another.  The queue for the window holds our handles but is
searched for the peer's.  Link 0 is attached under the peer's handle 7, link 1 under its handle 0; the peer detaches its
handle 0, and the send waiting on link 0 fails. -/
theorem c34_other_send : ∃ s : Session, Reachable s ∧ (s.snd? 0).map (fun l => (l.id, l.remoteHandle)) = some (0, 7) ∧
    (s.snd? 1).map (fun l => (l.id, l.remoteHandle)) = some (1, 0) ∧
    s.sends.map (fun t => (t.req.link, t.st)) = [(0, .window [1] none)] ∧
    (s.step (aDetach 0)).links.get 0 = some (.snd (.established 0)) ∧
    ((s.step (aDetach 0)).step (.resumeSend 0)).sends.map (fun t => t.st) = [.done (.error (.linkDetached none))] :=
  ⟨(start 0).run (attachOne ++ [.attachSender (anAttach "b" 0 .sender), .peer (.attach (anAttach "b" 0 .receiver))] ++
    flow (aFlow (some 7) (some 0) (some 5) (some 1) 0) ++ [.send (aSend 0 [1] false)]), reachable _ _ _, rfl, rfl, rfl, rfl, rfl⟩

/-- **C34** Violated: a delivery of a link we closed is not failed by the peer's detach; whoever awaits it keeps waiting. -/
theorem c34_closed_waits : ∃ s : Session, Reachable s ∧ s.links.get 0 = some (.snd (.closing (some 1))) ∧
    (s.step (aDetach 7)).links.get 0 = none ∧ (s.step (aDetach 7)).waits = [⟨0, .waiting none⟩] ∧
    ((s.step (aDetach 7)).unsettledSnd.get 1).map (·.error) = some none :=
  ⟨(start 5).run (sentAndAwaited ++ [.closeSender 0 none]), reachable _ _ _, rfl, rfl, rfl, rfl⟩

/-- **C34** Violated: and the next link to get the slot inherits it.  When the peer detaches that link, which never sent
anything, the delivery of the earlier one fails. -/
theorem c34_inherits : ∃ s : Session, Reachable s ∧ s.links.get 0 = some (.snd (.established 1)) ∧
    s.sends.map (fun t => t.req.link) = [0] ∧ s.waits = [⟨0, .waiting none⟩] ∧
    ((s.step (aDetach 8)).step (.resumeWait 0)).waits = [⟨0, .done (.error (.linkDetached none))⟩] :=
  ⟨(start 5).run (sentAndAwaited ++ [.closeSender 0 none, aDetach 7, .attachSender (anAttach "b" 0 .sender),
    .peer (.attach (anAttach "b" 8 .receiver))]), reachable _ _ _, rfl, rfl, rfl, rfl⟩

end Amqp.Rt
