import Verif.Lemmas.SessionSent
/-!
# Deliveries, their records and the futures waiting for them
-/

namespace Amqp.Rt
namespace Session

/-! ## What the functions do to waits and records -/

theorem modWait_get (s : Session) (w w' : Ref) (f : WaitTask → WaitTask) :
    (s.modWait w f).waits[w']? = if w = w' then s.waits[w']?.map f else s.waits[w']? := by
  simp only [modWait, List.getElem?_modify]
  split <;> rename_i h
  · simp
  · cases h' : s.waits[w']? <;> simp

theorem finishWait_get (s : Session) (w w' : Ref) (r) :
    (s.finishWait w r).waits[w']? = if w = w' then s.waits[w']?.map fun t => { t with st := .done r } else s.waits[w']? :=
  modWait_get _ _ _ _

theorem WaitTask.wake_wake (m m') (x : WaitTask) : WaitTask.wake m' (WaitTask.wake m x) = WaitTask.wake m x := by
  rcases x with ⟨req, st⟩
  cases st with
  | waiting mail => cases mail <;> rfl
  | done _ => rfl
  | cancelled => rfl

theorem notify_get (s : Session) (o : Option Ref) (m : Bool) (w : Ref) :
    (s.notify o m).waits[w]? = if o = some w then s.waits[w]?.map (WaitTask.wake m) else s.waits[w]? := by
  cases o with
  | none => simp [notify]
  | some w' => simp only [notify, modWait_get, Option.some.injEq]

/-- Notifying the waiters of the entries chosen by `p`. -/
theorem foldl_notify_get (p : UInt32 × DlvInner → Bool) (es : List (UInt32 × DlvInner)) (s : Session) (w : Ref) :
    (es.foldl (fun s d => if p d then s.notify d.2.tx true else s) s).waits[w]? =
      if es.any (fun e => p e && e.2.tx == some w) then s.waits[w]?.map (WaitTask.wake true) else s.waits[w]? := by
  induction es generalizing s with
  | nil => simp
  | cons e es ih =>
    rw [List.foldl_cons, ih, List.any_cons]
    by_cases hp : p e = true
    · rw [if_pos hp, notify_get]
      by_cases he : e.2.tx = some w
      · have hc : (p e && e.2.tx == some w) = true := by simp [hp, he]
        rw [if_pos he, hc, Bool.true_or]
        simp only [if_true]
        split
        · rcases s.waits[w]? with _ | x
          · rfl
          · simp [WaitTask.wake_wake]
        · rfl
      · have hc : (p e && e.2.tx == some w) = false := by simp [he]
        rw [if_neg he, hc, Bool.false_or]
    · have hc : (p e && e.2.tx == some w) = false := by simp [hp]
      rw [if_neg hp, hc, Bool.false_or]

theorem dropSent_waits (s : Session) (w : Ref) :
    s.dropSent.waits[w]? = if s.unsettledSnd.entries.any (fun e => e.2.tx == some w) then s.waits[w]?.map (WaitTask.wake true)
      else s.waits[w]? := by
  have := foldl_notify_get (fun _ => true) s.unsettledSnd.entries s w
  exact this

theorem dropReceived_waits (s : Session) (w : Ref) :
    s.dropReceived.waits[w]? = if s.unsettledRcv.entries.any (fun e => e.2.tx == some w) then s.waits[w]?.map (WaitTask.wake true)
      else s.waits[w]? := by
  have := foldl_notify_get (fun _ => true) s.unsettledRcv.entries s w
  exact this

theorem failDeliveries_waits (s : Session) (b : Bool) (h : UInt32) (e : PErr) (w : Ref) :
    (s.failDeliveries b h e).waits[w]? =
      if (s.unsettled b).entries.any (fun e => e.2.handle == h && e.2.tx == some w) then s.waits[w]?.map (WaitTask.wake true)
      else s.waits[w]? := by
  have := foldl_notify_get (fun d => d.2.handle == h) (s.unsettled b).entries s w
  unfold failDeliveries
  simpa using this

theorem unsettled_setUnsettled (s : Session) (b b' : Bool) (m) :
    (s.setUnsettled b m).unsettled b' = if b = b' then m else s.unsettled b' := by
  cases b <;> cases b' <;> rfl

theorem unsettled_congr {s s' : Session} (h₁ : s'.unsettledSnd = s.unsettledSnd) (h₂ : s'.unsettledRcv = s.unsettledRcv)
    (b : Bool) : s'.unsettled b = s.unsettled b := by
  cases b <;> simp [unsettled, h₁, h₂]

@[simp] theorem notify_unsettled (s : Session) (o m b) : (s.notify o m).unsettled b = s.unsettled b :=
  unsettled_congr (by simp) (by simp) b
@[simp] theorem note_unsettled (s : Session) (e b) : (s.note e).unsettled b = s.unsettled b := rfl
@[simp] theorem post_unsettled (s : Session) (e b) : (s.post e).unsettled b = s.unsettled b := rfl
@[simp] theorem postDisp_unsettled (s : Session) (r d b' st b) : (s.postDisp r d b' st).unsettled b = s.unsettled b := rfl
@[simp] theorem modDlv_unsettled (s : Session) (r f b) : (s.modDlv r f).unsettled b = s.unsettled b := rfl
@[simp] theorem modWait_unsettled (s : Session) (r f b) : (s.modWait r f).unsettled b = s.unsettled b := rfl
@[simp] theorem finishWait_unsettled (s : Session) (r f b) : (s.finishWait r f).unsettled b = s.unsettled b := rfl

theorem dropSent_unsettled (s : Session) (b : Bool) :
    s.dropSent.unsettled b = if b then .empty else s.unsettled b := by
  cases b
  · simp [unsettled]
  · rfl

theorem dropReceived_unsettled (s : Session) (b : Bool) :
    s.dropReceived.unsettled b = if b then s.unsettled b else .empty := by
  cases b
  · rfl
  · simp [unsettled]

theorem failDeliveries_unsettled (s : Session) (b b' : Bool) (h : UInt32) (e : PErr) :
    (s.failDeliveries b h e).unsettled b' =
      if b = b' then (s.unsettled b).mapVals fun _ d => if d.handle = h then { d with error := some e, tx := none } else d
      else s.unsettled b' := by
  unfold failDeliveries
  rw [unsettled_setUnsettled]
  split
  · rfl
  · have h₁ := foldl_field Session.unsettledSnd
      (f := fun s (d : UInt32 × DlvInner) => if d.2.handle = h then s.notify d.2.tx true else s)
      (fun _ _ => by split <;> simp) (s.unsettled b).entries s
    have h₂ := foldl_field Session.unsettledRcv
      (f := fun s (d : UInt32 × DlvInner) => if d.2.handle = h then s.notify d.2.tx true else s)
      (fun _ _ => by split <;> simp) (s.unsettled b).entries s
    exact unsettled_congr h₁ h₂ b'

theorem disposeOne_unsettled (sender b : Bool) (disp : Disposition) (s : Session) (no no' : UInt32) :
    ((disposeOne sender disp s no).unsettled b).get no' =
      if sender = b ∧ no = no' then ((s.unsettled b).get no').map (·.dispose disp) else (s.unsettled b).get no' := by
  unfold disposeOne
  split
  · next d hd =>
    rw [notify_unsettled, unsettled_setUnsettled]
    by_cases hb : sender = b
    · subst hb
      simp only [if_true, true_and, Map.get_insert]
      split
      · next h => subst h; rw [hd]; rfl
      · rfl
    · simp [hb]
  · next hd =>
    split
    · next h => obtain ⟨rfl, rfl⟩ := h; rw [hd]; rfl
    · rfl

theorem disposeOne_waits (sender : Bool) (disp : Disposition) (s : Session) (no : UInt32) (w : Ref) :
    (disposeOne sender disp s no).waits[w]? =
      if ((s.unsettled sender).get no).bind DlvInner.tx = some w then s.waits[w]?.map (WaitTask.wake true)
      else s.waits[w]? := by
  unfold disposeOne
  split
  · next d hd => rw [notify_get, hd]; simp
  · next hd => rw [hd]; simp

/-- A new delivery object, recorded unless it is settled (delivery.rs:40-65, session.rs:1229-1233). -/
def addDlv (s : Session) (x : Dlv) (h : UInt32) : Session :=
  let s' := if x.localSettled then s else
    (s.setUnsettled x.sender ((s.unsettled x.sender).insert x.id (DlvInner.new h))).notify
      (((s.unsettled x.sender).get x.id).bind DlvInner.tx) true
  { s' with dlvs := s.dlvs ++ [x] }

theorem addDlv_unsettled (s : Session) (x : Dlv) (h : UInt32) (b : Bool) :
    (s.addDlv x h).unsettled b = if x.localSettled = false ∧ x.sender = b
      then (s.unsettled b).insert x.id (DlvInner.new h) else s.unsettled b := by
  have : (s.addDlv x h).unsettled b = (if x.localSettled then s else
    (s.setUnsettled x.sender ((s.unsettled x.sender).insert x.id (DlvInner.new h))).notify
      (((s.unsettled x.sender).get x.id).bind DlvInner.tx) true).unsettled b := rfl
  rw [this]
  cases x.localSettled
  · rw [if_neg (by simp), notify_unsettled, unsettled_setUnsettled]
    by_cases hb : x.sender = b
    · subst hb; simp
    · simp [hb]
  · simp

theorem addDlv_waits (s : Session) (x : Dlv) (h : UInt32) (w : Ref) :
    (s.addDlv x h).waits[w]? = if x.localSettled = false ∧ ((s.unsettled x.sender).get x.id).bind DlvInner.tx = some w
      then s.waits[w]?.map (WaitTask.wake true) else s.waits[w]? := by
  have : (s.addDlv x h).waits = (if x.localSettled then s else
    (s.setUnsettled x.sender ((s.unsettled x.sender).insert x.id (DlvInner.new h))).notify
      (((s.unsettled x.sender).get x.id).bind DlvInner.tx) true).waits := rfl
  rw [this]
  cases x.localSettled
  · rw [if_neg (by simp), notify_get]; simp
  · simp

@[simp] theorem addDlv_dlvs (s : Session) (x : Dlv) (h : UInt32) : (s.addDlv x h).dlvs = s.dlvs ++ [x] := rfl

/-- The delivery-related state of two sessions agrees. -/
structure SameDlv (s s' : Session) : Prop where
  dlvs : s'.dlvs = s.dlvs
  uns : ∀ b, s'.unsettled b = s.unsettled b
  waits : s'.waits = s.waits

theorem SameDlv.of {s s' : Session} (h₁ : s'.dlvs = s.dlvs) (h₂ : s'.unsettledSnd = s.unsettledSnd)
    (h₃ : s'.unsettledRcv = s.unsettledRcv) (h₄ : s'.waits = s.waits) : SameDlv s s' :=
  ⟨h₁, unsettled_congr h₂ h₃, h₄⟩

/-- A delivery object as it is made. -/
def newDlv (sender : Bool) (id : UInt32) (tag : Bytes) (settled : Bool) : Dlv :=
  { id, tag, sender, localSettled := settled, remoteSettled := false, dropped := false }

theorem emit_same (s : Session) (t : Ref) (req : SendReq) (h : UInt32) (tag : Bytes) :
    SameDlv (s.addDlv (newDlv true s.nextOutgoingId tag req.settled) h) (s.emit t req h tag) := by
  unfold emit addDlv newDlv
  dsimp only
  cases req.settled
  · simp only [Bool.false_eq_true, if_false]
    show SameDlv _ _
    cases hg : s.unsettledSnd.get s.nextOutgoingId with
    | none =>
      simp only [note, hg, unsettled, if_true, Option.bind_none]
      exact .of rfl rfl rfl rfl
    | some old =>
      simp only [note, hg, unsettled, if_true, Option.bind_some]
      cases old.tx <;> exact .of rfl rfl rfl rfl
  · exact .of rfl rfl rfl rfl

theorem startDelivery_same (s : Session) (r : Ref) (l : Rcv) (id : UInt32) (t : Transfer) :
    SameDlv (s.addDlv (newDlv false id (t.head.deliveryTag.getD []) (t.head.settled.getD false)) l.handle)
      (s.startDelivery r l id t) := by
  unfold startDelivery newRcv addDlv newDlv
  dsimp only
  cases t.head.settled.getD false
  · simp only [Bool.false_eq_true, if_false]
    show SameDlv _ _
    cases hg : s.unsettledRcv.get id with
    | none =>
      simp only [unsettled, Bool.false_eq_true, if_false, hg, Option.bind_none]
      exact .of rfl rfl rfl rfl
    | some old =>
      simp only [unsettled, Bool.false_eq_true, if_false, hg, Option.bind_some]
      cases old.tx <;> exact .of rfl rfl rfl rfl
  · exact .of rfl rfl rfl rfl

end Session

open Session

/-! ## What a small change does to deliveries -/

/-- Events that concern dispositions sent. -/
def Ev.Disposing : Ev → Prop
  | .frame (.disposition _) | .disposed .. => True
  | _ => False

theorem Ev.Inert.not_disposing {e : Ev} (h : e.Inert) : ¬ e.Disposing := by
  cases e <;> first
    | exact fun h => h
    | exact h.elim
    | (next f => cases f <;> first | exact fun h => h | exact h.elim)

theorem begun_quiet {evs : List Ev} (h : ∀ e ∈ evs, ¬ e.Sending) : begun evs = 0 := by
  rw [begun_eq_starts, starts_quiet h]; rfl

theorem begun_frames (fs : List Frame) : begun (fs.map Ev.frame) = 0 := by
  rw [begun_eq_starts, starts_frames]; rfl

inductive DlvView (A : Ref → Prop) (s s' : Session) : Prop
  | quiet (evs) (hl : s'.log = s.log ++ evs) (he : ∀ e ∈ evs, ¬ e.Disposing) (hb : begun evs = 0) (hs : SameDlv s s')
      (hr : s'.error = s.error)
  | failed (hl : s'.log = s.log) (hs : SameDlv s s') (hr : s'.error.isSome)
  | sent (tag) (settled) (h : UInt32) (evs) (hl : s'.log = s.log ++ evs) (he : ∀ e ∈ evs, ¬ e.Disposing)
      (hb : begun evs = 1) (hm : ∃ t r, .begun t r s.nextOutgoingId ∈ evs)
      (hs : SameDlv (s.addDlv (newDlv true s.nextOutgoingId tag settled) h) s')
      (hr : s'.error = s.error)
  | received (id tag settled) (h : UInt32) (evs) (hl : s'.log = s.log ++ evs) (he : ∀ e ∈ evs, ¬ e.Disposing)
      (hb : begun evs = 0) (hs : SameDlv (s.addDlv (newDlv false id tag settled) h) s') (hr : s'.error = s.error)
      (hev : ∃ r t, evs = [.received r t] ∧ t.head.deliveryId = some id ∧ tag = t.head.deliveryTag.getD [])
  | settle (d st) {hA : A d} (hf : s.free d = true) (h : s' = s.settle d st)
  | update (d st) {hA : A d} (hf : s.free d = true) (h : s' = s.updateState d st)
  | drop (d) {hA : A d} (hf : s.free d = true) (h : s' = s.dropDelivery d)
  | wait (d) {hA : A d} (hf : s.held d = true) (h : s' = s.waitStart d)
  | resume (w) (h : s' = s.waitResume w)
  | cancel (w)
      (h : s' = s.modWait w fun t => { t with st := match t.st with | .done r => .done r | _ => .cancelled })
  | dispose (disp no) (hp : s.log.getLast? = some (.peer (.disposition disp)))
      (hn : (disp.last = none ∧ no = disp.first) ∨ ∃ last, disp.last = some last ∧ no ∈ idRange disp.first last)
      (h : s' = disposeOne (disp.role = .receiver) disp s no)
  | failDlvs (b h) (f : Detach) (hf : .peer (.detach f) ∈ s.log) (h : s' = s.failDeliveries b h (.linkDetached f.error))
  | clearSnd (he : s.error.isSome) (h : s' = s.dropSent)
  | clearRcv (he : s.error.isSome) (h : s' = s.dropReceived)

theorem Session.SameDlv.trans {a b c : Session} (h : SameDlv a b) (h' : SameDlv b c) : SameDlv a c :=
  ⟨h'.dlvs.trans h.dlvs, fun x => (h'.uns x).trans (h.uns x), h'.waits.trans h.waits⟩

theorem Session.SameDlv.addDlv {a b : Session} (h : SameDlv a b) (x i) : SameDlv (a.addDlv x i) (b.addDlv x i) := by
  refine ⟨by simp [h.dlvs], fun c => by simp [addDlv_unsettled, h.uns], List.ext_getElem? fun w => ?_⟩
  rw [addDlv_waits, addDlv_waits, h.uns, h.waits]

theorem MicroOn.dlv {A : Ref → Prop} {s s' : Session} (h : MicroOn A s s') : DlvView A s s' := by
  have hq : ∀ {e : Ev}, ¬ e.Sending → begun [e] = 0 := fun h => begun_quiet (by simpa using h)
  cases h
  case note e he => exact .quiet [e] rfl (by simpa using he.inert.not_disposing) (hq he.inert.not_sending) (.of rfl rfl rfl rfl) rfl
  case ended e => exact .failed rfl (.of rfl rfl rfl rfl) rfl
  case sendNow t req tag l ht hl h hp hw =>
    have h₁ : SameDlv s (s.takeCredit t req.link) := .of rfl rfl rfl rfl
    have h₂ := emit_same (s.takeCredit t req.link) t req (UInt32.ofNat l.id) tag
    rw [takeCredit_nextOutgoingId] at h₂
    refine .sent tag req.settled (UInt32.ofNat l.id)
      (.took t req.link :: .begun t req.link s.nextOutgoingId :: (transferFrames s.maxFrameSize (UInt32.ofNat l.id)
        s.nextOutgoingId tag req.body req.settled req.format).map .frame)
      (by rw [emit_log, takeCredit_log, List.append_assoc]; rfl) ?_ ?_ ?_ ((h₁.addDlv _ _).trans h₂)
      (by rw [emit_error, takeCredit_error])
    · intro e he
      simp only [List.mem_cons, List.mem_map] at he
      rcases he with rfl | rfl | ⟨f, hf, rfl⟩
      · exact _root_.id
      · exact _root_.id
      · obtain ⟨ts, h⟩ := transferFrames_transfers s.maxFrameSize (UInt32.ofNat l.id) s.nextOutgoingId tag req.body
          req.settled req.format
        rw [h] at hf
        obtain ⟨t, _, rfl⟩ := List.mem_map.mp hf
        exact _root_.id
    · have := begun_frames (transferFrames s.maxFrameSize (UInt32.ofNat l.id) s.nextOutgoingId tag req.body
          req.settled req.format)
      simp only [begun, List.countP_cons] at this ⊢
      rw [this]; rfl
    · exact ⟨t, req.link, by simp⟩
  case emitParked t req tag l ht hl hw =>
    refine .sent tag req.settled (UInt32.ofNat l.id) _ (by rw [emit_log]) ?_ ?_ ?_ (emit_same _ _ _ _ _) (by simp)
    · intro e he
      simp only [List.mem_cons, List.mem_map] at he
      rcases he with rfl | ⟨f, hf, rfl⟩
      · exact _root_.id
      · obtain ⟨ts, h⟩ := transferFrames_transfers s.maxFrameSize (UInt32.ofNat l.id) s.nextOutgoingId tag req.body
          req.settled req.format
        rw [h] at hf
        obtain ⟨t, _, rfl⟩ := List.mem_map.mp hf
        exact _root_.id
    · have := begun_frames (transferFrames s.maxFrameSize (UInt32.ofNat l.id) s.nextOutgoingId tag req.body
          req.settled req.format)
      simp only [begun, List.countP_cons] at this ⊢
      rw [this]; rfl
    · exact ⟨t, req.link, by simp⟩
  case recvFirst r t l id _ _ _ _ _ hid =>
    have h₁ : SameDlv s ((s.note (.received r t)).modRcv r fun l =>
      { l with partialBody := some (optEnc TransferBody.tenc t.body) }) := .of rfl rfl rfl rfl
    exact .received id _ _ l.handle [.received r t] (by simp) (by simp [Ev.Disposing]) rfl
      ((h₁.addDlv _ _).trans (startDelivery_same _ _ _ _ _)) (by simp) ⟨r, t, rfl, hid, rfl⟩
  case recvSingle r t l id _ _ _ _ _ hid =>
    have h₁ : SameDlv s ((s.note (.received r t)).modRcv r fun l =>
      { l with credit := l.credit - 1, deliveryCount := l.deliveryCount + 1 }) := .of rfl rfl rfl rfl
    exact .received id _ _ l.handle [.received r t] (by simp) (by simp [Ev.Disposing]) rfl
      ((h₁.addDlv _ _).trans (startDelivery_same _ _ _ _ _)) (by simp) ⟨r, t, rfl, hid, rfl⟩
  case settle d st h => exact .settle d st (hA := h.2) h.1 rfl
  case update d st h => exact .update d st (hA := h.2) h.1 rfl
  case dropDlv d h => exact .drop d (hA := h.2) h.1 rfl
  case wait d h => exact .wait d (hA := h.2) h.1 rfl
  case waitResume w => exact .resume w rfl
  case waitCancel w => exact .cancel w rfl
  case dispose f disp no hd hp hn => subst hd; exact .dispose disp no hp hn rfl
  case failDlvs b h f hf => exact .failDlvs b h f hf rfl
  case clearSndDlvs he => exact .clearSnd he rfl
  case clearRcvDlvs he => exact .clearRcv he rfl
  case flowSess => exact .quiet [_] rfl (by simp [Ev.Disposing]) rfl (.of rfl rfl rfl rfl) rfl
  case flowLink => exact .quiet [_] (by simp; rfl) (by simp [Ev.Disposing]) rfl (.of (by simp) (by simp) (by simp) (by simp)) (by simp)
  case parkWindow => exact .quiet [_] (by simp; rfl) (by simp [Ev.Disposing]) rfl (.of rfl rfl rfl rfl) rfl
  case grant => exact .quiet [_] rfl (by simp [Ev.Disposing]) rfl (.of rfl rfl rfl rfl) rfl
  case recvNoCredit => exact .quiet [_] rfl (by simp [Ev.Disposing]) rfl (.of rfl rfl rfl rfl) rfl
  case recvRefused => exact .quiet [_] rfl (by simp [Ev.Disposing]) rfl (.of rfl rfl rfl rfl) rfl
  case recvMerge => exact .quiet [_] rfl (by simp [Ev.Disposing]) rfl (.of rfl rfl rfl rfl) rfl
  case recvLast => exact .quiet [_] rfl (by simp [Ev.Disposing]) rfl (.of rfl rfl rfl rfl) rfl
  case recvLost => exact .quiet [_] rfl (by simp [Ev.Disposing]) rfl (.of rfl rfl rfl rfl) rfl
  case handed => exact .quiet [_] rfl (by simp [Ev.Disposing]) rfl (.of rfl rfl rfl rfl) rfl
  all_goals
    refine DlvView.quiet [] ?_ (by simp) rfl (.of ?_ ?_ ?_ ?_) ?_ <;> first | rfl | (simp; done)

end Amqp.Rt
