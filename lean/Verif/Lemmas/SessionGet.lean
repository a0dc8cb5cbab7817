import Verif.Lemmas.SessionMicro
import Verif.Spec.Session
/-!
# What the session functions do to the fields they touch
-/

namespace Amqp.Rt.Session

/-! ## Counters -/

@[simp] theorem emit_nextOutgoingId (s : Session) (t : Ref) (req : SendReq) (h : UInt32) (tag : Bytes) :
    (s.emit t req h tag).nextOutgoingId = s.nextOutgoingId + 1 := by
  unfold emit
  dsimp only
  split
  · simp
  · split <;> simp

@[simp] theorem emit_remoteIncomingWindow (s : Session) (t : Ref) (req : SendReq) (h : UInt32) (tag : Bytes) :
    (s.emit t req h tag).remoteIncomingWindow = s.remoteIncomingWindow - 1 := by
  unfold emit
  dsimp only
  split
  · simp
  · split <;> simp

/-! ## Sender links -/

theorem snd?_lt {s : Session} {r : Ref} {l : Snd} (h : s.snd? r = some l) : r < s.snds.length :=
  (List.getElem?_eq_some_iff.mp h).1

theorem snd?_congr {s s' : Session} (h : s'.snds = s.snds) (r : Ref) : s'.snd? r = s.snd? r := by
  simp only [snd?, h]

@[simp] theorem modSnd_length (s : Session) (r : Ref) (f : Snd → Snd) : (s.modSnd r f).snds.length = s.snds.length := by
  simp [modSnd]

theorem modSnd_snd? (s : Session) (r r' : Ref) (f : Snd → Snd) :
    (s.modSnd r f).snd? r' = if r = r' then (s.snd? r').map f else s.snd? r' := by
  simp only [modSnd, snd?, List.getElem?_modify]
  split <;> rename_i h
  · simp
  · cases h' : s.snds[r']? <;> simp

theorem takeCredit_snd? (s : Session) (t r r' : Ref) :
    (s.takeCredit t r).snd? r' = if r = r' then (s.snd? r').map fun l =>
      { l with linkCredit := l.linkCredit - 1, deliveryCount := l.deliveryCount + 1 } else s.snd? r' :=
  modSnd_snd? _ _ _ _

@[simp] theorem takeCredit_length (s : Session) (t r : Ref) : (s.takeCredit t r).snds.length = s.snds.length := by
  simp [takeCredit, modSnd]

theorem sndRemoteDetached_snd? (s : Session) (r : Ref) (e : PErr) (r' : Ref) :
    (s.sndRemoteDetached r e).snd? r' = if r = r' then (s.snd? r').map fun l =>
      { l with pending := [], closed := true, error := some e } else s.snd? r' := by
  unfold sndRemoteDetached
  split
  · rw [modSnd_snd?, snd?_congr (wakeAll_snds _ _ _)]
  · next h =>
    split
    · next h' => rw [← h', h]; rfl
    · rfl

@[simp] theorem sndRemoteDetached_length (s : Session) (r : Ref) (e : PErr) :
    (s.sndRemoteDetached r e).snds.length = s.snds.length := by
  unfold sndRemoteDetached; split <;> simp

/-- The link after a flow frame (sndlink.rs:292-324). -/
def _root_.Amqp.Rt.Snd.flow (l : Snd) (f : Flow) : Snd :=
  match f.linkCredit with
  | some credit => { l with linkCredit := (f.deliveryCount.getD 0) + credit - l.deliveryCount, pending := [] }
  | none => l

theorem applyFlow_snd? (s : Session) (r : Ref) (f : Flow) (r' : Ref) :
    (s.applyFlow r f).snd? r' = if r = r' then (s.snd? r').map (·.flow f) else s.snd? r' := by
  unfold applyFlow Snd.flow
  dsimp only
  split
  · next c hc =>
    simp only [hc]
    split
    · next l h =>
      rw [modSnd_snd?, snd?_congr (wakeAll_snds _ _ _)]
      rfl
    · next h =>
      split
      · next h' => subst h'; have : s.snd? r = none := h; rw [this]; exact h
      · rfl
  · next hc =>
    simp only [hc]
    split
    · simp [snd?]
    · rfl

@[simp] theorem applyFlow_length (s : Session) (r : Ref) (f : Flow) :
    (s.applyFlow r f).snds.length = s.snds.length := by
  unfold applyFlow
  dsimp only
  split
  · split <;> simp
  · simp

/-! ## Blocked sends -/

@[simp] theorem modSend_length (s : Session) (t : Ref) (f : SendTask → SendTask) :
    (s.modSend t f).sends.length = s.sends.length := by
  simp [modSend]

theorem modSend_get (s : Session) (t t' : Ref) (f : SendTask → SendTask) :
    (s.modSend t f).sends[t']? = if t = t' then s.sends[t']?.map f else s.sends[t']? := by
  simp only [modSend, List.getElem?_modify]
  split <;> rename_i h
  · simp
  · cases h' : s.sends[t']? <;> simp

theorem SendTask.wake_wake (m m') (x : SendTask) : SendTask.wake m' (SendTask.wake m x) = SendTask.wake m x := by
  rcases x with ⟨req, st⟩
  cases st with
  | credit tag mail => cases mail <;> rfl
  | window tag mail => cases mail <;> rfl
  | done _ => rfl
  | cancelled => rfl

theorem wakeAll_get (s : Session) (ts : List Ref) (m : Except PErr Unit) (t : Ref) :
    (s.wakeAll ts m).sends[t]? = if t ∈ ts then s.sends[t]?.map (SendTask.wake m) else s.sends[t]? := by
  unfold wakeAll
  induction ts generalizing s with
  | nil => simp
  | cons a ts ih =>
    have hg := modSend_get s a t (SendTask.wake m)
    rw [List.foldl_cons, ih]
    show (if t ∈ ts then Option.map (SendTask.wake m) (s.modSend a (SendTask.wake m)).sends[t]?
      else (s.modSend a (SendTask.wake m)).sends[t]?) = _
    rw [hg]
    by_cases h : a = t
    · subst h
      rcases s.sends[a]? with _ | x
      · simp
      · simp [SendTask.wake_wake]
    · have : (t = a) = False := by simp [Ne.symm h]
      simp [h, this]

@[simp] theorem wakeAll_length (s : Session) (ts : List Ref) (m : Except PErr Unit) :
    (s.wakeAll ts m).sends.length = s.sends.length :=
  foldl_field (fun s => s.sends.length) (f := fun s t => s.wake t m) (fun _ _ => by simp [wake]) ts s

theorem finishSend_get (s : Session) (t t' : Ref) (r) :
    (s.finishSend t r).sends[t']? = if t = t' then s.sends[t']?.map fun x => { x with st := .done r } else s.sends[t']? :=
  modSend_get _ _ _ _

theorem emit_get (s : Session) (t t' : Ref) (req : SendReq) (h : UInt32) (tag : Bytes) :
    (s.emit t req h tag).sends[t']? =
      if t = t' then s.sends[t']?.map fun x => { x with st := .done (.ok s.dlvs.length) } else s.sends[t']? := by
  unfold emit
  dsimp only
  split
  · simp [finishSend_get]
  · split <;> simp [finishSend_get]

theorem sendCancel_get (s : Session) (t t' : Ref) :
    (s.sendCancel t).sends[t']? = if t = t' then s.sends[t']?.map fun x => (match x.st with
      | .done _ => x
      | _ => { x with st := .cancelled }) else s.sends[t']? :=
  modSend_get _ _ _ _

theorem sndRemoteDetached_get (s : Session) (r : Ref) (e : PErr) (t : Ref) :
    (s.sndRemoteDetached r e).sends[t]? =
      if t ∈ ((s.snd? r).map Snd.pending).getD [] then s.sends[t]?.map (SendTask.wake (.error e)) else s.sends[t]? := by
  unfold sndRemoteDetached
  split
  · next l hl => rw [modSnd_sends, wakeAll_get, hl]; rfl
  · next h => simp [h]

theorem applyFlow_get (s : Session) (r : Ref) (f : Flow) (t : Ref) :
    (s.applyFlow r f).sends[t]? =
      if f.linkCredit.isSome ∧ t ∈ ((s.snd? r).map Snd.pending).getD [] then s.sends[t]?.map (SendTask.wake (.ok ()))
      else s.sends[t]? := by
  unfold applyFlow
  dsimp only
  split
  · next c hc =>
    split
    · next l hl =>
      have hl' : s.snd? r = some l := hl
      rw [modSnd_sends, wakeAll_get, hl']; simp [hc]
    · next h =>
      have h' : s.snd? r = none := h
      simp [h']
  · next hc => simp [hc]

end Amqp.Rt.Session
