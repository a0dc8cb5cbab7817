import Verif.Lemmas.SessionFields
/-!
# What the session functions add to the log
-/

namespace Amqp.Rt.Session

@[simp] theorem note_log (s : Session) (e : Ev) : (s.note e).log = s.log ++ [e] := rfl
@[simp] theorem post_log (s : Session) (f : Frame) : (s.post f).log = s.log ++ [.frame f] := rfl
@[simp] theorem postAll_log (s : Session) (fs : List Frame) : (s.postAll fs).log = s.log ++ fs.map .frame := rfl
@[simp] theorem postDisp_log (s : Session) (r : Ref) (d : Dlv) (b : Bool) (st : DeliveryState) :
    (s.postDisp r d b st).log = s.log ++ [.disposed r b st, .frame (dispFrame d b st)] := by
  simp [postDisp]
@[simp] theorem takeCredit_log (s : Session) (t r : Ref) : (s.takeCredit t r).log = s.log ++ [.took t r] := rfl

@[simp] theorem applyFlow_log (s : Session) (r : Ref) (f : Flow) : (s.applyFlow r f).log = s.log ++ [.applied r f] := by
  unfold applyFlow; dsimp only; split
  · split <;> simp
  · simp

@[simp] theorem emit_log (s : Session) (t : Ref) (req : SendReq) (h : UInt32) (tag : Bytes) :
    (s.emit t req h tag).log = s.log ++ .begun t req.link s.nextOutgoingId ::
      (transferFrames s.maxFrameSize h s.nextOutgoingId tag req.body req.settled req.format).map .frame := by
  unfold emit
  dsimp only
  split
  · simp
  · split <;> simp

/-- The events `settle`, `update_state` and `Drop` add. -/
theorem settle_log (s : Session) (r : Ref) (st : DeliveryState) :
    (s.settle r st).log = s.log ∨ ∃ d, s.dlv? r = some d ∧
      (s.settle r st).log = s.log ++ [.disposed r true st, .frame (dispFrame d true st)] := by
  unfold settle; split
  · next d hd =>
    split
    · exact .inl rfl
    · split
      · exact .inl rfl
      · exact .inr ⟨d, hd, by simp⟩
  · exact .inl rfl

theorem updateState_log (s : Session) (r : Ref) (st : DeliveryState) :
    (s.updateState r st).log = s.log ∨ ∃ d, s.dlv? r = some d ∧
      (s.updateState r st).log = s.log ++ [.disposed r false st, .frame (dispFrame d false st)] := by
  unfold updateState; split
  · next d hd =>
    split
    · exact .inl rfl
    · exact .inr ⟨d, hd, by simp⟩
  · exact .inl rfl

theorem dropDelivery_log (s : Session) (r : Ref) :
    (s.dropDelivery r).log = s.log ∨ ∃ d, s.dlv? r = some d ∧
      (s.dropDelivery r).log = s.log ++ [.disposed r true dropRejection, .frame (dispFrame d true dropRejection)] := by
  unfold dropDelivery; split
  · next d hd =>
    dsimp only; split
    · split
      · exact .inr ⟨d, hd, by simp⟩
      · exact .inl (by simp)
    · exact .inl (by simp)
  · exact .inl rfl

end Amqp.Rt.Session
