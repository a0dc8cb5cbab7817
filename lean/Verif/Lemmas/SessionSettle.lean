import Verif.Lemmas.SessionWaitOk
/-!
# Dispositions from the peer
-/

namespace Amqp.Rt
namespace Session

theorem dispose_dispose (disp : Disposition) (d : DlvInner) : (d.dispose disp).dispose disp = d.dispose disp := by
  unfold DlvInner.dispose
  cases d.settled <;> cases disp.settled <;> cases h : disp.state <;> simp

theorem foldl_dispose_unsettled (sender b : Bool) (disp : Disposition) (ids : List UInt32) (s : Session) (no : UInt32) :
    ((ids.foldl (disposeOne sender disp) s).unsettled b).get no =
      if sender = b ∧ no ∈ ids then ((s.unsettled b).get no).map (·.dispose disp) else (s.unsettled b).get no := by
  induction ids generalizing s with
  | nil => simp
  | cons k ids ih =>
    rw [List.foldl_cons, ih, disposeOne_unsettled]
    by_cases hb : sender = b
    · by_cases hk : k = no
      · subst hk
        by_cases hm : k ∈ ids
        · simp only [hb, hm, List.mem_cons, true_and, if_true, or_true, Option.map_map]
          congr 1
          funext d
          exact dispose_dispose disp d
        · simp [hb, hm]
      · have : (no ∈ k :: ids) ↔ no ∈ ids := by simp [Ne.symm hk]
        simp [hb, hk, this, show ¬ no = k from fun h => hk h.symm]
    · simp [hb]

theorem foldl_dispose_waits (sender : Bool) (disp : Disposition) (ids : List UInt32) (s : Session) (w : Ref) :
    (ids.foldl (disposeOne sender disp) s).waits[w]? =
      if ids.any (fun no => ((s.unsettled sender).get no).bind DlvInner.tx == some w) then
        s.waits[w]?.map (WaitTask.wake true) else s.waits[w]? := by
  induction ids generalizing s with
  | nil => simp
  | cons k ids ih =>
    rw [List.foldl_cons, ih, disposeOne_waits, List.any_cons]
    by_cases hk : ((s.unsettled sender).get k).bind DlvInner.tx = some w
    · rw [if_pos hk]
      simp only [hk, BEq.rfl, Bool.true_or, if_true]
      split
      · rcases s.waits[w]? with _ | x
        · rfl
        · simp [WaitTask.wake_wake]
      · rfl
    · rw [if_neg hk]
      have h₁ : (((s.unsettled sender).get k).bind DlvInner.tx == some w) = false := by simpa using hk
      rw [h₁, Bool.false_or]
      have : (fun no => (((disposeOne sender disp s k).unsettled sender).get no).bind DlvInner.tx == some w) =
          fun no => (((s.unsettled sender).get no).bind DlvInner.tx == some w) := by
        funext no
        rw [disposeOne_unsettled]
        split
        · next h =>
          obtain ⟨_, rfl⟩ := h
          rw [h₁]
          rcases (s.unsettled sender).get k with _ | d
          · rfl
          · rfl
        · rfl
      rw [this]

theorem setUnsettled_frame (s : Session) (b m) : ∃ y z, s.setUnsettled b m = { s with unsettledSnd := y, unsettledRcv := z } := by
  cases b
  · exact ⟨_, _, rfl⟩
  · exact ⟨_, _, rfl⟩

theorem disposeOne_frame (sender : Bool) (disp : Disposition) (s : Session) (no : UInt32) :
    ∃ x y z, disposeOne sender disp s no = { s with waits := x, unsettledSnd := y, unsettledRcv := z } := by
  unfold disposeOne
  split
  · next d _ =>
    obtain ⟨y, z, h⟩ := setUnsettled_frame s sender ((s.unsettled sender).insert no (d.dispose disp))
    rw [h]
    rcases d.tx with _ | w
    · exact ⟨_, _, _, rfl⟩
    · exact ⟨_, _, _, rfl⟩
  · exact ⟨_, _, _, rfl⟩

theorem foldl_dispose_frame (sender : Bool) (disp : Disposition) (ids : List UInt32) (s : Session) :
    ∃ x y z, ids.foldl (disposeOne sender disp) s = { s with waits := x, unsettledSnd := y, unsettledRcv := z } := by
  induction ids generalizing s with
  | nil => exact ⟨_, _, _, rfl⟩
  | cons k ids ih =>
    rw [List.foldl_cons]
    obtain ⟨x, y, z, h⟩ := disposeOne_frame sender disp s k
    obtain ⟨x', y', z', h'⟩ := ih (disposeOne sender disp s k)
    rw [h', h]
    exact ⟨_, _, _, rfl⟩

/-- The ids the code goes through. -/
def dispIds (disp : Disposition) : List UInt32 :=
  match disp.last with
  | some last => idRange disp.first last
  | none => [disp.first]

theorem settleDeliveries_eq (s : Session) (disp : Disposition) :
    s.settleDeliveries disp = (dispIds disp).foldl (disposeOne (disp.role = .receiver) disp) s := by
  unfold settleDeliveries dispIds
  cases disp.last <;> rfl

theorem mem_dispIds {disp : Disposition} (h : ∀ last, disp.last = some last → disp.first ≤ last) (no : UInt32) :
    no ∈ dispIds disp ↔ disp.Covers no := by
  unfold dispIds Disposition.Covers
  cases hl : disp.last with
  | none => simp
  | some last => exact mem_idRange.trans ⟨fun h => sub_le_sub h.1 h.2, fun h' => le_of_sub_le_sub (h last hl) h'⟩

theorem failLink_unsettledSnd (e : PErr) (s : Session) (l : Link) : (failLink e s l).unsettledSnd = s.unsettledSnd := by
  unfold failLink; split <;> simp

theorem clearLink_unsettledSnd (s : Session) (l : Link) : (clearLink s l).unsettledSnd = s.unsettledSnd := by
  unfold clearLink
  split
  · rfl
  · unfold dropLink; (repeat' split) <;> simp

theorem setError_unsettledSnd (s : Session) (e : PErr) : (s.setError e).unsettledSnd = .empty := by
  unfold setError clearLinks failLinks
  refine (foldl_field Session.unsettledSnd clearLink_unsettledSnd _ _).trans ?_
  refine (foldl_field Session.unsettledSnd (failLink_unsettledSnd e) _ _).trans ?_
  exact dropReceived_unsettledSnd _

end Session
end Amqp.Rt
