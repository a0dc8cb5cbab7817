import Verif.Spec.Wake
import Verif.Lemmas.SessionRoute
import Verif.Lemmas.SessionRelink
import Verif.Lemmas.SessionTodo
import Verif.Lemmas.SessionAccept
import Verif.Lemmas.ConnectionInv
import Verif.Lemmas.ConnectionStep
/-!
# What a step does to a link whose reader sleeps
-/

namespace Amqp.Rt
open Session
namespace Session

/-- What `poll_recv` looks at. -/
def view (s : Session) (r : Ref) : Option (Bool × List (Ref × Transfer) × Option Bytes) :=
  (s.rcv? r).map fun l => (l.closed, l.queue, l.partialBody)

theorem view_of_rcvs {a b : Session} (h : b.rcvs = a.rcvs) (r : Ref) : b.view r = a.view r := by
  unfold view; rw [rcv?_congr h]

theorem view_modRcv_other (s : Session) {r r' : Ref} (h : r' ≠ r) (f : Rcv → Rcv) : (s.modRcv r' f).view r = s.view r := by
  unfold view; rw [rcv?_modRcv, if_neg h]

theorem view_modRcv_same (s : Session) (r r' : Ref) {f : Rcv → Rcv}
    (h : ∀ l, (f l).closed = l.closed ∧ (f l).queue = l.queue ∧ (f l).partialBody = l.partialBody) :
    (s.modRcv r' f).view r = s.view r := by
  unfold view
  rw [rcv?_modRcv]
  split
  · rw [Option.map_map]
    congr 1
    funext l
    simp [h l]
  · rfl

/-- The slot is not that of the established link `r`. -/
def Off (s : Session) (k : Nat) (r : Ref) : Prop := s.links.get k ≠ some (.rcv (.established r))

theorem dropLink_view {s : Session} {r : Ref} {x : Link} (h : x ≠ .rcv (.established r)) : (s.dropLink x).view r = s.view r := by
  unfold dropLink
  split
  · rfl
  · next r' => exact view_modRcv_other _ (fun hr => h (by rw [hr])) _
  all_goals rfl

theorem setLink_view {s : Session} {r : Ref} {k : Nat} (h : s.Off k r) (x : Link) : (s.setLink k x).view r = s.view r := by
  unfold setLink
  split
  · next old ho => exact dropLink_view (s := { s with links := s.links.set k x }) fun hx => h (by rw [ho, hx])
  · rfl

theorem removeLink_view {s : Session} {r : Ref} {k : Nat} (h : s.Off k r) : (s.removeLink k).view r = s.view r := by
  unfold removeLink
  split
  · next old ho => exact dropLink_view (s := { s with links := s.links.remove k }) fun hx => h (by rw [ho, hx])
  · rfl

theorem detachReceiver_view {s : Session} {r : Ref} {id : UInt32} (h : s.Off id.toNat r) (c : Bool) (e : Option Error) :
    (s.detachReceiver id c e).view r = s.view r := by
  unfold detachReceiver
  dsimp only
  split
  · refine (removeLink_view ?_).trans ?_
    · intro hx; apply h; rw [← hx]; split <;> rfl
    · split <;> rfl
  · exact setLink_view (s := s.newOp) h _
  · exact removeLink_view (s := s.newOp.note _) h
  all_goals rfl

theorem closeReceiver_view {s : Session} {r r' : Ref} (hr : r' ≠ r)
    (h : ∀ l, s.rcv? r' = some l → s.Off l.handle.toNat r) (e : Option Error) : (s.closeReceiver r' e).view r = s.view r := by
  unfold closeReceiver
  split
  · next l hl =>
    dsimp only
    rw [view_modRcv_other _ hr]
    split
    · rfl
    · exact detachReceiver_view (h l hl) _ _
  · rfl

theorem still_off {a b : Session} {r r' : Ref} (hs : Still a b r') (h : ∀ l, a.rcv? r' = some l → a.Off l.handle.toNat r)
    (hl₀ : (a.rcv? r').isSome) : ∀ l, b.rcv? r' = some l → b.Off l.handle.toNat r := by
  intro l hl
  obtain ⟨l₀, h₀⟩ := Option.isSome_iff_exists.mp hl₀
  obtain ⟨l', hl', hh⟩ := hs.rcv l₀ h₀
  rw [hl] at hl'
  cases hl'
  unfold Off
  rw [hs.links, hh]
  exact h l₀ h₀

theorem charge_view (s : Session) (r r' : Ref) (t : Transfer) : (s.charge r' t).view r = s.view r := by
  unfold charge
  split
  · rfl
  · exact view_modRcv_same _ _ _ fun _ => ⟨rfl, rfl, rfl⟩

theorem countDelivery_view (s : Session) (r r' : Ref) (l : Rcv) : (s.countDelivery r' l).view r = s.view r := by
  unfold countDelivery
  rw [view_modRcv_same]
  · exact view_of_rcvs (checkAdd_rcvs _ _ _) r
  · exact fun _ => ⟨rfl, rfl, rfl⟩

theorem startDelivery_view_other (s : Session) {r r' : Ref} (h : r' ≠ r) (l : Rcv) (id : UInt32) (t : Transfer) :
    (s.startDelivery r' l id t).view r = s.view r := by
  unfold view; rw [rcv?_startDelivery, if_neg h]

/-- A transfer for another link. -/
theorem handleTransfer_view_other {s : Session} {r r' : Ref} {l : Rcv} (hr : r' ≠ r) (hl : s.rcv? r' = some l) (t : Transfer)
    (h : s.transferWakes l t = true → s.Off l.handle.toNat r) : (s.handleTransfer r' t).1.view r = s.view r := by
  have off : ∀ {b : Session}, Still s b r' → s.transferWakes l t = true → ∀ l, b.rcv? r' = some l → b.Off l.handle.toNat r :=
    fun hs hw => still_off hs (fun l' hl' => by rw [hl] at hl'; cases hl'; exact h hw) (by rw [hl]; rfl)
  have still : ∀ (a : Session) e, Still a (a.note e) r' := fun a e => .of_eq (by rfl) (by rfl) r'
  unfold handleTransfer
  rw [hl]
  dsimp only
  split
  · next hc => exact closeReceiver_view hr (off (still _ _) (by unfold transferWakes; rw [if_pos hc])) _
  · next hc =>
    split
    · next body hb =>
      have hs := Still.charge s r' t
      have hv := charge_view s r r' t
      have hbk : (s.charge r' t).backId l = s.backId l := by unfold backId charge; split <;> rfl
      generalize s.charge r' t = a at hs hv hbk ⊢
      unfold continueTransfer
      split
      · next h1 =>
        refine (closeReceiver_view hr (off (hs.trans (still _ _)) ?_) _).trans hv
        unfold transferWakes; rw [if_neg hc, hb]; dsimp only; rw [if_pos (by rw [← hbk]; exact h1)]
      · next h1 =>
        split
        · next h2 =>
          refine (closeReceiver_view hr (off (hs.trans (still _ _)) ?_) _).trans hv
          unfold transferWakes; rw [if_neg hc, hb]; dsimp only; rw [if_neg (by rw [← hbk]; exact h1), if_pos h2]
        · next h2 =>
          dsimp only
          split
          · exact (view_modRcv_other _ hr _).trans hv
          · next h3 =>
            split
            · rw [view_modRcv_other _ hr, view_modRcv_other _ hr, countDelivery_view, view_modRcv_other _ hr]
              exact hv
            · next h4 =>
              rw [closeReceiver_view hr, view_modRcv_other _ hr, countDelivery_view, view_modRcv_other _ hr]
              · exact hv
              · refine off ?_ ?_
                · exact ((((hs.trans (still _ _)).trans (.modRcv _ _ (f := fun l =>
                      { l with partialBody := some (body ++ optEnc TransferBody.tenc t.body) }) fun _ => rfl)).trans
                    (.countDelivery _ _ _)).trans (.modRcv _ _ (f := fun l => { l with partialBody := none }) fun _ => rfl))
                · unfold transferWakes; rw [if_neg hc, hb]; dsimp only
                  rw [if_neg (by rw [← hbk]; exact h1), if_neg h2, if_neg h3, if_neg h4]
    · next hb =>
      have hs := Still.charge s r' t
      have hv := charge_view s r r' t
      generalize s.charge r' t = a at hs hv ⊢
      unfold beginTransfer
      split
      · split
        · dsimp only
          rw [startDelivery_view_other _ hr, view_modRcv_other _ hr]; exact hv
        · dsimp only
          rw [startDelivery_view_other _ hr, countDelivery_view]; exact hv
      · next hn =>
        refine (closeReceiver_view hr (off (hs.trans (still _ _)) ?_) _).trans hv
        unfold transferWakes; rw [if_neg hc, hb]; dsimp only; rw [hn]

/-- The link is open and has nothing complete. -/
def Idle (s : Session) (r : Ref) : Prop :=
  ∃ q p, s.view r = some (false, q, p) ∧ (q = [] ∨ (p.isSome = true ∧ q.length = 1))

theorem Idle.of_view {a b : Session} {r : Ref} (h : b.view r = a.view r) (hi : a.Idle r) : b.Idle r := by
  unfold Idle; rw [h]; exact hi

theorem view_some {s : Session} {r : Ref} {l : Rcv} (h : s.rcv? r = some l) : s.view r = some (l.closed, l.queue, l.partialBody) := by
  unfold view; rw [h]; rfl

/-- A transfer for the link itself that wakes nobody. -/
theorem handleTransfer_idle {s : Session} {r : Ref} {l : Rcv} (hl : s.rcv? r = some l) (t : Transfer)
    (hw : s.transferWakes l t = false) (hi : s.Idle r) : (s.handleTransfer r t).1.Idle r := by
  obtain ⟨q, p, hv, hq⟩ := hi
  rw [view_some hl] at hv
  injection hv with hv
  injection hv with h₁ hv
  injection hv with h₂ h₃
  subst h₂ h₃
  unfold transferWakes at hw
  split at hw
  · cases hw
  · next hc =>
    unfold handleTransfer
    rw [hl]
    dsimp only
    rw [if_neg hc]
    have hcl : (s.charge r t).rcv? r = some { l with credit := if t.head.more then l.credit else l.credit - 1 } := by
      unfold charge
      split
      · rw [hl]
      · rw [rcv?_modRcv, if_pos rfl, hl]; rfl
    have hbk : (s.charge r t).backId l = s.backId l := by unfold backId charge; split <;> rfl
    generalize s.charge r t = a at hcl hbk ⊢
    generalize (if t.head.more then l.credit else l.credit - 1) = c at hcl
    cases hb : l.partialBody with
    | some body =>
      rw [hb] at hw hq
      dsimp only at hw ⊢
      unfold continueTransfer
      rw [hbk]
      split at hw
      · cases hw
      · next h1 =>
        rw [if_neg h1]
        split at hw
        · cases hw
        · next h2 =>
          rw [if_neg h2]
          dsimp only
          split at hw
          · next h3 =>
            rw [if_pos h3]
            refine ⟨l.queue, some (body ++ optEnc TransferBody.tenc t.body), ?_, ?_⟩
            · unfold view
              rw [rcv?_modRcv, if_pos rfl, show (a.note (.received r t)).rcv? r = a.rcv? r from rfl, hcl]
              show some (l.closed, _, _) = _
              rw [h₁]
            · rcases hq with hq | hq
              · exact .inl hq
              · exact .inr ⟨rfl, hq.2⟩
          · split at hw
            · next h4 =>
              exfalso
              rcases hq with hq | hq
              · exact h4 hq
              · simp [hq.2] at hw
            · cases hw
    | none =>
      rw [hb] at hw hq
      dsimp only at hw ⊢
      unfold beginTransfer
      have hq : l.queue = [] := by
        rcases hq with hq | hq
        · exact hq
        · simp at hq
      cases hid : t.head.deliveryId with
      | none => rw [hid] at hw; cases hw
      | some id =>
        rw [hid] at hw
        dsimp only at hw ⊢
        split at hw
        · next h3 =>
          rw [if_pos h3]
          refine ⟨[(a.dlvs.length, { t with body := none })], some (optEnc TransferBody.tenc t.body), ?_, .inr ⟨rfl, rfl⟩⟩
          unfold view
          dsimp only
          rw [rcv?_startDelivery, if_pos rfl, rcv?_modRcv, if_pos rfl,
            show (a.note (.received r t)).rcv? r = a.rcv? r from rfl, hcl]
          show some (l.closed, l.queue ++ _, _) = _
          rw [h₁, hq]
          rfl
        · rw [hq] at hw; simp at hw

theorem windowLoop_keeps (s : Session) (t req tag) : (s.windowLoop t req tag).rcvs = s.rcvs := by
  unfold windowLoop; (repeat' split) <;> simp

theorem creditLoop_keeps (s : Session) (t req tag) : (s.creditLoop t req tag).rcvs = s.rcvs := by
  unfold creditLoop; (repeat' split) <;> simp [windowLoop_keeps]

theorem sendStart_keeps (s : Session) (req) : (s.sendStart req).rcvs = s.rcvs := by
  unfold sendStart
  dsimp only
  (repeat' split) <;> (try rfl) <;> (unfold sendStart.go; split <;> simp [creditLoop_keeps])

theorem sendResume_keeps (s : Session) (t) : (s.sendResume t).rcvs = s.rcvs := by
  unfold sendResume; (repeat' split) <;> simp [creditLoop_keeps, windowLoop_keeps]

theorem settleDeliveries_keeps (s : Session) (d) : (s.settleDeliveries d).rcvs = s.rcvs := by
  unfold settleDeliveries
  dsimp only
  split
  · exact foldl_field Session.rcvs (fun s n => by simp) _ s
  · simp

theorem handleFlow_keeps (s : Session) (f : Flow) (l : Option Ref) : (s.handleFlow f l).rcvs = s.rcvs := by
  unfold handleFlow
  dsimp only
  (repeat' split) <;> simp

theorem endLocal_keeps (s : Session) : s.endLocal.rcvs = s.rcvs := by
  unfold endLocal; (repeat' split) <;> rfl

theorem detachSender_view {s : Session} {r : Ref} (id : UInt32) (c : Bool) (e : Option Error) :
    (s.detachSender id c e).view r = s.view r := by
  unfold detachSender
  dsimp only
  split
  · next h => exact setLink_view (s := s.newOp) (fun hx => by rw [h] at hx; cases hx) _
  · next h => exact setLink_view (s := s.newOp) (fun hx => by rw [h] at hx; cases hx) _
  · rfl

theorem closeSender_view {s : Session} {r : Ref} (r' : Ref) (e : Option Error) : (s.closeSender r' e).view r = s.view r := by
  unfold closeSender
  split
  · split
    · rfl
    · exact detachSender_view (s := s.modSnd _ _) _ _ _
  · rfl

theorem confirmReceiver_view (s : Session) (r r' : Ref) (a) : (s.confirmReceiver r' a).view r = s.view r :=
  view_of_rcvs (confirmReceiver_rcvs _ _ _) r

theorem setLinkCredit_view (s : Session) (r r' : Ref) (n : UInt32) : (s.setLinkCredit r' n).view r = s.view r := by
  unfold setLinkCredit
  split
  · next l hl =>
    refine (view_modRcv_same ((s.note (.granted r' n)).checkAdd l.credit n) r r'
      (f := fun l => { l with credit := l.credit + n }) fun _ => ⟨rfl, rfl, rfl⟩).trans ?_
    exact view_of_rcvs (checkAdd_rcvs _ _ _) r
  · rfl

theorem enqueue_view (s : Session) (a : Action) (r : Ref) : (s.enqueue a).view r = s.view r := view_of_rcvs (enqueue_rcvs _ _) r

theorem rcvRemoteDetached_view (s : Session) {r r' : Ref} (h : r' ≠ r) (e) : (s.rcvRemoteDetached r' e).view r = s.view r := by
  unfold rcvRemoteDetached
  (repeat' split) <;> exact view_modRcv_other _ h _

theorem failLink_view (e : PErr) (s : Session) {r : Ref} {x : Link} (h : x ≠ .rcv (.established r)) :
    (failLink e s x).view r = s.view r := by
  unfold failLink
  split
  · exact view_of_rcvs (by simp) r
  · rfl
  · next r' => exact rcvRemoteDetached_view _ (fun hr => h (by rw [hr])) _
  · rfl

theorem clearLink_view (s : Session) {r : Ref} {x : Link} (h : x ≠ .rcv (.established r)) : (clearLink s x).view r = s.view r := by
  unfold clearLink
  split
  · rfl
  · exact dropLink_view h

theorem foldl_view {f : Session → Link → Session} {r : Ref} (xs : List Link)
    (hf : ∀ s x, x ∈ xs → (f s x).view r = s.view r) (s : Session) : (xs.foldl f s).view r = s.view r := by
  induction xs generalizing s with
  | nil => rfl
  | cons x xs ih => rw [List.foldl_cons, ih fun s y hy => hf s y (.tail _ hy), hf s x (.head _)]

theorem setError_view {s : Session} {r : Ref} (h : r ∉ s.establishedReceivers) (e : PErr) : (s.setError e).view r = s.view r := by
  have hx : ∀ x ∈ s.links.values, x ≠ .rcv (.established r) := by
    rintro x hx rfl
    exact h (List.mem_filterMap.mpr ⟨_, hx, rfl⟩)
  unfold setError
  have hl : ((({ s with error := some e, ended := true } : Session).drainPending (.error e)).dropSent).dropReceived.links = s.links := by
    simp
  have hr : ((({ s with error := some e, ended := true } : Session).drainPending (.error e)).dropSent).dropReceived.rcvs = s.rcvs := by
    simp
  generalize ((({ s with error := some e, ended := true } : Session).drainPending (.error e)).dropSent).dropReceived = a at hl hr
  have h1 : (a.failLinks e).view r = s.view r := by
    unfold failLinks
    rw [hl, foldl_view _ fun s x hm => failLink_view e s (hx x hm)]
    exact view_of_rcvs hr r
  have h2 : (a.failLinks e).links = s.links := by
    unfold failLinks
    exact (foldl_field Session.links (fun s x => failLink_links _ _ _) _ _).trans hl
  generalize a.failLinks e = b at h1 h2
  unfold clearLinks
  rw [h2, foldl_view _ fun s x hm => clearLink_view s (hx x hm)]
  exact h1

theorem handleDetach_view {s : Session} {r : Ref} (f : Detach)
    (hw : (s.detachSlot f).bind s.links.get ≠ some (.rcv (.established r))) (hh : s.Handed r) :
    (s.handleDetach f).1.view r = s.view r := by
  unfold handleDetach
  dsimp only
  split
  · rfl
  · next idx hidx =>
    rw [show s.detachSlot f = some idx from hidx] at hw
    replace hw : s.links.get idx ≠ some (.rcv (.established r)) := hw
    split
    · rfl
    · split <;> rfl
    · split
      · exact view_of_rcvs (by simp [forget, detachEstablishedSender, failPending]) r
      · rfl
    · rfl
    · split <;> rfl
    · rfl
    · next item hk =>
      rcases item with _ | ⟨r', op⟩
      · rfl
      · exact view_modRcv_other _ (fun hr => hh.2 idx op (by rw [hk, hr])) _
    · next r' hk =>
      have hr : r' ≠ r := fun hr => hw (by rw [hk, hr])
      split
      · dsimp only
        rw [view_modRcv_other _ hr]
        show (s.detachEstablishedReceiver r' _ f).view r = s.view r
        unfold detachEstablishedReceiver
        dsimp only
        rw [rcvRemoteDetached_view _ hr]
        exact view_of_rcvs (by simp) r
      · rfl
    · split <;> rfl

theorem Idle.unchanged {s : Session} {r : Ref} (h : s.Idle r) : (s.pollRecv r).1 = s ∧ (s.getDelivery r).1 = s := by
  obtain ⟨q, p, hv, hq⟩ := h
  unfold view at hv
  obtain ⟨l, hl, hv⟩ := Option.map_eq_some_iff.mp hv
  injection hv with h₁ hv
  injection hv with h₂ h₃
  subst h₂ h₃
  unfold pollRecv getDelivery
  rw [hl]
  dsimp only
  rw [h₁]
  simp only [Bool.false_eq_true, if_false]
  rcases hq with hq | hq
  · rw [hq]
    simp
  · rw [if_pos hq]
    refine ⟨rfl, ?_⟩
    rw [if_neg]
    rw [hq.2]
    cases hp : l.partialBody
    · rw [hp] at hq; simp at hq
    · simp

theorem pollRecv_view_other (s : Session) {r r' : Ref} (h : r' ≠ r) : (s.pollRecv r').1.view r = s.view r := by
  unfold pollRecv
  dsimp only
  (repeat' split) <;> first | rfl | exact view_modRcv_other _ h _

theorem getDelivery_view_other (s : Session) {r r' : Ref} (h : r' ≠ r) : (s.getDelivery r').1.view r = s.view r := by
  unfold getDelivery
  (repeat' split) <;> first | rfl | exact view_modRcv_other _ h _

theorem view_grown {a b : Session} {r : Ref} {x : Rcv} (hb : b.rcvs = a.rcvs ++ [x]) (h : (a.rcv? r).isSome) :
    b.view r = a.view r := by
  unfold view rcv? at *
  rw [hb]
  rw [List.getElem?_append_left]
  exact (List.getElem?_eq_some_iff.mp (Option.isSome_iff_exists.mp h).choose_spec).1

theorem onAttach_view {s : Session} {r : Ref} (a : Attach) (h : (s.rcv? r).isSome) : (s.onAttach a).1.view r = s.view r := by
  have hh : (s.handleAttach a).1.view r = s.view r := by
    unfold handleAttach
    split
    · split
      · next tx hk => cases tx <;> rfl
      · rfl
      · rfl
    · rfl
  unfold onAttach
  split
  · next s' heq => rw [heq] at hh; exact hh
  · next s' heq =>
    rw [heq] at hh
    have : s' = s := by
      unfold handleAttach at heq
      split at heq
      · split at heq <;> cases heq
      · cases heq; rfl
    subst this
    split
    · rfl
    · exact view_grown (x := rcvNew (UInt32.ofNat s'.links.vacantKey) a.handle a) rfl h

/-- Nothing comes to a link behind the back of its reader. -/
theorem idle_step {s : Session} {r : Ref} (hs : s.Reachable) (hi : s.Idle r) (hh : s.Handed r) (st : Step)
    (hw : r ∉ s.wakes st) (ho : ¬ s.Orphans st r) : (s.step st).Idle r := by
  have same : ∀ {b : Session}, b.view r = s.view r → b.Idle r := fun h => hi.of_view h
  have woken : ∀ r' l, r' ∈ s.wakes st → s.rcv? r' = some l → s.Off l.handle.toNat r := by
    intro r' l h1 h2 h3
    exact ho ⟨_, h3, .inr (.inr ⟨r', l, fun hr => hw (hr ▸ h1), h1, h2, rfl⟩)⟩
  have close : ∀ r' e, r' ∈ s.wakes st → (s.closeReceiver r' e).Idle r := fun r' e h =>
    same (closeReceiver_view (fun hr => hw (by rw [← hr]; exact h)) (fun l hl => woken r' l h hl) e)
  cases st
  case peer f =>
    show (s.onPeer f).Idle r
    unfold onPeer
    cases f
    case attach a =>
      dsimp only
      split
      · exact hi
      · exact same ((enqueue_view _ _ _).trans (onAttach_view (s := s.note _) a hh.1))
    case end_ e =>
      dsimp only
      split
      · exact hi
      · next he =>
        refine same ((view_of_rcvs (by rfl) r).trans ((enqueue_view _ _ _).trans (setError_view (s := s.note _) ?_ _)))
        intro hm
        apply hw
        show r ∈ (if s.error.isSome then [] else s.establishedReceivers)
        rw [if_neg (show ¬ s.error.isSome = true from he)]
        exact hm
    all_goals
      have fin : ∀ x : Session × Except PErr Action, x.1.Idle r → (finishFrame x).Idle r := by
        rintro ⟨b, a | a⟩ hb
        · exact hb
        · exact hb.of_view (enqueue_view _ _ _)
      refine fin _ ?_
      unfold handleFrame
      dsimp only
      split
      · exact hi
      rename_i he
    case flow f =>
      split
      · exact hi
      · exact same (view_of_rcvs (handleFlow_keeps _ _ _) r)
    case disposition d => exact same (view_of_rcvs (settleDeliveries_keeps _ _) r)
    case transfer t =>
      split
      · exact hi
      · next idx hidx =>
        split
        · exact hi
        · exact hi
        · exact hi
        · exact hi
        · next r' hk =>
          obtain ⟨l, hl, _⟩ := hs.rcvSlots.handle idx _ r' hk rfl
          have hwk : s.wakes (.peer (.transfer t)) = if s.transferWakes l t then [r'] else [] := by
            unfold wakes
            dsimp only
            rw [if_neg (show ¬ s.error.isSome = true from he), show s.remoteHandles.get t.head.handle = some idx from hidx]
            dsimp only [Option.bind]
            rw [show s.links.get idx = some (.rcv (.established r')) from hk]
            dsimp only
            rw [hl]
          by_cases hr : r' = r
          · subst hr
            refine handleTransfer_idle (s := s.note _) hl t ?_ hi
            rw [hwk] at hw
            split at hw
            · simp at hw
            · next h => exact Bool.eq_false_iff.mpr h
          · refine same (handleTransfer_view_other (s := s.note _) hr hl t ?_)
            intro ht
            exact woken r' l (by rw [hwk, if_pos (by exact ht)]; exact .head _) hl
        · exact hi
    case detach f =>
      refine same (handleDetach_view (s := s.note _) f ?_ hh)
      intro hx
      apply hw
      unfold wakes
      dsimp only
      rw [if_neg (show ¬ s.error.isSome = true from he)]
      rw [show (s.detachSlot f).bind s.links.get = some (.rcv (.established r)) from hx]
      exact .head _
    all_goals exact hi
  case endConfirmed e =>
    show (if s.error.isSome then s else (s.remoteEnd e.error).1 : Session).Idle r
    split
    · exact hi
    · next he =>
      refine same (setError_view ?_ _)
      intro hm
      apply hw
      show r ∈ (if s.error.isSome then [] else s.establishedReceivers)
      rw [if_neg (show ¬ s.error.isSome = true from he)]
      exact hm
  case complete i edit e =>
    show (match s.todo[i]? with
      | some t => let s := s.onComplete edit e t; { s with todo := s.todo.eraseIdx i }
      | none => s : Session).Idle r
    cases ht : s.todo[i]? with
    | none => exact hi
    | some t =>
      show (s.onComplete edit e t).Idle r
      unfold onComplete
      split
      · cases e with
        | none => exact hi
        | some e => exact close _ _ (by unfold wakes; dsimp only; rw [ht]; exact .head _)
      · cases e with
        | some e => exact close _ _ (by unfold wakes; dsimp only; rw [ht]; exact .head _)
        | none => exact same ((setLinkCredit_view _ _ _ _).trans (confirmReceiver_view _ _ _ _))
      · next r' a g =>
        have off : ∀ l, s.snd? r' = some l → s.Off l.id r := fun l hl hk =>
          ho ⟨_, hk, .inr (.inl ⟨i, edit, e, r', a, g, l, rfl, ht, hl, rfl⟩)⟩
        cases e with
        | some e =>
          show (s.refuseSender a r' e).Idle r
          unfold refuseSender
          split
          · next l hl => exact same (removeLink_view (s := Session.post (Session.post s _) _) (off l hl))
          · exact hi
        | none =>
          show (s.confirmSender a (edit g) r').Idle r
          unfold confirmSender
          split
          · next l hl =>
            dsimp only
            split
            · exact same (setLink_view (s := s.registerSender a l.id) (off l hl) _)
            · exact hi
          · exact hi
      · cases e with
        | some e => exact same (closeSender_view _ _)
        | none => exact same (view_of_rcvs (handleFlow_keeps _ _ _) r)
      · cases e with
        | some e => exact same (closeSender_view _ _)
        | none => exact hi
      · cases e with
        | some e => exact close _ _ (by unfold wakes; dsimp only; rw [ht]; exact .head _)
        | none => exact hi
      · exact hi
  case attachSender a => exact hi
  case attachReceiver a =>
    exact same (view_grown (x := rcvNew (UInt32.ofNat s.links.vacantKey) (UInt32.ofNat s.links.vacantKey) a) rfl hh.1)
  case send req => exact same (view_of_rcvs (sendStart_keeps _ _) r)
  case resumeSend t => exact same (view_of_rcvs (sendResume_keeps _ _) r)
  case cancelSend t => exact hi
  case closeSender r' e => exact same (closeSender_view _ _)
  case detachSender h e => exact same (detachSender_view _ _ _)
  case closeReceiver r' e => exact close _ _ (.head _)
  case detachReceiver h e => exact same (detachReceiver_view (fun hk => ho ⟨_, hk, .inl ⟨h, e, rfl, rfl⟩⟩) _ _)
  case grant r' n => exact same (setLinkCredit_view _ _ _ _)
  case recv r' =>
    by_cases hr : r' = r
    · subst hr; exact same (by show (s.pollRecv r').1.view r' = _; rw [hi.unchanged.1])
    · exact same (pollRecv_view_other s hr)
  case take r' =>
    by_cases hr : r' = r
    · subst hr; exact same (by show (s.getDelivery r').1.view r' = _; rw [hi.unchanged.2])
    · exact same (getDelivery_view_other s hr)
  case limitSender r' n => exact hi
  case limitReceiver r' n => exact same (view_modRcv_same _ _ _ fun _ => ⟨rfl, rfl, rfl⟩)
  case settle d x => exact same (view_of_rcvs (by show (if _ then _ else _ : Session).rcvs = _; split <;> simp) r)
  case update d x => exact same (view_of_rcvs (by show (if _ then _ else _ : Session).rcvs = _; split <;> simp) r)
  case dropDelivery d => exact same (view_of_rcvs (by show (if _ then _ else _ : Session).rcvs = _; split <;> simp) r)
  case wait d => exact same (view_of_rcvs (by show (if _ then _ else _ : Session).rcvs = _; split <;> simp) r)
  case resumeWait w => exact same (view_of_rcvs (waitResume_rcvs _ _) r)
  case cancelWait w => exact hi
  case endSession => exact same (view_of_rcvs (endLocal_keeps _) r)
  case fail e => exact same (setError_view hw _)

/-- A link the application has stays in its hands. -/
theorem handed_step {s : Session} {r : Ref} (hs : s.Reachable) (hh : s.Handed r) (st : Step) : (s.step st).Handed r := by
  refine ⟨?_, ?_⟩
  · obtain ⟨l, hl⟩ := Option.isSome_iff_exists.mp hh.1
    obtain ⟨l', hl', _⟩ := step_rcv_kept st hl
    rw [hl']; rfl
  · have hlt : r < s.rcvs.length := by
      obtain ⟨l, hl⟩ := Option.isSome_iff_exists.mp hh.1
      exact (List.getElem?_eq_some_iff.mp hl).1
    intro k op hk
    have hrl := Session.step_relink hs st
    generalize (s.step st).links = m at hrl hk
    generalize (s.step st).error.isSome = b at hrl
    have set : ∀ k' x, (∀ op, x ≠ .rcv (.openingLocal (some (r, op)))) → (s.links.set k' x).get k ≠ some (.rcv (.openingLocal (some (r, op)))) := by
      intro k' x hx hg
      rcases Slab.get_set_some hg with h | h
      · exact hx op h.2.symm
      · exact hh.2 k op h.2
    have remove : ∀ k', (s.links.remove k').get k ≠ some (.rcv (.openingLocal (some (r, op)))) := by
      intro k' hg
      rw [Slab.get_remove] at hg
      split at hg
      · cases hg
      · exact hh.2 k op hg
    cases hrl with
    | same => exact hh.2 k op hk
    | cleared hf => rw [Slab.get_empty] at hk; cases hk
    | inserted x hx hr ho =>
      rcases Slab.get_insert_some hk with h | h
      · rw [← h.2] at hr
        rcases hr with hr | hr
        · cases hr
        · injection hr with hr
          rw [hr] at hlt
          exact Nat.lt_irrefl _ hlt
      · exact hh.2 k op h
    | answered a k' r' op' hst hk' => exact set _ _ (fun op h => by cases h) hk
    | answeredSnd k' r' tx hk' => exact set _ _ (fun op h => by cases h) hk
    | acceptedSnd i edit r' a g l hst ht hl => exact set _ _ (fun op h => by cases h) hk
    | refusedSnd i edit e r' a g l hst ht hl => exact remove _ hk
    | accepted i edit r' g l r'' src hst ht hl hk' => exact set _ _ (fun op h => by cases h) hk
    | closing k' old x hk' ho hx => exact set _ _ (fun op h => by rw [h] at hx; exact absurd hx.2 (by simp [Link.rcv?])) hk
    | removed k' old hk' ho => exact remove _ hk
    | closed k' hc => exact remove _ hk

end Session
end Amqp.Rt

namespace Amqp.Rt
namespace Session

/-- What `Pending` means. -/
theorem idle_of_pending {s : Session} {r : Ref} (hp : s.recvPending r = true) (h : (s.rcv? r).isSome) : s.Idle r := by
  obtain ⟨l, hl⟩ := Option.isSome_iff_exists.mp h
  refine ⟨l.queue, l.partialBody, ?_, ?_⟩
  all_goals
    unfold recvPending pollRecv at hp
    rw [hl] at hp
    dsimp only at hp
  · rw [view_some hl]
    cases hc : l.closed
    · rfl
    · exfalso
      rw [hc] at hp
      by_cases hq : l.partialBody.isSome ∧ l.queue.length = 1
      · rw [if_pos hq] at hp
        cases he : l.error <;> rw [he] at hp <;> simp at hp
      · rw [if_neg hq] at hp
        cases hl' : l.queue with
        | nil => rw [hl'] at hp; cases he : l.error <;> rw [he] at hp <;> simp at hp
        | cons x q => rw [hl'] at hp; simp at hp
  · by_cases hq : l.partialBody.isSome ∧ l.queue.length = 1
    · exact .inr hq
    · left
      rw [if_neg hq] at hp
      cases hl' : l.queue with
      | nil => rfl
      | cons x q => rw [hl'] at hp; simp at hp

theorem Idle.not_readable {s : Session} {r : Ref} (h : s.Idle r) : ∃ l, s.rcv? r = some l ∧ ¬ l.Readable := by
  obtain ⟨q, p, hv, hq⟩ := h
  obtain ⟨l, hl, hv⟩ := Option.map_eq_some_iff.mp hv
  injection hv with h₁ hv
  injection hv with h₂ h₃
  subst h₂ h₃
  refine ⟨l, hl, ?_⟩
  rintro (h | ⟨h, h'⟩)
  · rw [h₁] at h; cases h
  · rcases hq with hq | hq
    · exact h hq
    · exact h' hq

/-- No slot holds the link. -/
def Gone (s : Session) (r : Ref) : Prop := (s.rcv? r).isSome ∧ ∀ k x, s.links.get k = some x → x.rcv? ≠ some r

theorem gone_step {s : Session} {r : Ref} (hs : s.Reachable) (hg : s.Gone r) (st : Step) : (s.step st).Gone r := by
  refine ⟨?_, ?_⟩
  · obtain ⟨l, hl⟩ := Option.isSome_iff_exists.mp hg.1
    obtain ⟨l', hl', _⟩ := step_rcv_kept st hl
    rw [hl']; rfl
  · have hlt : r < s.rcvs.length := by
      obtain ⟨l, hl⟩ := Option.isSome_iff_exists.mp hg.1
      exact (List.getElem?_eq_some_iff.mp hl).1
    intro k x hk
    have hrl := Session.step_relink hs st
    generalize (s.step st).links = m at hrl hk
    generalize (s.step st).error.isSome = b at hrl
    have set : ∀ {k' y}, y.rcv? ≠ some r → (s.links.set k' y).get k = some x → x.rcv? ≠ some r := by
      intro k' y hy hk
      rcases Slab.get_set_some hk with h | h
      · rw [h.2]; exact hy
      · exact hg.2 k x h.2
    have remove : ∀ {k'}, (s.links.remove k').get k = some x → x.rcv? ≠ some r := by
      intro k' hk
      rw [Slab.get_remove] at hk
      split at hk
      · cases hk
      · exact hg.2 k x hk
    cases hrl with
    | same => exact hg.2 k x hk
    | cleared hf => rw [Slab.get_empty] at hk; cases hk
    | inserted y hx hr ho =>
      rcases Slab.get_insert_some hk with h | h
      · rw [h.2]
        rcases hr with hr | hr
        · rw [hr]; exact fun h => by cases h
        · rw [hr]
          intro h
          injection h with h
          rw [← h] at hlt
          exact Nat.lt_irrefl _ hlt
      · exact hg.2 k x h
    | answered a k' r' op' hst hk' => exact set (y := .rcv (.established r')) (fun h => hg.2 k' _ hk' h) hk
    | answeredSnd k' r' tx hk' => exact set (fun h => by cases h) hk
    | acceptedSnd i edit r' a g l hst ht hl => exact set (fun h => by cases h) hk
    | refusedSnd i edit e r' a g l hst ht hl => exact remove hk
    | accepted i edit r' g l r'' src hst ht hl hk' => exact set (y := .rcv (.established r'')) (fun h => hg.2 _ _ hk' h) hk
    | closing k' old y hk' ho hx => exact set (by rw [hx.2]; exact fun h => by cases h) hk
    | removed k' old hk' ho => exact remove hk
    | closed k' hc => exact remove hk

theorem Gone.not_established {s : Session} {r : Ref} (h : s.Gone r) : r ∉ s.establishedReceivers := by
  intro hm
  obtain ⟨x, hx, he⟩ := List.mem_filterMap.mp hm
  obtain ⟨k, hk⟩ := Slab.mem_values_iff.mp hx
  split at he
  · injection he with he
    subst he
    exact h.2 k _ hk rfl
  · cases he

theorem Gone.not_woken {s : Session} {r : Ref} (h : s.Gone r) {st : Step} (h1 : ∀ e, st ≠ .closeReceiver r e)
    (h2 : ∀ i edit e, st ≠ .complete i edit (some e)) : r ∉ s.wakes st := by
  unfold wakes
  split
  · split
    · simp
    · split
      · next r' hb =>
        obtain ⟨k, _, hk⟩ := Option.bind_eq_some_iff.mp hb
        have : r ≠ r' := fun hr => h.2 k _ hk (by rw [hr]; rfl)
        split
        · split <;> simp [this]
        · simp
      · simp
  · split
    · simp
    · split
      · next r' hb =>
        obtain ⟨k, _, hk⟩ := Option.bind_eq_some_iff.mp hb
        have : r ≠ r' := fun hr => h.2 k _ hk (by rw [hr]; rfl)
        simp [this]
      · simp
  · split
    · simp
    · exact h.not_established
  · split
    · simp
    · exact h.not_established
  · exact h.not_established
  · next r' e =>
    have : r ≠ r' := fun hr => h1 e (by rw [hr])
    simp [this]
  · next i edit e => exact absurd rfl (h2 i edit e)
  · simp

end Session

namespace Readers
open Session

theorem step_other {w : Readers} {task : Nat} {st : Step} (h : ∀ r, st ≠ .recv r) :
    w.step task st = ⟨w.sess.step st, fun r => if r ∈ w.sess.wakes st then none else w.waker r,
      w.asleep.filter fun x => !(decide (x.1 ∈ w.sess.wakes st) && decide (w.waker x.1 = some x.2))⟩ := by
  unfold step
  cases st <;> first | rfl | exact absurd rfl (h _)

@[simp] theorem step_sess (w : Readers) (task : Nat) (st : Step) : (w.step task st).sess = w.sess.step st := by
  by_cases h : ∃ r, st = .recv r
  · obtain ⟨r, rfl⟩ := h
    unfold step
    dsimp only
    split <;> rfl
  · rw [step_other fun r hr => h ⟨r, hr⟩]

theorem run_sess (w : Readers) (steps : List (Nat × Step)) : (w.run steps).sess = w.sess.run (steps.map Prod.snd) := by
  induction steps generalizing w with
  | nil => rfl
  | cons x xs ih =>
    show ((w.step x.1 x.2).run xs).sess = _
    rw [ih, step_sess]
    rfl

/-- What holds of every task that sleeps. -/
def Inv (own : Ref → Nat → Prop) (w : Readers) : Prop :=
  w.sess.Reachable ∧ ∀ x ∈ w.asleep, own x.1 x.2 ∧ w.waker x.1 = some x.2 ∧ w.sess.Idle x.1 ∧ w.sess.Handed x.1

theorem Inv.step {own : Ref → Nat → Prop} (huniq : ∀ r k k', own r k → own r k' → k = k') {w : Readers} (h : w.Inv own)
    {task : Nat} {st : Step} (hown : ∀ r, st = .recv r → own r task) (hh : ∀ r, st = .recv r → w.sess.Handed r)
    (ho : ∀ r, ¬ w.sess.Orphans st r) : (w.step task st).Inv own := by
  obtain ⟨hr, h⟩ := h
  have kept : ∀ x ∈ w.asleep.filter (fun x => !(decide (x.1 ∈ w.sess.wakes st) && decide (w.waker x.1 = some x.2))),
      x.1 ∉ w.sess.wakes st ∧ own x.1 x.2 ∧ w.waker x.1 = some x.2 ∧ (w.sess.step st).Idle x.1 ∧ (w.sess.step st).Handed x.1 := by
    intro x hx
    obtain ⟨hx, hn⟩ := List.mem_filter.mp hx
    obtain ⟨h1, h2, h3, h4⟩ := h x hx
    have hnw : x.1 ∉ w.sess.wakes st := by
      intro hm
      simp [hm, h2] at hn
    exact ⟨hnw, h1, h2, idle_step hr h3 h4 st hnw (ho _), handed_step hr h4 st⟩
  refine ⟨by rw [step_sess]; exact Conn.Session_reachable_step hr st, ?_⟩
  by_cases hrecv : ∃ r, st = .recv r
  · obtain ⟨r, rfl⟩ := hrecv
    unfold Readers.step
    dsimp only
    split
    · next hp =>
      intro x hx
      dsimp only at hx ⊢
      rcases List.mem_cons.mp hx with rfl | hx
      · have hi := idle_of_pending hp (hh r rfl).1
        refine ⟨hown r rfl, if_pos rfl, ?_, handed_step hr (hh r rfl) _⟩
        show (w.sess.pollRecv r).1.Idle r
        rw [hi.unchanged.1]
        exact hi
      · obtain ⟨h0, h1, h2, h3, h4⟩ := kept x hx
        refine ⟨h1, ?_, h3, h4⟩
        by_cases hxr : x.1 = r
        · rw [if_pos hxr, huniq r x.2 task (hxr ▸ h1) (hown r rfl)]
        · rw [if_neg hxr, if_neg h0, h2]
    · intro x hx
      dsimp only at hx ⊢
      obtain ⟨h0, h1, h2, h3, h4⟩ := kept x (List.mem_filter.mp hx).1
      exact ⟨h1, by rw [if_neg h0, h2], h3, h4⟩
  · rw [step_other fun r hr => hrecv ⟨r, hr⟩]
    intro x hx
    obtain ⟨h0, h1, h2, h3, h4⟩ := kept x hx
    exact ⟨h1, by dsimp only; rw [if_neg h0, h2], h3, h4⟩

theorem Inv.run {own : Ref → Nat → Prop} (huniq : ∀ r k k', own r k → own r k' → k = k') (steps : List (Nat × Step)) :
    ∀ {w : Readers}, w.Inv own → (∀ k r, (k, Step.recv r) ∈ steps → own r k) → ReadsHanded w.sess steps → NoOrphans w.sess steps →
      (w.run steps).Inv own := by
  induction steps with
  | nil => intro w h _ _ _; exact h
  | cons x xs ih =>
    intro w h hown hh ho
    refine ih (w := w.step x.1 x.2) (h.step huniq ?_ hh.1 ho.1) (fun k r hm => hown k r (.tail _ hm)) ?_ ?_
    · rintro r hr
      exact hown x.1 r (by rw [← hr]; exact .head _)
    · rw [step_sess]; exact hh.2
    · rw [step_sess]; exact ho.2

end Readers
end Amqp.Rt
