import Verif.Lemmas.SessionGet
import Verif.Lemmas.Runtime
/-!
# Invariants of the sending side of a session
-/

namespace Amqp.Rt
open Session

/-! ## Delivery ids -/

@[simp] theorem sentIds_append (a b : List Ev) : sentIds (a ++ b) = sentIds a ++ sentIds b := by
  simp [sentIds, sentTransfers]

theorem sentIds_nil : sentIds [] = [] := rfl

theorem sentIds_cons_none {e : Ev} (h : e.transfer? = none) (l : List Ev) : sentIds (e :: l) = sentIds l := by
  simp [sentIds, sentTransfers, h]

theorem Ev.Inert.transfer? {e : Ev} (h : e.Inert) : e.transfer? = none := by
  unfold Ev.transfer?
  split
  · exact h.elim
  · rfl

theorem sentIds_chunkFrames (h : UInt32) (f : Option UInt32) (max n : Nat) (b : Bytes) :
    sentIds ((chunkFrames h f max n b).map .frame) = [] := by
  induction n generalizing b with
  | zero => rfl
  | succ n ih =>
    unfold chunkFrames
    split
    · rfl
    · have := ih (b.drop (min max b.length))
      simp only [sentIds, sentTransfers, List.map_cons, List.filterMap_cons] at this ⊢
      simpa [Ev.transfer?, emptyTransfer] using this

theorem sentIds_transferFrames (mfs h id tag body settled format) :
    sentIds ((transferFrames mfs h id tag body settled format).map .frame) = [id] := by
  unfold transferFrames
  dsimp only
  split
  · have := sentIds_chunkFrames h (if format.isNone then body.format else format) (chunkSize mfs) body.tenc.length
      (body.tenc.drop (min (chunkSize mfs) body.tenc.length))
    simp only [sentIds, sentTransfers, List.map_cons, List.filterMap_cons] at this ⊢
    simpa [Ev.transfer?, emptyTransfer] using this
  · rfl

/-- How a small change affects the counter and the ids on the wire. -/
theorem Micro.ids {s s' : Session} (h : Micro s s') :
    (s'.nextOutgoingId = s.nextOutgoingId ∧ sentIds s'.log = sentIds s.log) ∨
    (s'.nextOutgoingId = s.nextOutgoingId + 1 ∧ sentIds s'.log = sentIds s.log ++ [s.nextOutgoingId]) := by
  cases h
  case note e he => exact .inl ⟨rfl, by simp [sentIds_cons_none he.inert.transfer?, sentIds_nil]⟩
  case sendNow t req tag l _ _ _ _ _ =>
    refine .inr ⟨by simp, ?_⟩
    rw [emit_log, sentIds_append, sentIds_cons_none rfl, sentIds_transferFrames]
    simp; rfl
  case emitParked t req tag l _ _ _ =>
    refine .inr ⟨by simp, ?_⟩
    rw [emit_log, sentIds_append, sentIds_cons_none rfl, sentIds_transferFrames]
  case settle d st _ =>
    refine .inl ⟨by simp, ?_⟩
    rcases settle_log s d st with h | ⟨x, _, h⟩ <;> rw [h]
    rw [sentIds_append, sentIds_cons_none rfl, sentIds_cons_none rfl, sentIds_nil, List.append_nil]
  case update d st _ =>
    refine .inl ⟨by simp, ?_⟩
    rcases updateState_log s d st with h | ⟨x, _, h⟩ <;> rw [h]
    rw [sentIds_append, sentIds_cons_none rfl, sentIds_cons_none rfl, sentIds_nil, List.append_nil]
  case dropDlv d _ =>
    refine .inl ⟨by simp, ?_⟩
    rcases dropDelivery_log s d with h | ⟨x, _, h⟩ <;> rw [h]
    rw [sentIds_append, sentIds_cons_none rfl, sentIds_cons_none rfl, sentIds_nil, List.append_nil]
  all_goals
    refine Or.inl (And.intro ?_ ?_) <;> first
      | rfl
      | (simp; done)
      | (simp; rfl)

theorem Session.Reachable.ids {s : Session} (h : Reachable s) :
    ∃ n, sentIds s.log = (List.range n).map (fun i => UInt32.ofNat (i + 1)) ∧ s.nextOutgoingId = UInt32.ofNat (n + 1) := by
  refine h.invariant (P := fun s => ∃ n, sentIds s.log = (List.range n).map (fun i => UInt32.ofNat (i + 1)) ∧
    s.nextOutgoingId = UInt32.ofNat (n + 1)) ?_ ?_
  · rintro s ⟨id, b, mfs, ch, b, rfl⟩
    exact ⟨0, rfl, rfl⟩
  · rintro s s' hm ⟨n, h₁, h₂⟩
    rcases hm.ids with ⟨e₁, e₂⟩ | ⟨e₁, e₂⟩
    · exact ⟨n, by rw [e₂, h₁], by rw [e₁, h₂]⟩
    · refine ⟨n + 1, ?_, ?_⟩
      · rw [e₂, h₁, h₂, List.range_succ, List.map_append]; rfl
      · rw [e₁, h₂]; apply UInt32.toNat_inj.mp; simp [UInt32.toNat_add]

/-! ## Credit -/

/-- Events that concern the credit of a sender link. -/
def Ev.Credit : Ev → Prop
  | .took .. | .applied .. => True
  | _ => False

theorem Ev.Inert.not_credit {e : Ev} (h : e.Inert) : ¬ e.Credit := by
  cases e <;> first | exact fun h => h | exact h.elim

/-- The two counters of a sender link. -/
def Session.meter (s : Session) (r : Ref) : Option (UInt32 × UInt32) :=
  (s.snd? r).map fun l => (l.deliveryCount, l.linkCredit)

theorem meter_congr {s s' : Session} (h : s'.snds = s.snds) (r : Ref) : s'.meter r = s.meter r := by
  simp only [meter, snd?, h]

theorem modSnd_meter (s : Session) (r r' : Ref) (f : Snd → Snd)
    (h : ∀ l, (f l).deliveryCount = l.deliveryCount ∧ (f l).linkCredit = l.linkCredit) :
    (s.modSnd r f).meter r' = s.meter r' := by
  simp only [meter, modSnd_snd?]
  split
  · cases s.snd? r' with
    | none => rfl
    | some l => simp [h l]
  · rfl

theorem quiet_frames (l : List Frame) : ∀ e ∈ l.map Ev.frame, ¬ e.Credit := by
  simp only [List.mem_map, forall_exists_index, and_imp]
  rintro _ f _ rfl h
  exact h

/-- What a small change does to the credit of the sender links. -/
inductive CreditView (s s' : Session) : Prop
  | quiet (evs) (hl : s'.log = s.log ++ evs) (he : ∀ e ∈ evs, ¬ e.Credit)
      (hlen : s.snds.length ≤ s'.snds.length)
      (hm : ∀ r < s.snds.length, s'.meter r = s.meter r)
      (hn : ∀ r c, s.snds.length ≤ r → s'.meter r = some c → c.2 = 0)
  | took (t r l evs) (hs : s.snd? r = some l) (hc : l.linkCredit ≠ 0) (hl : s'.log = s.log ++ .took t r :: evs)
      (he : ∀ e ∈ evs, ¬ e.Credit) (hlen : s'.snds.length = s.snds.length)
      (hm : ∀ r', s'.meter r' = if r = r' then some (l.deliveryCount + 1, l.linkCredit - 1) else s.meter r')
  | applied (r f) (ht : .ctl (.flow r f) ∈ s.todo) (hl : s'.log = s.log ++ [.applied r f])
      (hlen : s'.snds.length = s.snds.length)
      (hm : ∀ r', s'.meter r' = if r = r' then (s.snd? r').map fun l => ((l.flow f).deliveryCount, (l.flow f).linkCredit)
        else s.meter r')

theorem CreditView.same {s s' : Session} (hs : s'.snds = s.snds) (evs) (hl : s'.log = s.log ++ evs)
    (he : ∀ e ∈ evs, ¬ e.Credit) : CreditView s s' :=
  .quiet evs hl he (by rw [hs]; exact Nat.le_refl _) (fun r _ => meter_congr hs r)
    (fun r c hr h => by
      rw [meter_congr hs, meter, snd?, List.getElem?_eq_none hr] at h
      exact absurd h (by simp))

theorem CreditView.silent {s s' : Session} (hs : s'.snds = s.snds) (hl : s'.log = s.log) : CreditView s s' :=
  .same hs [] (by simp [hl]) (by simp)

theorem CreditView.modified {s s' : Session} (hlen : s'.snds.length = s.snds.length) (hm : ∀ r, s'.meter r = s.meter r)
    (hl : s'.log = s.log) : CreditView s s' :=
  .quiet [] (by simp [hl]) (by simp) (Nat.le_of_eq hlen.symm) (fun r _ => hm r) (fun r c hr h => by
    rw [hm, meter, snd?, List.getElem?_eq_none hr] at h
    exact absurd h (by simp))

theorem CreditView.grown {s s' : Session} (l : Snd) (hs : s'.snds = s.snds ++ [l]) (hc : l.linkCredit = 0)
    (hl : s'.log = s.log) : CreditView s s' := by
  refine .quiet [] (by simp [hl]) (by simp) (by rw [hs]; simp) ?_ ?_
  · intro r hr
    simp [meter, snd?, hs, List.getElem?_append_left hr]
  · intro r c hr h
    simp only [meter, snd?, hs, List.getElem?_append_right hr] at h
    rcases hk : r - s.snds.length with _ | k
    · simp only [hk, List.getElem?_cons_zero, Option.map_some, Option.some.injEq] at h
      rw [← h]; exact hc
    · simp [hk] at h

theorem Micro.credit {s s' : Session} (h : Micro s s') : CreditView s s' := by
  cases h
  case note e he => exact .same rfl [e] rfl (by simpa using he.inert.not_credit)
  case estSndLocal k l op ho hk hp hc _ _ => exact .grown l rfl hc rfl
  case newSnd a _ _ => exact .grown (sndWith s.links.vacantKey a) rfl rfl rfl
  case sndClosed r => exact .modified (by simp) (fun r' => modSnd_meter _ _ _ _ fun _ => ⟨rfl, rfl⟩) rfl
  case sndFailed r e _ _ =>
    refine .modified (by simp) (fun r' => ?_) (by simp)
    simp only [meter, sndRemoteDetached_snd?]
    split
    · cases s.snd? r' <;> rfl
    · rfl
  case sndLimit r n => exact .modified (by simp) (fun r' => modSnd_meter _ _ _ _ fun _ => ⟨rfl, rfl⟩) rfl
  case sndTag r => exact .modified (by simp) (fun r' => modSnd_meter _ _ _ _ fun _ => ⟨rfl, rfl⟩) rfl
  case flowLink r f ht =>
    refine .applied r f ht (by simp) (by simp) (fun r' => ?_)
    simp only [meter, applyFlow_snd?]
    split
    · cases s.snd? r' <;> rfl
    · rfl
  case parkCredit t req tag l ht hl h =>
    exact .modified (by simp) (fun r' => by
      rw [modSnd_meter]
      · rfl
      · exact fun _ => ⟨rfl, rfl⟩) (by simp)
  case parkWindow t req tag l ht hl h hp hw =>
    refine .took t req.link l [] hl h (by simp) (by simp) (by simp) (fun r' => ?_)
    show ((s.takeCredit t req.link).snd? r').map _ = _
    rw [takeCredit_snd?]
    split
    · next h => subst h; rw [hl]; rfl
    · rfl
  case sendNow t req tag l ht hl h hp hw =>
    refine .took t req.link l _ hl h (by rw [emit_log]; simp only [takeCredit_log, List.append_assoc]; rfl) ?_ (by simp)
      (fun r' => ?_)
    · intro e he
      rcases List.mem_cons.mp he with rfl | he
      · exact fun h => h
      · exact quiet_frames _ e he
    · rw [meter, snd?_congr (emit_snds _ _ _ _ _), takeCredit_snd?]
      split
      · next h => subst h; rw [hl]; rfl
      · rfl
  case emitParked t req tag l ht hl hw =>
    refine .same (by simp) _ (by rw [emit_log]) ?_
    intro e he
    rcases List.mem_cons.mp he with rfl | he
    · exact fun h => h
    · exact quiet_frames _ e he
  case settle d st _ =>
    rcases settle_log s d st with h | ⟨x, _, h⟩
    · exact .silent (by simp) h
    · exact .same (by simp) _ h (by simp [Ev.Credit])
  case update d st _ =>
    rcases updateState_log s d st with h | ⟨x, _, h⟩
    · exact .silent (by simp) h
    · exact .same (by simp) _ h (by simp [Ev.Credit])
  case dropDlv d _ =>
    rcases dropDelivery_log s d with h | ⟨x, _, h⟩
    · exact .silent (by simp) h
    · exact .same (by simp) _ h (by simp [Ev.Credit])
  case flowSess f => exact .same rfl [_] rfl (by simp [Ev.Credit])
  case grant r n l hl => exact .same rfl [_] rfl (by simp [Ev.Credit])
  case recvNoCredit => exact .same rfl [_] rfl (by simp [Ev.Credit])
  case recvRefused => exact .same rfl [_] rfl (by simp [Ev.Credit])
  case recvMerge => exact .same rfl [_] rfl (by simp [Ev.Credit])
  case recvLast => exact .same rfl [_] rfl (by simp [Ev.Credit])
  case recvLost => exact .same rfl [_] rfl (by simp [Ev.Credit])
  case recvFirst => exact .same (by simp) [_] (by simp; rfl) (by simp [Ev.Credit])
  case recvSingle => exact .same (by simp) [_] (by simp; rfl) (by simp [Ev.Credit])
  case handed => exact .same rfl [_] rfl (by simp [Ev.Credit])
  all_goals exact .silent (by first | rfl | simp) (by first | rfl | simp)

theorem CreditView.length {s s' : Session} (h : CreditView s s') : s.snds.length ≤ s'.snds.length := by
  cases h with
  | quiet _ _ _ h => exact h
  | took _ _ _ _ _ _ _ _ h => exact Nat.le_of_eq h.symm
  | applied _ _ _ _ h => exact Nat.le_of_eq h.symm

/-! ## References to sender links stay valid -/

@[simp] theorem Session.SendTask.wake_req (m) (x : SendTask) : (SendTask.wake m x).req = x.req := by
  rcases x with ⟨req, st⟩
  cases st with
  | credit tag mail => cases mail <;> rfl
  | window tag mail => cases mail <;> rfl
  | done _ => rfl
  | cancelled => rfl

/-- The send with that index, if it was there before, made the same request. -/
theorem Micro.sends_req {s s' : Session} (h : Micro s s') (t : Ref) (x' : SendTask) (hx : s'.sends[t]? = some x') :
    (∃ x, s.sends[t]? = some x ∧ x.req = x'.req) ∨
      (t = s.sends.length ∧ s.sends[t]? = none ∧ x'.req.link < s.snds.length) := by
  have grown : ∀ (y : SendTask) (l : Snd), s.snd? y.req.link = some l → s'.sends = s.sends ++ [y] →
      (∃ x, s.sends[t]? = some x ∧ x.req = x'.req) ∨
      (t = s.sends.length ∧ s.sends[t]? = none ∧ x'.req.link < s.snds.length) := by
    intro y l hl he
    rw [he, List.getElem?_append] at hx
    split at hx
    · exact .inl ⟨x', hx, rfl⟩
    · next hlt =>
      right
      have ht : t - s.sends.length = 0 := by
        rcases hk : t - s.sends.length with _ | k
        · rfl
        · rw [hk] at hx; simp at hx
      rw [ht] at hx
      have : y = x' := by simpa using hx
      subst this
      exact ⟨Nat.le_antisymm (Nat.le_of_sub_eq_zero ht) (Nat.le_of_not_lt hlt),
        List.getElem?_eq_none (Nat.le_of_not_lt hlt), snd?_lt hl⟩
  have upd : ∀ (p : Prop) [Decidable p] (f : SendTask → SendTask), (∀ x, (f x).req = x.req) →
      s'.sends[t]? = (if p then s.sends[t]?.map f else s.sends[t]?) →
      (∃ x, s.sends[t]? = some x ∧ x.req = x'.req) ∨
      (t = s.sends.length ∧ s.sends[t]? = none ∧ x'.req.link < s.snds.length) := by
    intro p _ f hf he
    left
    rw [he] at hx
    split at hx
    · obtain ⟨x, hx', rfl⟩ := Option.map_eq_some_iff.mp hx
      exact ⟨x, hx', (hf x).symm⟩
    · exact ⟨x', hx, rfl⟩
  cases h
  case sendRefused req e l hl _ => exact grown _ l hl rfl
  case sendNew req tag l hl _ _ _ _ => exact grown _ l hl rfl
  case sndFailed r e _ _ => exact upd _ _ (by simp) (sndRemoteDetached_get _ _ _ _)
  case flowLink r f _ => exact upd _ _ (by simp) (applyFlow_get _ _ _ _)
  case drainWindow p m _ => exact upd _ _ (by simp) (wakeAll_get _ _ _ _)
  case parkCredit => exact upd _ _ (by simp) (modSend_get _ _ _ _)
  case parkWindow => exact upd _ _ (by simp) (modSend_get _ _ _ _)
  case sendNow => exact upd _ _ (by simp) (emit_get _ _ _ _ _ _)
  case reparkWindow => exact upd _ _ (by simp) (modSend_get _ _ _ _)
  case emitParked => exact upd _ _ (by simp) (emit_get _ _ _ _ _ _)
  case sendFailed => exact upd _ _ (by simp) (finishSend_get _ _ _ _)
  case sendCancel t' =>
    refine upd _ _ ?_ (sendCancel_get _ _ _)
    intro x; split <;> rfl
  all_goals exact .inl ⟨x', by first | exact hx | simpa using hx, rfl⟩

/-- Every slot is as it was, or not established, or newly established with a link that exists. -/
theorem Micro.slots {s s' : Session} (h : Micro s s') (k : Nat) (x : Link) (hx : s'.links.get k = some x) :
    s.links.get k = some x ∨ x.NotEst ∨
      (∃ r, x = .snd (.established r) ∧ r < s'.snds.length ∧
        ((∃ a g, .ctl (.attachSender r a g) ∈ s.todo) ∨ r = s.snds.length)) ∨
      (∃ r, x = .rcv (.established r) ∧
        ((∃ src, s.links.get k = some (.rcv (.opening (some (r, src))))) ∨
         (∃ op, s.links.get k = some (.rcv (.openingLocal (some (r, op))))))) := by
  have ins : ∀ l : Link, l.NotEst → s'.links = s.links.insert l → s.links.get k = some x ∨ x.NotEst := by
    intro l hl he
    rw [he] at hx
    rcases Slab.get_insert_some hx with ⟨_, rfl⟩ | h
    · exact .inr hl
    · exact .inl h
  have rest : ∀ {p : Prop}, s.links.get k = some x ∨ x.NotEst → s.links.get k = some x ∨ x.NotEst ∨ p :=
    fun h => h.elim Or.inl (fun h => Or.inr (Or.inl h))
  cases h
  case insertSlot l hl => exact rest (ins l hl.1 rfl)
  case newSnd a => exact rest (ins _ (by trivial) rfl)
  case newRcvRemote a _ => exact rest (ins _ (by trivial) rfl)
  case newRcvLocal a op => exact rest (ins _ (by trivial) rfl)
  case estSnd k' r l old hl hk ho ht _ =>
    rcases Slab.get_set_some hx with ⟨_, rfl⟩ | ⟨_, h⟩
    · exact .inr (.inr (.inl ⟨r, rfl, snd?_lt hl, .inl ht⟩))
    · exact .inl h
  case estSndLocal k' l op ho _ _ _ _ _ =>
    rcases Slab.get_set_some hx with ⟨_, rfl⟩ | ⟨_, h⟩
    · exact .inr (.inr (.inl ⟨_, rfl, by simp, .inr rfl⟩))
    · exact .inl h
  case estRcv k' r src ho =>
    rcases Slab.get_set_some hx with ⟨rfl, rfl⟩ | ⟨_, h⟩
    · exact .inr (.inr (.inr ⟨r, rfl, .inl ⟨src, ho⟩⟩))
    · exact .inl h
  case estRcvLocal k' r op ho =>
    rcases Slab.get_set_some hx with ⟨rfl, rfl⟩ | ⟨_, h⟩
    · exact .inr (.inr (.inr ⟨r, rfl, .inr ⟨op, ho⟩⟩))
    · exact .inl h
  case closeSlot k' l old ho hl _ =>
    rcases Slab.get_set_some hx with ⟨_, rfl⟩ | ⟨_, h⟩
    · exact .inr (.inl hl.1)
    · exact .inl h
  case removeSlot k' _ =>
    have hx : (s.links.remove k').get k = some x := hx
    rw [Slab.get_remove] at hx
    split at hx
    · simp at hx
    · exact .inl hx
  case clearSlots _ =>
    have hx : (Slab.empty : Slab Link).get k = some x := hx
    rw [Slab.get_empty] at hx
    simp at hx
  all_goals exact .inl (by first | exact hx | simpa using hx)

/-- How the calls in flight change. -/
theorem Micro.todo {s s' : Session} (h : Micro s s') (a : Todo) (ha : a ∈ s'.todo) :
    a ∈ s.todo ∨
      (∃ r f k, a = .ctl (.flow r f) ∧ s.links.get k = some (.snd (.established r))) ∨
      (∃ f g, a = .ctl (.attachSender s.snds.length f g) ∧ s'.snds.length = s.snds.length + 1) ∨
      ((∀ r f, a ≠ .ctl (.flow r f)) ∧ ∀ r f g, a ≠ .ctl (.attachSender r f g)) := by
  cases h
  case newSnd f =>
    rcases List.mem_append.mp ha with h | h
    · exact .inl h
    · exact .inr (.inr (.inl ⟨_, _, by simpa using h, by simp⟩))
  case addTodo b h₁ h₂ _ _ =>
    rcases List.mem_append.mp ha with h | h
    · exact .inl h
    · have : a = b := by simpa using h
      subst this
      exact .inr (.inr (.inr ⟨h₁, h₂⟩))
  case addFlow r f k hk _ =>
    rcases List.mem_append.mp ha with h | h
    · exact .inl h
    · exact .inr (.inl ⟨r, f, k, by simpa using h, hk⟩)
  case eraseTodo i => exact .inl (List.mem_of_mem_eraseIdx ha)
  all_goals exact .inl (by first | exact ha | simpa using ha)

structure SndRefs (s : Session) : Prop where
  slot : ∀ k r, s.links.get k = some (.snd (.established r)) → r < s.snds.length
  flow : ∀ r f, .ctl (.flow r f) ∈ s.todo → r < s.snds.length
  attach : ∀ r f g, .ctl (.attachSender r f g) ∈ s.todo → r < s.snds.length
  send : ∀ (t : Ref) x, s.sends[t]? = some x → x.req.link < s.snds.length
  took : ∀ t r, .took t r ∈ s.log → r < s.snds.length
  applied : ∀ r f, .applied r f ∈ s.log → r < s.snds.length

theorem Micro.sndRefs {s s' : Session} (h : Micro s s') (hr : SndRefs s) : SndRefs s' := by
  have hlen := h.credit.length
  constructor
  · intro k r hk
    rcases h.slots k _ hk with h' | h' | ⟨r', he, h', _⟩ | ⟨r', he, _⟩
    · exact Nat.lt_of_lt_of_le (hr.slot k r h') hlen
    · exact h'.elim
    · cases he; exact h'
    · cases he
  · intro r f ha
    rcases h.todo _ ha with h' | ⟨_, _, k, he, hk⟩ | ⟨_, _, he, _⟩ | ⟨h', _⟩
    · exact Nat.lt_of_lt_of_le (hr.flow r f h') hlen
    · cases he; exact Nat.lt_of_lt_of_le (hr.slot k r hk) hlen
    · cases he
    · exact (h' r f rfl).elim
  · intro r f g ha
    rcases h.todo _ ha with h' | ⟨_, _, k, he, hk⟩ | ⟨_, _, he, hl⟩ | ⟨_, h'⟩
    · exact Nat.lt_of_lt_of_le (hr.attach r f g h') hlen
    · cases he
    · cases he; omega
    · exact (h' r f g rfl).elim
  · intro t x hx
    rcases h.sends_req t x hx with ⟨y, hy, he⟩ | ⟨_, _, h'⟩
    · rw [← he]; exact Nat.lt_of_lt_of_le (hr.send t y hy) hlen
    · exact Nat.lt_of_lt_of_le h' hlen
  · intro t r hm
    cases h.credit with
    | quiet evs hl he _ _ _ =>
      rw [hl] at hm
      rcases List.mem_append.mp hm with hm | hm
      · exact Nat.lt_of_lt_of_le (hr.took t r hm) hlen
      · exact (he _ hm trivial).elim
    | took t' r' l evs hs hc hl he _ _ =>
      rw [hl] at hm
      rcases List.mem_append.mp hm with hm | hm
      · exact Nat.lt_of_lt_of_le (hr.took t r hm) hlen
      · rcases List.mem_cons.mp hm with hm | hm
        · cases hm; exact Nat.lt_of_lt_of_le (snd?_lt hs) hlen
        · exact (he _ hm trivial).elim
    | applied r' f ht hl _ _ =>
      rw [hl] at hm
      rcases List.mem_append.mp hm with hm | hm
      · exact Nat.lt_of_lt_of_le (hr.took t r hm) hlen
      · simp at hm
  · intro r f hm
    cases h.credit with
    | quiet evs hl he _ _ _ =>
      rw [hl] at hm
      rcases List.mem_append.mp hm with hm | hm
      · exact Nat.lt_of_lt_of_le (hr.applied r f hm) hlen
      · exact (he _ hm trivial).elim
    | took t' r' l evs hs hc hl he _ _ =>
      rw [hl] at hm
      rcases List.mem_append.mp hm with hm | hm
      · exact Nat.lt_of_lt_of_le (hr.applied r f hm) hlen
      · rcases List.mem_cons.mp hm with hm | hm
        · cases hm
        · exact (he _ hm trivial).elim
    | applied r' f' ht hl _ _ =>
      rw [hl] at hm
      rcases List.mem_append.mp hm with hm | hm
      · exact Nat.lt_of_lt_of_le (hr.applied r f hm) hlen
      · have : r = r' := by simp at hm; exact hm.1
        subst this
        exact Nat.lt_of_lt_of_le (hr.flow r f' ht) hlen

theorem Session.Reachable.sndRefs {s : Session} (h : Reachable s) : SndRefs s := by
  refine h.invariant ?_ (fun _ _ h => h.sndRefs)
  rintro s ⟨id, b, mfs, ch, b, rfl⟩
  constructor <;> intros <;> simp_all [Session.new, Slab.get, Slab.empty]

end Amqp.Rt
