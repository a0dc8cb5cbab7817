import Verif.Spec.Outcome
import Verif.Lemmas.PairTake
import Verif.Props.Deliveries
import Verif.Props.Pair
import Verif.Props.Sending
/-!
# Deliveries of two connected sessions

A session makes an incoming delivery object only for a transfer frame that arrived and was taken in, so no two objects of the
right session have the same id while the left session has not used up its ids.
-/

namespace Amqp.Rt
open Session

theorem takenIn_append (a b : List Ev) : takenIn (a ++ b) = takenIn a ++ takenIn b := by simp [takenIn]
theorem takenIds_append (a b : List Ev) : takenIds (a ++ b) = takenIds a ++ takenIds b := by simp [takenIds, takenIn_append]

/-- The transfer frames among some frames. -/
def transfersIn (fs : List Frame) : List Transfer := fs.filterMap fun
  | .transfer t => some t
  | _ => none

theorem transfersIn_append (a b : List Frame) : transfersIn (a ++ b) = transfersIn a ++ transfersIn b := by simp [transfersIn]

theorem takenIn_arrivals (s : Session) : takenIn s.log = takenIn s.arrivals := by
  unfold takenIn arrivals
  rw [List.filterMap_filter]
  congr 1
  funext e
  cases e <;> rfl

theorem takenIn_step {s : Session} (hs : Reachable s) (st : Step) : takenIn (s.step st).log = takenIn s.log ∨
    ∃ t, st = .peer (.transfer t) ∧ takenIn (s.step st).log = takenIn s.log ++ [t] := by
  rw [takenIn_arrivals, takenIn_arrivals]
  by_cases hm : st.moves = false
  · rw [step_arrivals s hm]; exact .inl rfl
  · cases st <;> try exact absurd rfl hm
    case take r =>
      left
      show takenIn (s.getDelivery r).1.arrivals = _
      rw [getDelivery_arrivals, takenIn_append]
      split <;> simp [takenIn]
    case recv r =>
      left
      show takenIn (s.pollRecv r).1.arrivals = _
      rcases pollRecv_arrivals s r with h | ⟨d, t, h⟩ <;> rw [h]
      simp [takenIn]
    case peer f =>
      cases f <;> try exact absurd rfl hm
      next t =>
        rcases transfer_arrivals hs t with ⟨h, _⟩ | ⟨r, _, h, _⟩ | ⟨r, h, _⟩ <;> rw [h]
        · exact .inl rfl
        · exact .inr ⟨t, rfl, by simp [takenIn]⟩
        · left; simp [takenIn]

/-- The frames taken in are among those that arrived, in that order. -/
theorem takenIn_arrived {s : Session} (hs : Reachable s) : (takenIn s.log).Sublist (transfersIn (arrived s.log)) := by
  obtain ⟨s₀, steps, hf, rfl⟩ := hs
  induction steps using List.reverseRecOn with
  | nil => obtain ⟨_, _, _, _, _, rfl⟩ := hf; exact List.Sublist.refl _
  | append_singleton steps st ih =>
    have hs : Reachable (s₀.run steps) := ⟨s₀, steps, hf, rfl⟩
    rw [show s₀.run (steps ++ [st]) = (s₀.run steps).step st by simp [run], arrived_step, transfersIn_append]
    rcases takenIn_step hs st with h | ⟨t, rfl, h⟩
    · rw [h]; exact ih.trans (List.sublist_append_left _ _)
    · rw [h]; exact ih.append (List.Sublist.refl _)

/-- The ids of the incoming delivery objects. -/
def inIds (xs : List (Bool × UInt32)) : List UInt32 := xs.filterMap fun x => if x.1 then none else some x.2

def Dlv.key (x : Dlv) : Bool × UInt32 := (x.sender, x.id)

theorem Micro.dlv_keys {s s' : Session} (h : Micro s s') : s'.dlvs.map Dlv.key = s.dlvs.map Dlv.key ∨
    (∃ i, s'.dlvs.map Dlv.key = s.dlvs.map Dlv.key ++ [(true, i)]) ∨
    ∃ r t i, s'.dlvs.map Dlv.key = s.dlvs.map Dlv.key ++ [(false, i)] ∧ s'.log = s.log ++ [.received r t] ∧
      t.head.deliveryId = some i := by
  have same : s'.dlvs = s.dlvs → s'.dlvs.map Dlv.key = s.dlvs.map Dlv.key := fun h => by rw [h]
  have pt : (∀ d, (s'.dlv? d).map Dlv.key = (s.dlv? d).map Dlv.key) → s'.dlvs.map Dlv.key = s.dlvs.map Dlv.key := by
    intro h
    apply List.ext_getElem?
    intro d
    rw [List.getElem?_map, List.getElem?_map]
    exact h d
  have upd : ∀ (d' : Ref) (f : Dlv → Dlv), (∀ x, (f x).key = x.key) →
      (∀ d, s'.dlv? d = (if d' = d then (s.dlv? d).map f else s.dlv? d)) → s'.dlvs.map Dlv.key = s.dlvs.map Dlv.key := by
    intro d' f hf h
    refine pt fun d => ?_
    rw [h]
    split
    · cases s.dlv? d <;> simp [hf]
    · rfl
  cases h.dlv with
  | quiet evs hl he hb hs hr => exact .inl (same hs.dlvs)
  | failed hl hs hr => exact .inl (same hs.dlvs)
  | sent tag settled h evs hl he hb hm hs hr => exact .inr (.inl ⟨_, by rw [hs.dlvs, addDlv_dlvs, List.map_append]; rfl⟩)
  | received id tag settled h evs hl he hb hs hr hev =>
    obtain ⟨r, t, rfl, hid, _⟩ := hev
    exact .inr (.inr ⟨r, t, id, by rw [hs.dlvs, addDlv_dlvs, List.map_append]; rfl, hl, hid⟩)
  | settle d' st hf h =>
    left; subst h
    rcases settle_cases s d' st with h | ⟨y, hy, _, _, h⟩
    · exact same (by rw [h])
    · refine upd d' _ ?_ (fun d => by rw [h]; exact modDlv_dlv? _ _ _ _)
      exact fun x => rfl
  | update d' st hf h => subst h; exact .inl (same (by simp))
  | drop d' hf h => 
    left; subst h
    refine upd d' _ ?_ (fun d => dropDelivery_dlv? _ _ _)
    exact fun x => rfl
  | wait d' hf h => subst h; exact .inl (same (by simp))
  | resume w h =>
    left; subst h
    refine pt fun d => ?_
    rcases waitResume_dlv? s w d with h | ⟨y, hy, h⟩
    · rw [h]
    · rw [h, hy]; rfl
  | cancel w h => subst h; exact .inl (same rfl)
  | dispose disp no hp hn h => subst h; exact .inl (same (by simp))
  | failDlvs b hd f hf h => subst h; exact .inl (same (by simp))
  | clearSnd he h => subst h; exact .inl (same (by simp))
  | clearRcv he h => subst h; exact .inl (same (by simp))

theorem Micro.inIds {s s' : Session} (h : Micro s s') (hi : (inIds (s.dlvs.map Dlv.key)).Sublist (takenIds s.log)) :
    (inIds (s'.dlvs.map Dlv.key)).Sublist (takenIds s'.log) := by
  obtain ⟨evs, hl⟩ := h.log_grows
  rcases h.dlv_keys with hk | ⟨i, hk⟩ | ⟨r, t, i, hk, hl', hid⟩
  · rw [hk, hl, takenIds_append]; exact hi.trans (List.sublist_append_left _ _)
  · rw [hk, hl, takenIds_append]
    simp only [Rt.inIds, List.filterMap_append]
    exact (by simpa [Rt.inIds] using hi.trans (List.sublist_append_left _ _))
  · rw [hk, hl', takenIds_append]
    simp only [Rt.inIds, List.filterMap_append]
    exact hi.append (by simp [takenIds, takenIn, hid])

/-- Every incoming delivery object stands for a transfer frame taken in. -/
theorem Session.Reachable.inIds {s : Session} (h : Reachable s) : (inIds (s.dlvs.map Dlv.key)).Sublist (takenIds s.log) := by
  obtain ⟨s₀, steps, hf, rfl⟩ := h
  refine (run_micros s₀ steps).invariant (P := fun s => (Rt.inIds (s.dlvs.map Dlv.key)).Sublist (takenIds s.log))
    (fun _ _ hm hi => hm.inIds hi) ?_
  obtain ⟨_, _, _, _, _, rfl⟩ := hf
  exact List.Sublist.refl _

/-! ## Two sessions -/

theorem transfersIn_posted (log : List Ev) : transfersIn (posted log) = sentTransfers log := by
  unfold transfersIn posted sentTransfers
  rw [List.filterMap_filterMap]
  congr 1
  funext e
  cases e <;> try rfl
  next f => cases f <;> rfl

theorem transfersIn_received (fs : List Frame) : transfersIn (fs.map Frame.asReceived) = (transfersIn fs).map Transfer.asReceived := by
  unfold transfersIn
  rw [List.filterMap_map, List.map_filterMap]
  congr 1
  funext f
  cases f <;> rfl

theorem asReceived_head (t : Transfer) : t.asReceived.head = t.head := by
  unfold Transfer.asReceived
  split <;> rfl

/-- The ids of incoming deliveries are among those the other session used, in that order. -/
theorem Pair.inIds {σ : Pair} (hp : arrived σ.right.log <+: (posted σ.left.log).map Frame.asReceived) (hr : Reachable σ.right) :
    (Rt.inIds (σ.right.dlvs.map Dlv.key)).Sublist (sentIds σ.left.log) := by
  refine hr.inIds.trans ?_
  have h := ((takenIn_arrived hr).filterMap fun t => t.head.deliveryId)
  refine h.trans ?_
  obtain ⟨c, hc⟩ := hp
  have h₂ : (transfersIn (arrived σ.right.log)).Sublist (transfersIn ((posted σ.left.log).map Frame.asReceived)) := by
    rw [← hc, transfersIn_append]; exact List.sublist_append_left _ _
  refine (h₂.filterMap _).trans ?_
  rw [transfersIn_received, transfersIn_posted, List.filterMap_map]
  unfold sentIds
  rw [show ((fun t : Transfer => t.head.deliveryId) ∘ Transfer.asReceived) = fun t => t.head.deliveryId from
    funext fun t => by simp [asReceived_head]]

theorem sentIds_nodup {s : Session} (hs : Reachable s) (hb : begun s.log < 2 ^ 32) : (sentIds s.log).Nodup := by
  rw [c22_ids_consecutive s hs]
  refine List.Nodup.map_on ?_ List.nodup_range
  intro a ha b hb' h
  have ha := List.mem_range.mp ha
  have hb' := List.mem_range.mp hb'
  have := congrArg UInt32.toNat h
  simp only [UInt32.toNat_ofNat'] at this
  omega

theorem inIds_unique {xs : List Dlv} (h : (inIds (xs.map Dlv.key)).Nodup) {i j : Nat} {x y : Dlv} (hx : xs[i]? = some x)
    (hy : xs[j]? = some y) (hsx : x.sender = false) (hsy : y.sender = false) (he : x.id = y.id) : i = j := by
  have mem : ∀ {xs : List Dlv} {i : Nat} {x : Dlv}, xs[i]? = some x → x.sender = false → x.id ∈ inIds (xs.map Dlv.key) := by
    intro xs i x hx hs
    exact List.mem_filterMap.mpr ⟨x.key, List.mem_map.mpr ⟨x, List.mem_of_getElem? hx, rfl⟩, by simp [Dlv.key, hs]⟩
  induction xs generalizing i j with
  | nil => simp at hx
  | cons z xs ih =>
    have htail : (inIds (xs.map Dlv.key)).Nodup := h.sublist (by
      show (List.filterMap _ _).Sublist (List.filterMap _ _)
      exact ((List.sublist_cons_self z xs).map _).filterMap _)
    have hz : z.sender = false → z.id ∉ inIds (xs.map Dlv.key) := by
      intro hz
      have : inIds ((z :: xs).map Dlv.key) = z.id :: inIds (xs.map Dlv.key) := by simp [inIds, Dlv.key, hz]
      rw [this] at h
      exact (List.nodup_cons.mp h).1
    rcases i with _ | i <;> rcases j with _ | j
    · rfl
    · simp at hx hy
      subst hx
      exact absurd (he ▸ mem hy hsy) (hz hsx)
    · simp at hx hy
      subst hy
      exact absurd (he ▸ mem hx hsx) (hz hsy)
    · simp at hx hy
      rw [ih htail hx hy]

/-! ## The delivery a send returns -/

/-- A send that succeeded went out, and the delivery object it returned has the id it went out with. -/
def DoneDlv (s : Session) : Prop :=
  ∀ (t : Ref) (x : SendTask) d, s.sends[t]? = some x → x.st = .done (.ok d) →
    ∃ y, s.dlv? d = some y ∧ y.sender = true ∧ .begun t x.req.link y.id ∈ s.log

theorem Micro.doneDlv {s s' : Session} (h : Micro s s') (hi : DoneDlv s) : DoneDlv s' := by
  intro t x d hx hst
  obtain ⟨evs, hevs⟩ := h.log_grows
  have old : ∀ y, s.dlv? d = some y → ∃ y', s'.dlv? d = some y' ∧ y'.sender = y.sender ∧ y'.id = y.id := by
    intro y hy
    obtain ⟨y', hy', ho⟩ := h.dlv_kept d y hy
    exact ⟨y', hy', ho.sender, ho.id⟩
  have base : ∀ z : SendTask, s.sends[t]? = some z → z.st = .done (.ok d) → z.req = x.req →
      ∃ y, s'.dlv? d = some y ∧ y.sender = true ∧ .begun t x.req.link y.id ∈ s'.log := by
    intro z hz hst hr
    obtain ⟨y, hy, hs, hm⟩ := hi t z d hz hst
    obtain ⟨y', hy', hs', hid⟩ := old y hy
    exact ⟨y', hy', hs'.trans hs, by rw [hevs, hid, ← hr]; exact List.mem_append_left _ hm⟩
  have keep : s.sends[t]? = some x → ∃ y, s'.dlv? d = some y ∧ y.sender = true ∧ .begun t x.req.link y.id ∈ s'.log :=
    fun hx => base x hx hst rfl
  have upd : ∀ (p : Ref → Prop) [DecidablePred p] (f : SendTask → SendTask),
      (∀ x, (f x).st = .done (.ok d) → f x = x) →
      (s'.sends[t]? = if p t then s.sends[t]?.map f else s.sends[t]?) →
      ∃ y, s'.dlv? d = some y ∧ y.sender = true ∧ .begun t x.req.link y.id ∈ s'.log := by
    intro p _ f hf h
    rw [h] at hx
    split at hx
    · obtain ⟨y, hy, rfl⟩ := Option.map_eq_some_iff.mp hx
      have heq := hf y hst
      exact base y hy (heq ▸ hst) (by rw [heq])
    · exact keep hx
  have wake : ∀ m x, (SendTask.wake m x).st = .done (.ok d) → SendTask.wake m x = x := by
    intro m x h
    rcases x with ⟨req, st⟩
    cases st with
    | credit tag mail => cases mail <;> simp [SendTask.wake] at h
    | window tag mail => cases mail <;> simp [SendTask.wake] at h
    | done _ => rfl
    | cancelled => rfl
  have went : ∀ (t' : Ref) (req : SendReq) id evs' y', s'.log = s.log ++ evs' → .begun t' req.link id ∈ evs' →
      s'.dlvs = s.dlvs ++ [y'] → y'.sender = true → y'.id = id →
      ∀ y : SendTask, s.sends[t']? = some y → y.req = req →
      (s'.sends[t]? = if t' = t then s.sends[t]?.map (fun x => { x with st := .done (.ok s.dlvs.length) }) else s.sends[t]?) →
      ∃ y, s'.dlv? d = some y ∧ y.sender = true ∧ .begun t x.req.link y.id ∈ s'.log := by
    intro t' req id evs' y' hl hm hd hs hid y hy hr h
    rw [h] at hx
    split at hx
    · next heq =>
      subst heq
      rw [hy] at hx
      obtain rfl := (by simpa using hx : { y with st := .done (.ok s.dlvs.length) } = x)
      obtain rfl : s.dlvs.length = d := by simpa using hst
      refine ⟨y', ?_, hs, ?_⟩
      · rw [dlv?_grown hd, if_pos rfl]
      · rw [hl, hid]
        show Ev.begun t' y.req.link id ∈ _
        rw [hr]
        exact List.mem_append_right _ hm
    · exact keep hx
  cases h
  case sendRefused =>
    rw [List.getElem?_append] at hx
    split at hx
    · exact keep hx
    · obtain ⟨_, rfl⟩ := List.getElem?_eq_some_iff.mp hx
      simp at hst
  case sendNew =>
    rw [List.getElem?_append] at hx
    split at hx
    · exact keep hx
    · obtain ⟨_, rfl⟩ := List.getElem?_eq_some_iff.mp hx
      simp at hst
  case sndFailed r e' _ hc => exact upd _ _ (wake _) (sndRemoteDetached_get s r e' t)
  case flowLink r f _ => exact upd (fun t => f.linkCredit.isSome ∧ t ∈ ((s.snd? r).map Snd.pending).getD []) _ (wake _) (applyFlow_get s r f t)
  case drainWindow p m hm => exact upd _ _ (wake _) (wakeAll_get s _ m t)
  case parkCredit t' req tag' l ht _ h => exact upd (t' = ·) _ (by simp) (modSend_get _ _ _ _)
  case parkWindow t' req tag' l ht _ h hp hw => exact upd (t' = ·) _ (by simp) (modSend_get _ _ _ _)
  case sendNow t' req tag' l ht _ h hp hw =>
    exact went t' req s.nextOutgoingId _ (newDlv true s.nextOutgoingId tag' req.settled)
      (by rw [emit_log]; simp only [takeCredit_log, List.append_assoc]; rfl) (by simp)
      (by rw [(emit_same _ _ _ _ _).dlvs]; rfl) rfl rfl _ ht rfl (emit_get _ _ _ _ _ _)
  case reparkWindow t' req tag' l ht _ hw => exact upd (t' = ·) _ (by simp) (modSend_get _ _ _ _)
  case emitParked t' req tag' l ht _ hw =>
    exact went t' req s.nextOutgoingId _ (newDlv true s.nextOutgoingId tag' req.settled) (by rw [emit_log]) (by simp)
      (by rw [(emit_same _ _ _ _ _).dlvs]; rfl) rfl rfl _ ht rfl (emit_get _ _ _ _ _ _)
  case sendFailed t' y e' hy hc => exact upd (t' = ·) _ (by simp) (finishSend_get _ _ _ _)
  case sendCancel t' =>
    refine upd (t' = ·) _ ?_ (sendCancel_get _ _ _)
    intro x h
    rcases x with ⟨req, st⟩
    cases st <;> simp at h ⊢
  all_goals exact keep (by simpa using hx)

theorem Session.Reachable.doneDlv {s : Session} (h : Reachable s) : DoneDlv s := by
  refine h.invariant ?_ (fun _ _ m hi => m.doneDlv hi)
  rintro _ ⟨id, b, mfs, ch, b, rfl⟩
  intro t x d hx; simp [Session.new] at hx

/-! ## Which message a delivery object stands for -/

/-- The sends that went out on sender link `r`, with their delivery ids. -/
def startsOn (r : Ref) (log : List Ev) : List (Ref × UInt32) := log.filterMap fun
  | .begun t r' no => if r' = r then some (t, no) else none
  | _ => none

theorem startsOn_starts (r : Ref) (log : List Ev) :
    startsOn r log = (starts log).filterMap fun p => if p.2.1 = r then some (p.1, p.2.2) else none := by
  unfold startsOn starts
  rw [List.filterMap_filterMap]
  congr 1
  funext e
  cases e <;> rfl

theorem WholeDelivery.one_id {h id : UInt32} {tag message : Bytes} {format : Option UInt32} {settled : Bool}
    {ts : List Transfer} (w : WholeDelivery h id tag message format settled ts) :
    (ts.filterMap fun t => t.head.deliveryId) = [id] := by
  have := w.ids
  have h₁ : (ts.filterMap fun t => t.head.deliveryId) = (ts.map (·.head.deliveryId)).filterMap _root_.id := by
    rw [List.filterMap_map]; rfl
  rw [h₁, this]
  simp

/-- The ids under a handle are those of its link. -/
theorem ids_of_link {s : Session} (hs : Reachable s) {h : UInt32} {r : Ref} (hr : SoleSender s h r)
    (hc : ∀ x ∈ s.sends, x.req.body.coherent) :
    ((transfersOn h (posted s.log)).filterMap fun t => t.head.deliveryId) = (startsOn r s.log).map Prod.snd ∧
    sentOn r s = (startsOn r s.log).filterMap fun p => s.sends[p.1]?.map (·.req) := by
  constructor
  · obtain ⟨ds, h₁, h₂, h₃⟩ := hs.sentInv
    rw [transfersOn_posted, h₁, startsOn_starts, h₂]
    clear h₁ h₂
    induction ds with
    | nil => rfl
    | cons d ds ih =>
      have ih := ih (fun x hx => h₃ x (by simp [hx]))
      obtain ⟨x, l, tag, hx, hlk, hl, htag, hf⟩ := h₃ d (by simp)
      obtain ⟨ts, hts, hw, _⟩ := transferFrames_spec s.maxFrameSize (UInt32.ofNat l.id) d.id tag x.req.body x.req.settled
        x.req.format (hc x (List.mem_of_getElem? hx))
      obtain rfl : ts = d.frames := by
        have hi : Function.Injective Frame.transfer := fun a b h => by injection h
        exact List.map_injective_iff.mpr hi (hts.symm.trans hf)
      rw [List.map_cons, List.flatten_cons, List.filter_append, List.filterMap_append, ih]
      by_cases hd : d.link = r
      · have : d.frames.filter (fun t => t.head.handle = h) = d.frames := by
          apply List.filter_eq_self.mpr
          intro t ht
          simp [hw.handle t ht, (hr _ _ hl).mpr hd]
        rw [this, hw.one_id]
        simp [hd]
      · have : d.frames.filter (fun t => t.head.handle = h) = [] := by
          apply List.filter_eq_nil_iff.mpr
          intro t ht
          simp only [hw.handle t ht, decide_eq_true_eq]
          exact fun e => hd ((hr _ _ hl).mp e)
        rw [this]
        simp [hd]
  · unfold sentOn startsOn
    rw [List.filterMap_filterMap]
    congr 1
    funext e
    cases e <;> try rfl
    next t r' no => dsimp only; split <;> simp

theorem assemble_one_id {ts₀ ts : List Transfer} {handle id : UInt32} {tag message : Bytes} {format : Option UInt32}
    {settled : Bool} (h : WholeDelivery handle id tag message format settled ts)
    (ho : (assemble ts₀).open_ = none) : ∃ head : TransferHead, head.deliveryId = some id ∧
      assemble (ts₀ ++ ts) = { done := (assemble ts₀).done ++ [{ head, payload := message }], open_ := none } := by
  obtain ⟨t, rest, rfl, hid, htag, _, hp, h₁, h₂⟩ := h.cons
  refine ⟨t.head, hid, ?_⟩
  show (ts₀ ++ t :: rest).foldl Assembly.add _ = _
  rw [List.foldl_append, List.foldl_cons]
  show rest.foldl Assembly.add ((assemble ts₀).add t) = _
  by_cases hr : rest = []
  · subst hr
    simp [Assembly.add, ho, h₁ rfl, ← hp]
  · rw [assemble_foldl _ { head := t.head, payload := t.payload } (by simp [Assembly.add, ho, (h₂ hr).1]) rest hr (h₂ hr).2]
    simp [Assembly.add, ho, (h₂ hr).1, hp]

/-- The messages put together have the ids of their first frames. -/
theorem assemble_ids {h : UInt32} {ds : List (SendReq × List Transfer)} (hd : ∀ d ∈ ds, DeliveryOf h d) :
    (assemble (ds.map Prod.snd).flatten).done.map (·.head.deliveryId) =
      (((ds.map Prod.snd).flatten).filterMap fun t => t.head.deliveryId).map some := by
  induction ds using List.reverseRecOn with
  | nil => rfl
  | append_singleton ds d ih =>
    have hd' : ∀ x ∈ ds, DeliveryOf h x := fun x hx => hd x (by simp [hx])
    obtain ⟨id, tag, htag, hw⟩ := hd d (by simp)
    have : ((ds ++ [d]).map Prod.snd).flatten = (ds.map Prod.snd).flatten ++ d.2 := by simp
    rw [this, List.filterMap_append, List.map_append, ← ih hd', hw.one_id]
    obtain ⟨head, hid, e⟩ := assemble_one_id hw (assemble_all hd').1
    rw [e]
    simp [hid]

/-- The ids on the frames are those of the sends. -/
theorem sentIds_starts {s : Session} (hs : Reachable s) : sentIds s.log = (starts s.log).map (·.2.2) := by
  obtain ⟨ds, h₁, h₂, h₃⟩ := hs.sentInv
  rw [sentIds, h₁, h₂]
  clear h₁ h₂
  induction ds with
  | nil => rfl
  | cons d ds ih =>
    obtain ⟨x, l, tag, _, _, _, _, hf⟩ := h₃ d (by simp)
    have := sentIds_transferFrames s.maxFrameSize (UInt32.ofNat l.id) d.id tag x.req.body x.req.settled x.req.format
    rw [hf, sentIds, sentTransfers_frames] at this
    rw [List.map_cons, List.flatten_cons, List.filterMap_append, this, ih fun x hx => h₃ x (by simp [hx])]
    rfl

/-- No two sends have the same id. -/
theorem starts_unique {s : Session} (hs : Reachable s) (hb : begun s.log < 2 ^ 32) {t r t' r' : Ref} {no : UInt32}
    (h : .begun t r no ∈ s.log) (h' : .begun t' r' no ∈ s.log) : t = t' ∧ r = r' := by
  have hn := sentIds_nodup hs hb
  rw [sentIds_starts hs] at hn
  have m : (t, r, no) ∈ starts s.log := List.mem_filterMap.mpr ⟨_, h, rfl⟩
  have m' : (t', r', no) ∈ starts s.log := List.mem_filterMap.mpr ⟨_, h', rfl⟩
  have := List.inj_on_of_nodup_map hn m m' rfl
  simpa using this

theorem starts_known {s : Session} (hs : Reachable s) {t r : Ref} {no : UInt32} (h : .begun t r no ∈ s.log) :
    ∃ x, s.sends[t]? = some x := by
  obtain ⟨ds, _, h₂, h₃⟩ := hs.sentInv
  have m : (t, r, no) ∈ starts s.log := List.mem_filterMap.mpr ⟨_, h, rfl⟩
  rw [h₂] at m
  obtain ⟨d, hd, he⟩ := List.mem_map.mp m
  obtain ⟨x, _, _, hx, _⟩ := h₃ d hd
  obtain rfl : d.task = t := congrArg Prod.fst he
  exact ⟨x, hx⟩

theorem begun_of_startsOn {r : Ref} {log : List Ev} {p : Ref × UInt32} (h : p ∈ startsOn r log) : .begun p.1 r p.2 ∈ log := by
  obtain ⟨e, he, hee⟩ := List.mem_filterMap.mp h
  cases e <;> simp at hee
  obtain ⟨rfl, rfl⟩ := hee
  exact he

theorem filterMap_total {α β : Type} {f : α → Option β} {l : List α} (h : ∀ a ∈ l, (f a).isSome) (i : Nat) :
    (l.filterMap f)[i]? = l[i]?.bind f := by
  induction l generalizing i with
  | nil => simp
  | cons a l ih =>
    obtain ⟨b, hb⟩ := Option.isSome_iff_exists.mp (h a (by simp))
    rw [List.filterMap_cons_some hb]
    rcases i with _ | i
    · simp [hb]
    · simp [ih fun x hx => h x (by simp [hx])]

end Amqp.Rt
