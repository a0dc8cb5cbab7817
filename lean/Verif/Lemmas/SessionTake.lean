import Verif.Lemmas.SessionRcv
/-!
# What a transfer frame does to an established receiver link
-/

namespace Amqp.Rt
open Session

theorem peer_transfer_eq {s : Session} {t : Transfer} {k : Nat} {r : Ref} (he : s.error = none)
    (hk : s.remoteHandles.get t.head.handle = some k) (hl : s.links.get k = some (.rcv (.established r))) :
    s.step (.peer (.transfer t)) = ((s.note (.peer (.transfer t))).handleTransfer r t).1 := by
  show finishFrame ((s.note _).handleFrame _) = _
  unfold handleFrame
  rw [if_neg (by simp [note, he])]
  dsimp only
  rw [show (s.note (.peer (.transfer t))).remoteHandles = s.remoteHandles from rfl, hk]
  dsimp only
  rw [show (s.note (.peer (.transfer t))).links = s.links from rfl, hl]
  dsimp only
  rcases handleTransfer_action (s.note (.peer (.transfer t))) r t with h | h
  · unfold finishFrame; dsimp only; rw [h]; rfl
  · unfold finishFrame; dsimp only; rw [h]; rfl

/-- The frame is accepted. -/
structure Takes (s : Session) (r : Ref) (l : Rcv) (t : Transfer) (s' : Session) : Prop where
  links : s'.links = s.links
  remoteHandles : s'.remoteHandles = s.remoteHandles
  error : s'.error = s.error
  snds : s'.snds = s.snds
  log : s'.log = s.log ++ [.peer (.transfer t), .received r t] ∨
    s'.log = s.log ++ [.peer (.transfer t), .received r t, .overflow]
  others : ∀ r', r ≠ r' → s'.rcv? r' = s.rcv? r'
  link : ∃ l', s'.rcv? r = some l' ∧ l'.credit = l.charged t ∧
    l'.partialBody = (if t.head.more then some (l.partialBody.getD [] ++ t.payload) else none) ∧
    l'.maxMessageSize = l.maxMessageSize ∧ l'.closed = l.closed ∧ l'.handle = l.handle ∧
    l'.deliveryCount = (if t.head.more then l.deliveryCount else l.deliveryCount + 1)

theorem Takes.overflow {s : Session} {r : Ref} {l : Rcv} {t : Transfer} {s' : Session} (h : Takes s r l t s')
    (hl : s'.log = s.log ++ [.peer (.transfer t), .received r t]) : Takes s r l t (s'.note .overflow) :=
  ⟨h.links, h.remoteHandles, h.error, h.snds, .inr (by simp [note, hl]), h.others, h.link⟩

theorem handleTransfer_takes {s : Session} {t : Transfer} {r : Ref} {l : Rcv} (hl : s.rcv? r = some l)
    (hc : l.credit ≠ 0) (hr : ¬ Refusable s l t) (hq : l.partialBody.isSome → l.queue ≠ []) :
    Takes s r l t ((s.note (.peer (.transfer t))).handleTransfer r t).1 := by
  unfold handleTransfer
  rw [show (s.note (.peer (.transfer t))).rcv? r = s.rcv? r from rfl, hl]
  dsimp only
  rw [if_neg hc]
  cases hb : l.partialBody with
  | none =>
    obtain ⟨id, hid⟩ : ∃ id, t.head.deliveryId = some id := by
      unfold Refusable at hr
      rw [hb] at hr
      exact Option.ne_none_iff_exists'.mp hr
    unfold beginTransfer
    dsimp only
    rw [hid]
    dsimp only
    cases hm : t.head.more with
    | true =>
      rw [if_pos rfl, charge_more hm]
      refine ⟨by simp, by simp, by simp, by simp, .inl (by simp [note]), ?_, ?_⟩
      · intro r' hne
        rw [rcv?_startDelivery, if_neg hne, rcv?_modRcv, if_neg hne]; rfl
      · rw [rcv?_startDelivery, if_pos rfl, rcv?_modRcv, if_pos rfl]
        simp only [show ((s.note (.peer (.transfer t))).note (.received r t)).rcv? r = s.rcv? r from rfl, hl]
        exact ⟨_, rfl, by simp [Rcv.charged, hm], by simp [optEnc_payload, hm, hb], rfl, rfl, rfl, by simp [hm]⟩
    | false =>
      rw [if_neg (by simp), charge_note, charge_last hm]
      have key : Takes s r l t (((s.note (.peer (.transfer t))).note (.received r t)).modRcv r
          (fun l => { l with credit := l.credit - 1, deliveryCount := l.deliveryCount + 1 }) |>.startDelivery r l id t) := by
        refine ⟨by simp, by simp, by simp, by simp, .inl (by simp [note]), ?_, ?_⟩
        · intro r' hne
          rw [rcv?_startDelivery, if_neg hne, rcv?_modRcv, if_neg hne]; rfl
        · rw [rcv?_startDelivery, if_pos rfl, rcv?_modRcv, if_pos rfl]
          simp only [show ((s.note (.peer (.transfer t))).note (.received r t)).rcv? r = s.rcv? r from rfl, hl]
          exact ⟨_, rfl, by simp [Rcv.charged, hm], by simp [hm, hb], rfl, rfl, rfl, by simp [hm]⟩
      rcases countDelivery_eq (l := l) r with h | h
      · rw [h, modRcv_modRcv]
        exact key
      · rw [h, modRcv_modRcv, startDelivery_note]
        exact key.overflow (by simp [note])
  | some body =>
    have hback : ((s.note (.peer (.transfer t))).charge r t).backId l = s.backId l :=
      backId_congr (charge_dlvs _ _ _) l
    unfold Refusable at hr
    rw [hb] at hr
    dsimp only at hr
    dsimp only
    unfold continueTransfer
    rw [hback, if_neg (fun h => hr (.inl h)), if_neg (fun h => hr (.inr h))]
    dsimp only
    cases hm : t.head.more with
    | true =>
      rw [if_pos rfl, charge_more hm]
      refine ⟨by simp, by simp, by simp, by simp, .inl (by simp [note]), ?_, ?_⟩
      · intro r' hne
        rw [rcv?_modRcv, if_neg hne]; rfl
      · rw [rcv?_modRcv, if_pos rfl]
        simp only [show ((s.note (.peer (.transfer t))).note (.received r t)).rcv? r = s.rcv? r from rfl, hl]
        exact ⟨_, rfl, by simp [Rcv.charged, hm], by simp [optEnc_payload, hm, hb], rfl, rfl, rfl, by simp [hm]⟩
    | false =>
      rw [if_neg (by simp), if_pos (hq (by simp [hb])), charge_note, charge_last hm]
      have key : Takes s r l t (((s.note (.peer (.transfer t))).note (.received r t)).modRcv r
          (fun l => { l with credit := l.credit - 1, partialBody := none, deliveryCount := l.deliveryCount + 1
                             queue := setBackBody l.queue (body ++ optEnc TransferBody.tenc t.body) })) := by
        refine ⟨by simp, by simp, by simp, by simp, .inl (by simp [note]), ?_, ?_⟩
        · intro r' hne
          rw [rcv?_modRcv, if_neg hne]; rfl
        · rw [rcv?_modRcv, if_pos rfl]
          simp only [show ((s.note (.peer (.transfer t))).note (.received r t)).rcv? r = s.rcv? r from rfl, hl]
          exact ⟨_, rfl, by simp [Rcv.charged, hm], by simp [hm], rfl, rfl, rfl, by simp [hm]⟩
      rcases countDelivery_eq (l := l) r with h | h
      · rw [h, modRcv_modRcv, modRcv_modRcv, modRcv_modRcv, modRcv_modRcv]
        exact key
      · rw [h, note_modRcv, note_modRcv, modRcv_modRcv, modRcv_modRcv, modRcv_modRcv,
          modRcv_modRcv]
        exact key.overflow (by simp [note])

/-! ## Refusing a frame -/

/-- The frame is refused and the link closed with error `e`. -/
structure Declines (s : Session) (r : Ref) (l : Rcv) (t : Transfer) (e : Option Error) (s' : Session) : Prop where
  links : s'.links = s.links.set l.handle.toNat (.rcv (.closing (some s.ops)))
  log : s'.log = s.log ++ [.peer (.transfer t), .declined r t,
    .frame (.detach { handle := l.handle, closed := true, error := e }),
    .control (.localDetachReceiver { handle := l.handle, closed := true, error := e } r)]
  others : ∀ r', r ≠ r' → s'.rcv? r' = s.rcv? r'
  link : ∃ l', s'.rcv? r = some l' ∧ l'.queue = l.queue ∧ l'.partialBody = l.partialBody ∧ l'.closed = true

theorem closeReceiver_established {a : Session} {r : Ref} {l : Rcv} {e : Option Error} (hl : a.rcv? r = some l)
    (hc : l.closed = false) (hk : a.links.get l.handle.toNat = some (.rcv (.established r))) :
    (a.closeReceiver r e).links = a.links.set l.handle.toNat (.rcv (.closing (some a.ops))) ∧
    (a.closeReceiver r e).log = a.log ++ [.frame (.detach { handle := l.handle, closed := true, error := e }),
      .control (.localDetachReceiver { handle := l.handle, closed := true, error := e } r)] ∧
    (∀ r', r ≠ r' → (a.closeReceiver r e).rcv? r' = a.rcv? r') ∧
    (a.closeReceiver r e).rcv? r = some { l with closed := true } := by
  have hk' : a.newOp.links.get l.handle.toNat = some (.rcv (.established r)) := hk
  unfold closeReceiver
  rw [hl]
  dsimp only
  rw [hc, if_neg (by simp)]
  unfold detachReceiver
  dsimp only
  rw [hk']
  dsimp only
  unfold setLink
  rw [hk']
  dsimp only
  refine ⟨rfl, ?_, ?_, ?_⟩
  · simp [note, post, dropLink, newOp]
  · intro r' hne
    rw [rcv?_modRcv, if_neg hne]
    show (dropLink _ _).rcv? r' = _
    unfold dropLink
    rw [rcv?_modRcv, if_neg hne]; rfl
  · rw [rcv?_modRcv, if_pos rfl]
    show ((dropLink _ _).rcv? r).map _ = _
    unfold dropLink
    rw [rcv?_modRcv, if_pos rfl]
    show ((a.rcv? r).map _).map _ = _
    rw [hl]; rfl

/-- The error a link is closed with when it refuses a frame (rcvlink.rs:301-450). -/
def declineError (s : Session) (l : Rcv) (t : Transfer) : Option Error :=
  if l.credit = 0 then linkError .transferLimitExceeded none
  else if l.partialBody.isSome then
    if t.head.deliveryId.isSome ∧ s.backId l ≠ t.head.deliveryId then
      linkError .detachForced (some (text "delivery_id is wrong"))
    else linkError .messageSizeExceeded none
  else linkError .detachForced (some (text "delivery_id is required"))

theorem handleTransfer_declines {s : Session} {t : Transfer} {r : Ref} {l : Rcv} (hl : s.rcv? r = some l)
    (hc : l.closed = false) (hk : s.links.get l.handle.toNat = some (.rcv (.established r)))
    (hr : l.credit = 0 ∨ Refusable s l t) :
    Declines s r l t (declineError s l t) ((s.note (.peer (.transfer t))).handleTransfer r t).1 := by
  have key : ∀ (a : Session) (c : UInt32) (e : Option Error),
      a = ((s.note (.peer (.transfer t))).note (.declined r t)).modRcv r (fun l => { l with credit := c }) →
      Declines s r l t e (a.closeReceiver r e) := by
    intro a c e ha
    have hla : a.rcv? r = some { l with credit := c } := by
      rw [ha, rcv?_modRcv, if_pos rfl]
      show (s.rcv? r).map _ = _
      rw [hl]; rfl
    have hka : a.links.get l.handle.toNat = some (.rcv (.established r)) := by rw [ha]; exact hk
    obtain ⟨h₁, h₂, h₃, h₄⟩ := closeReceiver_established (e := e) hla hc hka
    refine ⟨by rw [h₁, ha]; rfl, by rw [h₂, ha]; simp [note], ?_, ?_⟩
    · intro r' hne
      rw [h₃ r' hne, ha, rcv?_modRcv, if_neg hne]; rfl
    · exact ⟨_, h₄, rfl, rfl, rfl⟩
  have self : ∀ a : Session, a.rcv? r = some l → a.modRcv r (fun l' => { l' with credit := l.credit }) = a := by
    intro a h
    unfold modRcv
    have : a.rcvs.modify r (fun l' => { l' with credit := l.credit }) = a.rcvs := by
      refine List.ext_getElem? fun i => ?_
      rw [List.getElem?_modify]
      simp only [rcv?] at h
      split
      · next hi => subst hi; rw [h]; rfl
      · simp
    rw [this]
  have chg : ((s.note (.peer (.transfer t))).charge r t).note (.declined r t)
      = ((s.note (.peer (.transfer t))).note (.declined r t)).modRcv r (fun l' => { l' with credit := l.charged t }) := by
    rw [charge_note]
    cases hm : t.head.more with
    | true =>
      rw [charge_more hm]
      have : l.charged t = l.credit := by simp [Rcv.charged, hm]
      rw [this, self ((s.note (.peer (.transfer t))).note (.declined r t)) hl]
    | false =>
      have : l.charged t = l.credit - 1 := by simp [Rcv.charged, hm]
      rw [charge_last hm, this]
      unfold modRcv
      have : ∀ a : Session, a.rcv? r = some l → a.rcvs.modify r (fun l => { l with credit := l.credit - 1 })
          = a.rcvs.modify r (fun l' => { l' with credit := l.credit - 1 }) := by
        intro a h
        refine List.ext_getElem? fun i => ?_
        rw [List.getElem?_modify, List.getElem?_modify]
        simp only [rcv?] at h
        split
        · next hi => subst hi; rw [h]; rfl
        · rfl
      rw [this ((s.note (.peer (.transfer t))).note (.declined r t)) hl]
  unfold handleTransfer declineError
  rw [show (s.note (.peer (.transfer t))).rcv? r = s.rcv? r from rfl, hl]
  dsimp only
  by_cases h0 : l.credit = 0
  · rw [if_pos h0, if_pos h0]
    exact key _ l.credit _ (self ((s.note (.peer (.transfer t))).note (.declined r t)) hl).symm
  · rw [if_neg h0, if_neg h0]
    have hr : Refusable s l t := hr.resolve_left h0
    cases hb : l.partialBody with
    | none =>
      unfold Refusable at hr
      rw [hb] at hr
      dsimp only at hr
      rw [if_neg (by simp)]
      dsimp only
      unfold beginTransfer
      rw [hr]
      exact key _ _ _ chg
    | some body =>
      unfold Refusable at hr
      rw [hb] at hr
      dsimp only at hr
      have hback : ((s.note (.peer (.transfer t))).charge r t).backId l = s.backId l :=
        backId_congr (charge_dlvs _ _ _) l
      rw [if_pos (by simp)]
      dsimp only
      unfold continueTransfer
      rw [hback]
      split
      · exact key _ _ _ chg
      · next hw =>
        rw [if_pos (hr.resolve_left hw)]
        exact key _ _ _ chg

theorem Declines.gone {s s' : Session} {r : Ref} {l : Rcv} {t : Transfer} {e : Option Error} (h : Declines s r l t e s')
    (hs : RcvSlots s) (hk : s.links.get l.handle.toNat = some (.rcv (.established r))) : Gone s' r := by
  obtain ⟨l', hl', _⟩ := h.link
  refine ⟨⟨l', hl'⟩, fun k x hx hr => ?_⟩
  rw [h.links] at hx
  rcases Slab.get_set_some hx with ⟨_, rfl⟩ | ⟨hne, hx⟩
  · cases hr
  · exact hne (hs.unique k _ x _ r hx hk hr rfl).symm

/-! ## Delivery counts -/

theorem completedOn_append (r : Ref) (a b : List Ev) : completedOn r (a ++ b) = completedOn r a + completedOn r b := by
  simp [completedOn, receivedOn_append]

theorem completedOn_quiet {evs : List Ev} (h : ∀ e ∈ evs, ¬ e.Receiving) (r : Ref) : completedOn r evs = 0 := by
  simp [completedOn, receivedOn_quiet h]

theorem RcvAct.count {s : Session} {r : Ref} {l l' : Rcv} {e : Ev} (h : RcvAct s r l e l') :
    l'.deliveryCount = l.deliveryCount + UInt32.ofNat (completedOn r [e]) := by
  cases h <;> simp_all [completedOn, receivedOn]

/-- The delivery count of a link, without the deliveries completed. -/
def baseCount (s : Session) (r : Ref) : Option UInt32 :=
  (s.rcv? r).map fun l => l.deliveryCount - UInt32.ofNat (completedOn r s.log)

theorem Micro.baseCount {s s' : Session} (h : Micro s s') {r : Ref} {c : UInt32} (hi : baseCount s r = some c) :
    baseCount s' r = some c := by
  obtain ⟨l, hl, hc⟩ := Option.map_eq_some_iff.mp hi
  unfold Rt.baseCount
  cases h.rcv
  case quiet evs hlog he hr =>
    have := hr r
    rw [hl] at this
    obtain ⟨l', hl', hcore⟩ := Option.map_eq_some_iff.mp this
    rw [hl', hlog, completedOn_append, completedOn_quiet he, ← hc]
    simp [(core_eq hcore).2.2.2.2.2]
  case new _ _ a hlog hr =>
    rw [rcv?_grown hr, if_neg (Nat.ne_of_lt (rcv?_lt hl)), hl, hlog, ← hc]; rfl
  case reset k₀ r₀ op hk hlog hr =>
    rw [hr, hlog, hl, ← hc]
    split <;> rfl
  case act r₀ l₀ e l₀' hg hlog hr ha hdl =>
    rw [hr, hlog]
    split
    · next h =>
      subst h
      obtain rfl : l₀ = l := by rw [hg] at hl; exact Option.some.inj hl
      rw [completedOn_append, ← hc]
      simp only [Option.map_some, ha.count, UInt32.ofNat_add]
      congr 1
      generalize UInt32.ofNat (completedOn r₀ s.log) = a
      generalize UInt32.ofNat (completedOn r₀ [e]) = b
      grind
    · next h =>
      have : completedOn r [e] = 0 := by simp [completedOn, (ha.evs r (fun h' => h h'.symm)).1]
      rw [hl, completedOn_append, this, ← hc]
      simp

theorem baseCount_run {s : Session} {r : Ref} {c : UInt32} (h : baseCount s r = some c) (steps : List Step) :
    baseCount (s.run steps) r = some c :=
  (run_micros s steps).invariant (P := fun s' => baseCount s' r = some c) (fun _ _ hm h => hm.baseCount h) h

/-! ## The delivery a link is assembling -/

theorem opened_of_open {s : Session} (h : Reachable s) {r : Ref} {l : Rcv} {m : Arrival} (hl : s.rcv? r = some l)
    (ho : (assemble (receivedOn r s.log)).open_ = some m) :
    l.partialBody = some m.payload ∧ s.backId l = m.head.deliveryId := by
  have ha := h.rcvInv.assembled r l hl
  cases hb : l.partialBody with
  | none => rw [(ha.closed hb).1] at ho; cases ho
  | some body =>
    obtain ⟨q, d, t, hq, ho', _⟩ := ha.opened body hb
    rw [ho] at ho'
    obtain rfl := Option.some.inj ho'
    refine ⟨rfl, ?_⟩
    have hm : (d, t.head) ∈ keys s r := by
      unfold keys
      rw [hl]
      simp only [Option.map_some, Option.getD_some, List.mem_map]
      exact ⟨(d, t), by simp [hq], rfl⟩
    obtain ⟨x, hx, _, hid, _⟩ := h.ownDlv.object r d t.head hm
    simp [backId, hq, hx, hid]

theorem not_opened {s : Session} (h : Reachable s) {r : Ref} {l : Rcv} (hl : s.rcv? r = some l)
    (ho : (assemble (receivedOn r s.log)).open_ = none) : l.partialBody = none := by
  cases hb : l.partialBody with
  | none => rfl
  | some body =>
    obtain ⟨q, d, t, hq, ho', _⟩ := (h.rcvInv.assembled r l hl).opened body hb
    rw [ho] at ho'; cases ho'

theorem queue_of_opened {s : Session} (h : Reachable s) {r : Ref} {l : Rcv} (hl : s.rcv? r = some l) :
    l.partialBody.isSome → l.queue ≠ [] := by
  intro hb
  obtain ⟨body, hb⟩ := Option.isSome_iff_exists.mp hb
  obtain ⟨q, d, t, hq, _⟩ := (h.rcvInv.assembled r l hl).opened body hb
  rw [hq]; simp

theorem Takes.receivedOn {s s' : Session} {r : Ref} {l : Rcv} {t : Transfer} (h : Takes s r l t s') (r' : Ref) :
    receivedOn r' s'.log = receivedOn r' s.log ++ (if r = r' then [t] else []) := by
  rcases h.log with h | h <;> rw [h] <;> by_cases hr : r = r' <;> simp [Rt.receivedOn, hr]

theorem Takes.handedOn {s s' : Session} {r : Ref} {l : Rcv} {t : Transfer} (h : Takes s r l t s') (r' : Ref) :
    handedOn r' s'.log = handedOn r' s.log := by
  rcases h.log with h | h <;> rw [h] <;> simp [Rt.handedOn]

theorem Declines.receivedOn {s s' : Session} {r : Ref} {l : Rcv} {t : Transfer} {e} (h : Declines s r l t e s') (r' : Ref) :
    receivedOn r' s'.log = receivedOn r' s.log := by
  rw [h.log]; simp [Rt.receivedOn]

theorem Declines.handedOn {s s' : Session} {r : Ref} {l : Rcv} {t : Transfer} {e} (h : Declines s r l t e s') (r' : Ref) :
    handedOn r' s'.log = handedOn r' s.log := by
  rw [h.log]; simp [Rt.handedOn]

theorem handed_prefix {s : Session} (h : Reachable s) (r : Ref) :
    (handedOn r s.log).map (·.2.asArrival) <+: (assemble (receivedOn r s.log)).done := by
  cases hl : s.rcv? r with
  | none =>
    rw [(h.rcvInv.absent r hl).2]
    exact List.nil_prefix
  | some l =>
    have ha := h.rcvInv.assembled r l hl
    cases hb : l.partialBody with
    | none =>
      rw [← (ha.closed hb).2, List.map_append]
      exact List.prefix_append _ _
    | some body =>
      obtain ⟨q, d, t, _, _, hd⟩ := ha.opened body hb
      rw [← hd, List.map_append]
      exact List.prefix_append _ _

/-! ## Whole deliveries -/

theorem assemble_foldl (a : Assembly) (m : Arrival) (ho : a.open_ = some m) :
    ∀ rest : List Transfer, rest ≠ [] → rest.map (·.head.more) = List.replicate (rest.length - 1) true ++ [false] →
      rest.foldl Assembly.add a = { done := a.done ++ [{ m with payload := m.payload ++ (rest.map Transfer.payload).flatten }]
                                    open_ := none } := by
  intro rest
  induction rest generalizing a m with
  | nil => intro h; exact absurd rfl h
  | cons t rest ih =>
    intro _ hm
    cases rest with
    | nil =>
      have : t.head.more = false := by simpa using hm
      simp [Assembly.add, ho, this]
    | cons t' rest =>
      have h₁ : t.head.more = true ∧ (t' :: rest).map (·.head.more)
          = List.replicate ((t' :: rest).length - 1) true ++ [false] := by
        simp only [List.map_cons, List.length_cons, Nat.add_sub_cancel, List.replicate_succ, List.cons_append,
          List.cons.injEq] at hm ⊢
        exact hm
      rw [List.foldl_cons, ih (a.add t) { m with payload := m.payload ++ t.payload } ?_ (by simp) h₁.2]
      · simp [Assembly.add, ho, h₁.1]
      · simp [Assembly.add, ho, h₁.1]

theorem WholeDelivery.cons {handle id : UInt32} {tag message : Bytes} {format : Option UInt32} {settled : Bool}
    {ts : List Transfer} (h : WholeDelivery handle id tag message format settled ts) :
    ∃ t rest, ts = t :: rest ∧ t.head.deliveryId = some id ∧ t.head.deliveryTag = some tag ∧
      (∀ t' ∈ rest, t'.head.deliveryId = none) ∧ t.payload ++ (rest.map Transfer.payload).flatten = message ∧
      (rest = [] → t.head.more = false) ∧
      (rest ≠ [] → t.head.more = true ∧ rest.map (·.head.more) = List.replicate (rest.length - 1) true ++ [false]) := by
  obtain ⟨hid, htag, _, hmore, _, _, _, hp⟩ := h
  cases ts with
  | nil => simp at hid
  | cons t rest =>
    refine ⟨t, rest, rfl, ?_, ?_, ?_, by simpa using hp, ?_, ?_⟩
    · simp at hid; exact hid.1
    · simp at htag; exact htag.1
    · simp only [List.map_cons, List.length_cons, Nat.add_sub_cancel, List.cons.injEq] at hid
      intro t' ht'
      have : t'.head.deliveryId ∈ rest.map (·.head.deliveryId) := List.mem_map.mpr ⟨t', ht', rfl⟩
      rw [hid.2] at this
      exact (List.mem_replicate.mp this).2
    · rintro rfl; simpa using hmore
    · intro hne
      cases rest with
      | nil => exact absurd rfl hne
      | cons t' rest =>
        simp only [List.map_cons, List.length_cons, Nat.add_sub_cancel, List.replicate_succ, List.cons_append,
          List.cons.injEq] at hmore ⊢
        exact hmore

theorem assemble_whole {ts₀ ts : List Transfer} {handle id : UInt32} {tag message : Bytes} {format : Option UInt32}
    {settled : Bool} (h : WholeDelivery handle id tag message format settled ts)
    (ho : (assemble ts₀).open_ = none) : ∃ head : TransferHead, head.deliveryId = some id ∧ head.deliveryTag = some tag ∧
      assemble (ts₀ ++ ts) = { done := (assemble ts₀).done ++ [{ head, payload := message }], open_ := none } := by
  obtain ⟨t, rest, rfl, hid, htag, _, hp, h₁, h₂⟩ := h.cons
  refine ⟨t.head, hid, htag, ?_⟩
  show (ts₀ ++ t :: rest).foldl Assembly.add _ = _
  rw [List.foldl_append, List.foldl_cons]
  show rest.foldl Assembly.add ((assemble ts₀).add t) = _
  by_cases hr : rest = []
  · subst hr
    simp [Assembly.add, ho, h₁ rfl, ← hp]
  · rw [assemble_foldl _ { head := t.head, payload := t.payload } (by simp [Assembly.add, ho, (h₂ hr).1]) rest hr (h₂ hr).2]
    simp [Assembly.add, ho, (h₂ hr).1, hp]

end Amqp.Rt
