import Verif.Lemmas.SessionTake
import Verif.Props.Blocked
import Mathlib.Data.List.Induction
/-!
# Receiving: C30, C31, C32, C43
-/

namespace Amqp.Rt
open Session Examples

/-- The peer uses `handle` for receiver link `r`, which is established (under a handle of ours that fits the protocol). -/
def Addressed (s : Session) (handle : UInt32) (r : Ref) : Prop :=
  s.error = none ∧ ∃ k, k < 2 ^ 32 ∧ s.remoteHandles.get handle = some k ∧ s.links.get k = some (.rcv (.established r))

/-- A remote peer attaches a sender under its handle 5, both services accept it: receiver link 0 with 50 units of credit. -/
def attachRcv : List Step := [.peer (.attach (anAttach "q" 5 .sender)), pass 0, pass 0]

def transfers (ts : List Transfer) : List Step := ts.map fun t => .peer (.transfer t)

theorem reachable_run {s : Session} (h : Reachable s) (steps : List Step) : Reachable (s.run steps) := by
  obtain ⟨s₀, st, hf, rfl⟩ := h
  exact ⟨s₀, st ++ steps, hf, by simp [Session.run]⟩

theorem Addressed.slot {s : Session} (h : Reachable s) {handle : UInt32} {r : Ref} {l : Rcv} (ha : Addressed s handle r)
    (hl : s.rcv? r = some l) : s.remoteHandles.get handle = some l.handle.toNat ∧
      s.links.get l.handle.toNat = some (.rcv (.established r)) := by
  obtain ⟨_, k, hk, h₁, h₂⟩ := ha
  obtain ⟨l', hl', hh⟩ := h.rcvSlots.handle k _ r h₂ rfl
  obtain rfl : l' = l := by rw [hl] at hl'; exact (Option.some.inj hl').symm
  have : l'.handle.toNat = k := by rw [hh]; simpa using Nat.mod_eq_of_lt hk
  rw [this]
  exact ⟨h₁, h₂⟩

/-! ## Frames that are taken in -/

/-- **C31** A frame that begins a delivery is taken in if there is credit; nothing else changes. -/
theorem takes_first {s : Session} {r : Ref} {l : Rcv} {t : Transfer} (h : Reachable s) (ha : Addressed s t.head.handle r)
    (hl : s.rcv? r = some l) (hc : l.credit ≠ 0) (ho : (assemble (receivedOn r s.log)).open_ = none)
    (hid : t.head.deliveryId.isSome) : Takes s r l t (s.step (.peer (.transfer t))) := by
  obtain ⟨h₁, h₂⟩ := ha.slot h hl
  rw [peer_transfer_eq ha.1 h₁ h₂]
  refine handleTransfer_takes hl hc ?_ (queue_of_opened h hl)
  unfold Refusable
  rw [not_opened h hl ho]
  intro h
  rw [h] at hid
  cases hid

/-- A frame continues the message `m`: it carries no delivery id, or that of the message. -/
def FrameOf (t : Transfer) (m : Arrival) : Prop := t.head.deliveryId = none ∨ t.head.deliveryId = m.head.deliveryId

theorem takes_next {s : Session} {r : Ref} {l : Rcv} {t : Transfer} {m : Arrival} (h : Reachable s)
    (ha : Addressed s t.head.handle r) (hl : s.rcv? r = some l) (hc : l.credit ≠ 0)
    (ho : (assemble (receivedOn r s.log)).open_ = some m) (hid : FrameOf t m)
    (hs : t.body.isSome → m.payload.length + optSum TransferBody.esize t.body ≤ l.maxMessageSize.toNat) :
    Takes s r l t (s.step (.peer (.transfer t))) := by
  obtain ⟨h₁, h₂⟩ := ha.slot h hl
  obtain ⟨hb, hback⟩ := opened_of_open h hl ho
  rw [peer_transfer_eq ha.1 h₁ h₂]
  refine handleTransfer_takes hl hc ?_ (queue_of_opened h hl)
  unfold Refusable
  rw [hb, hback]
  rintro (⟨h₃, h₄⟩ | ⟨h₃, h₄⟩)
  · rcases hid with hid | hid
    · rw [hid] at h₃; cases h₃
    · exact h₄ hid.symm
  · exact absurd (hs h₃) (Nat.not_le.mpr h₄)

theorem Takes.addressed {s s' : Session} {r : Ref} {l : Rcv} {t : Transfer} {handle : UInt32} (h : Takes s r l t s')
    (ha : Addressed s handle r) : Addressed s' handle r := by
  obtain ⟨he, k, hk, h₁, h₂⟩ := ha
  exact ⟨by rw [h.error]; exact he, k, hk, by rw [h.remoteHandles]; exact h₁, by rw [h.links]; exact h₂⟩

/-- The payload of a frame as the decoder produces it. -/
def Plain (t : Transfer) : Prop := ∀ b, t.body = some b → ∃ p, b = .data p

theorem Plain.size {t : Transfer} (h : Plain t) : optSum TransferBody.esize t.body = t.payload.length := by
  unfold Transfer.payload
  cases hb : t.body with
  | none => rfl
  | some b =>
    obtain ⟨p, rfl⟩ := h b hb
    simp [optSum, TransferBody.esize, TransferBody.tenc]

/-- The frames after the first. -/
theorem run_rest {r : Ref} {handle : UInt32} : ∀ (rest : List Transfer) (s : Session) (l : Rcv) (m : Arrival),
    Reachable s → Addressed s handle r → s.rcv? r = some l → l.credit ≠ 0 →
    (assemble (receivedOn r s.log)).open_ = some m → rest ≠ [] →
    rest.map (·.head.more) = List.replicate (rest.length - 1) true ++ [false] →
    (∀ t ∈ rest, t.head.deliveryId = none ∧ t.head.handle = handle ∧ Plain t) →
    m.payload.length + (rest.map Transfer.payload).flatten.length ≤ l.maxMessageSize.toNat →
    (∀ r', receivedOn r' (s.run (transfers rest)).log = receivedOn r' s.log ++ if r = r' then rest else []) ∧
    (∀ r', handedOn r' (s.run (transfers rest)).log = handedOn r' s.log) ∧
    Addressed (s.run (transfers rest)) handle r ∧
    ∃ l', (s.run (transfers rest)).rcv? r = some l' ∧ l'.credit = l.credit - 1 := by
  intro rest
  induction rest with
  | nil => intro s l m _ _ _ _ _ h; exact absurd rfl h
  | cons t rest ih =>
    intro s l m h ha hl hc ho _ hm hall hs
    obtain ⟨hid, hh, hpl⟩ := hall t (by simp)
    subst hh
    have htk := takes_next h ha hl hc ho (.inl hid) (fun _ => by
      rw [hpl.size]
      simp only [List.map_cons, List.flatten_cons, List.length_append] at hs
      omega)
    obtain ⟨l', hl', hcr, hpb, hmx, _⟩ := htk.link
    have hrun : s.run (transfers (t :: rest)) = (s.step (.peer (.transfer t))).run (transfers rest) := rfl
    rw [hrun]
    cases rest with
    | nil =>
      have hmf : t.head.more = false := by simpa using hm
      refine ⟨fun r' => htk.receivedOn r', fun r' => htk.handedOn r', htk.addressed ha, l', hl', ?_⟩
      rw [hcr]; simp [Rcv.charged, hmf]
    | cons t' rest =>
      obtain ⟨hmt, hm'⟩ : t.head.more = true ∧ (t' :: rest).map (·.head.more)
          = List.replicate ((t' :: rest).length - 1) true ++ [false] := by
        simp only [List.map_cons, List.length_cons, Nat.add_sub_cancel, List.replicate_succ, List.cons_append,
          List.cons.injEq] at hm ⊢
        exact hm
      have hcr' : l'.credit = l.credit := by rw [hcr]; simp [Rcv.charged, hmt]
      have ho' : (assemble (receivedOn r (s.step (.peer (.transfer t))).log)).open_
          = some { m with payload := m.payload ++ t.payload } := by
        rw [htk.receivedOn, if_pos rfl, assemble_append, Assembly.add, ho, hmt]; rfl
      obtain ⟨i₁, i₂, i₃, l'', i₄, i₅⟩ := ih (s.step (.peer (.transfer t))) l' _ (reachable_step h _) (htk.addressed ha) hl'
        (by rw [hcr']; exact hc) ho' (by simp) hm' (fun x hx => hall x (by simp [hx])) (by
          rw [hmx]
          simp only [List.map_cons, List.flatten_cons, List.length_append] at hs ⊢
          omega)
      refine ⟨fun r' => ?_, fun r' => (i₂ r').trans (htk.handedOn r'), i₃, l'', i₄, i₅.trans (by rw [hcr'])⟩
      rw [i₁, htk.receivedOn]
      split <;> simp

/-! ## C31 -/

/-- **C31** Whatever the peer sends and whenever the application reads, the deliveries the application has taken are the
first of the messages that were completed, in order of arrival, each with the performative of its first frame and all
its payload. -/
theorem c31_in_order {s : Session} (h : Reachable s) (r : Ref) :
    (handedOn r s.log).map (·.2.asArrival) <+: (assemble (receivedOn r s.log)).done :=
  handed_prefix h r

/-- **C31** A delivery is never taken twice, also not from different links; its object has the delivery id and tag of the
first frame. -/
theorem c31_taken_once {s : Session} (h : Reachable s) (r : Ref) :
    ((handedOn r s.log).map Prod.fst).Nodup ∧
    (∀ d t r' t', (d, t) ∈ handedOn r s.log → (d, t') ∈ handedOn r' s.log → r = r') ∧
    ∀ d t, (d, t) ∈ handedOn r s.log → ∃ x, s.dlv? d = some x ∧ x.sender = false ∧ t.head.deliveryId = some x.id ∧
      x.tag = t.head.deliveryTag.getD [] := by
  have mem : ∀ r d t, (d, t) ∈ handedOn r s.log → (d, t.head) ∈ keys s r := by
    intro r d t hm
    unfold keys
    exact List.mem_map.mpr ⟨(d, t), by simp [hm], rfl⟩
  refine ⟨?_, ?_, ?_⟩
  · have := h.ownDlv.sorted r
    unfold keys at this
    rw [List.map_append, List.pairwise_append] at this
    have h₁ := List.pairwise_map.mp this.1
    rw [List.Nodup, List.pairwise_map]
    exact h₁.imp fun h => Nat.ne_of_lt h
  · intro d t r' t' hm hm'
    exact h.ownDlv.disjoint r r' d t.head t'.head (mem r d t hm) (mem r' d t' hm')
  · intro d t hm
    exact h.ownDlv.object r d t.head (mem r d t hm)

theorem next_ready {s : Session} (h : Reachable s) {r : Ref} {m : Arrival}
    (hm : (assemble (receivedOn r s.log)).done[(handedOn r s.log).length]? = some m) :
    ∃ l d t q, s.rcv? r = some l ∧ l.queue = (d, t) :: q ∧ t.asArrival = m ∧ (l.partialBody = none ∨ q ≠ []) := by
  have head : ∀ q : List (Ref × Transfer), (handedOn r s.log ++ q).map (·.2.asArrival) = (assemble (receivedOn r s.log)).done →
      ∃ d t q', q = (d, t) :: q' ∧ t.asArrival = m := by
    intro q hq
    rw [← hq] at hm
    cases q with
    | nil => simp at hm
    | cons x q =>
      refine ⟨x.1, x.2, q, rfl, ?_⟩
      simpa using hm
  cases hl : s.rcv? r with
  | none =>
    rw [(h.rcvInv.absent r hl).1] at hm
    simp [assemble] at hm
  | some l =>
    have ha := h.rcvInv.assembled r l hl
    cases hb : l.partialBody with
    | none =>
      obtain ⟨d, t, q, hq, ht⟩ := head _ (ha.closed hb).2
      exact ⟨l, d, t, q, rfl, hq, ht, .inl hb⟩
    | some body =>
      obtain ⟨q', d', t', hq', _, hd⟩ := ha.opened body hb
      obtain ⟨d, t, q, hq, ht⟩ := head _ hd
      exact ⟨l, d, t, q ++ [(d', t')], rfl, by rw [hq', hq]; rfl, ht, .inr (by simp)⟩

/-- **C31** A message that is complete reaches the application: the next `get_delivery` returns the first one not yet
taken. -/
theorem c31_take_next {s : Session} (h : Reachable s) {r : Ref} {m : Arrival}
    (hm : (assemble (receivedOn r s.log)).done[(handedOn r s.log).length]? = some m) :
    ∃ d t, (s.step (.take r)).log = s.log ++ [.handed r d t] ∧ t.asArrival = m := by
  obtain ⟨l, d, t, q, hl, hq, ht, hp⟩ := next_ready h hm
  refine ⟨d, t, ?_, ht⟩
  show (s.getDelivery r).1.log = _
  unfold getDelivery
  rw [hl]
  dsimp only
  rw [if_pos, hq]
  · rfl
  · rcases hp with hp | hp
    · exact .inl (by simp [hp])
    · right
      rw [hq]
      have := List.length_pos_of_ne_nil hp
      simp; omega

/-- **C31** So does the next poll of the link as a stream. -/
theorem c31_recv_next {s : Session} (h : Reachable s) {r : Ref} {m : Arrival}
    (hm : (assemble (receivedOn r s.log)).done[(handedOn r s.log).length]? = some m) :
    ∃ d t, (s.step (.recv r)).log = s.log ++ [.handed r d t] ∧ t.asArrival = m := by
  obtain ⟨l, d, t, q, hl, hq, ht, hp⟩ := next_ready h hm
  refine ⟨d, t, ?_, ht⟩
  show (s.pollRecv r).1.log = _
  unfold pollRecv
  rw [hl]
  dsimp only
  rw [if_neg, hq]
  · rfl
  · rintro ⟨h₁, h₂⟩
    rcases hp with hp | hp
    · rw [hp] at h₁; cases h₁
    · have := List.length_pos_of_ne_nil hp
      rw [hq] at h₂
      simp at h₂
      exact hp h₂

/-- **C31** While no message is complete that was not taken, reading yields nothing. -/
theorem c31_nothing_early {s : Session} (h : Reachable s) {r : Ref}
    (hm : (assemble (receivedOn r s.log)).done.length = (handedOn r s.log).length) :
    (s.step (.take r)).log = s.log ∧ (s.step (.recv r)).log = s.log := by
  cases hl : s.rcv? r with
  | none => exact ⟨by show (s.getDelivery r).1.log = _; simp [getDelivery, hl], by show (s.pollRecv r).1.log = _; simp [pollRecv, hl]⟩
  | some l =>
    have ha := h.rcvInv.assembled r l hl
    have hq : (l.partialBody = none ∧ l.queue = []) ∨ (l.partialBody.isSome ∧ l.queue.length = 1) := by
      cases hb : l.partialBody with
      | none =>
        have := congrArg List.length (ha.closed hb).2
        rw [hm] at this
        left
        simpa using this
      | some body =>
        obtain ⟨q, d, t, hq, _, hd⟩ := ha.opened body hb
        have := congrArg List.length hd
        rw [hm] at this
        right
        have : q = [] := by simpa using this
        simp [hq, this]
    constructor
    · show (s.getDelivery r).1.log = _
      unfold getDelivery
      rw [hl]
      rcases hq with ⟨hb, hq⟩ | ⟨hb, hq⟩
      · dsimp only; rw [hq]; split <;> rfl
      · dsimp only
        rw [if_neg]
        rintro (h | h)
        · cases hp : l.partialBody <;> simp [hp] at hb h
        · rw [hq] at h; exact absurd h (by decide)
    · show (s.pollRecv r).1.log = _
      unfold pollRecv
      rw [hl]
      dsimp only
      rcases hq with ⟨hb, hq⟩ | hq
      · rw [if_neg (by simp [hb]), hq]
        dsimp only
        repeat' split
        all_goals rfl
      · rw [if_pos hq]
        repeat' split
        all_goals rfl

/-- **C31** However a peer splits a message into frames, on a link that has credit and is not in the middle of another one,
the message is complete after the last frame, with exactly its payload, and one unit of credit is used.  Other links are
not involved. -/
theorem c31_any_split {s : Session} (h : Reachable s) {r : Ref} {l : Rcv} {handle id : UInt32} {tag message : Bytes}
    {format : Option UInt32} {settled : Bool} {ts : List Transfer} (ha : Addressed s handle r) (hl : s.rcv? r = some l)
    (hc : l.credit ≠ 0) (ho : (assemble (receivedOn r s.log)).open_ = none)
    (hw : WholeDelivery handle id tag message format settled ts) (hp : ∀ t ∈ ts, Plain t)
    (hs : message.length ≤ l.maxMessageSize.toNat) :
    ∃ head : TransferHead, head.deliveryId = some id ∧ head.deliveryTag = some tag ∧
      assemble (receivedOn r (s.run (transfers ts)).log)
        = { done := (assemble (receivedOn r s.log)).done ++ [{ head, payload := message }], open_ := none } ∧
      (∀ r', r ≠ r' → receivedOn r' (s.run (transfers ts)).log = receivedOn r' s.log) ∧
      ∃ l', (s.run (transfers ts)).rcv? r = some l' ∧ l'.credit = l.credit - 1 := by
  suffices hrun : (∀ r', receivedOn r' (s.run (transfers ts)).log = receivedOn r' s.log ++ if r = r' then ts else []) ∧
      ∃ l', (s.run (transfers ts)).rcv? r = some l' ∧ l'.credit = l.credit - 1 by
    obtain ⟨head, h₁, h₂, h₃⟩ := assemble_whole hw ho
    refine ⟨head, h₁, h₂, ?_, fun r' hne => ?_, hrun.2⟩
    · rw [hrun.1, if_pos rfl, h₃]
    · rw [hrun.1, if_neg hne, List.append_nil]
  have hhandle := hw.handle
  obtain ⟨t, rest, rfl, hid, _, hids, hpay, h₁, h₂⟩ := hw.cons
  have hth : t.head.handle = handle := hhandle t (by simp)
  have htk := takes_first h (hth ▸ ha) hl hc ho (by rw [hid]; rfl)
  obtain ⟨l', hl', hcr, hpb, hmx, _⟩ := htk.link
  have hrun : s.run (transfers (t :: rest)) = (s.step (.peer (.transfer t))).run (transfers rest) := rfl
  rw [hrun]
  by_cases hr : rest = []
  · subst hr
    exact ⟨fun r' => htk.receivedOn r', l', hl', by rw [hcr]; simp [Rcv.charged, h₁ rfl]⟩
  · obtain ⟨hmt, hm⟩ := h₂ hr
    have hcr' : l'.credit = l.credit := by rw [hcr]; simp [Rcv.charged, hmt]
    have ho' : (assemble (receivedOn r (s.step (.peer (.transfer t))).log)).open_ = some t.asArrival := by
      rw [htk.receivedOn, if_pos rfl, assemble_append, Assembly.add, ho, hmt]; rfl
    obtain ⟨i₁, _, _, l'', i₄, i₅⟩ := run_rest rest (s.step (.peer (.transfer t))) l' _ (reachable_step h _)
      (htk.addressed (handle := handle) ha) hl' (by rw [hcr']; exact hc) ho' hr hm
      (fun x hx => ⟨hids x hx, hhandle x (by simp [hx]), hp x (by simp [hx])⟩) (by
        rw [hmx]
        have := congrArg List.length hpay
        rw [List.length_append] at this
        exact this ▸ hs)
    refine ⟨fun r' => ?_, l'', i₄, i₅.trans (by rw [hcr'])⟩
    rw [i₁, htk.receivedOn]
    split <;> simp

/-- A message in three frames, with a read in between. -/
def threeFrames : List Transfer := [aTransfer 5 (some 9) true [1, 2], aTransfer 5 none true [3], aTransfer 5 none false [4, 5]]

example : WholeDelivery 5 9 [1] [1, 2, 3, 4, 5] none false threeFrames := by
  constructor <;> simp [threeFrames, aTransfer, emptyTransfer, Transfer.payload, TransferBody.tenc]

example : Addressed ((start 100).run attachRcv) 5 0 ∧
    ∃ l, ((start 100).run attachRcv).rcv? 0 = some l ∧ l.credit = 50 ∧ l.maxMessageSize = 262144 ∧ l.closed = false :=
  ⟨⟨rfl, 0, by decide, rfl, rfl⟩, _, rfl, rfl, rfl, rfl⟩

example : (handedOn 0 ((start 100).run (attachRcv ++ transfers threeFrames ++ [.take 0, .take 0])).log).map
    (fun p => p.2.payload) = [[1, 2, 3, 4, 5]] := rfl

example : ∃ l, ((start 100).run (attachRcv ++ transfers threeFrames)).rcv? 0 = some l ∧ l.credit = 49 :=
  ⟨_, rfl, rfl⟩

/-- **C31** Violated: A delivery the peer aborts is given to the application like any other: the `aborted` flag is not looked at, and
what had arrived is delivered as if it were the message. -/
theorem c31_aborted_is_delivered : ∃ (s : Session) (t : Transfer), Reachable s ∧ .peer (.transfer t) ∈ s.log ∧
    t.head.aborted = true ∧ t.head.handle = 5 ∧ (handedOn 0 s.log).map (fun p => p.2.payload) = [[1, 2]] := by
  let t : Transfer := { head := { emptyTransfer with handle := 5, aborted := true }, body := none }
  refine ⟨(start 100).run (attachRcv ++ transfers [aTransfer 5 (some 9) true [1, 2], t] ++ [.take 0]), t,
    reachable _ _ _, ?_, rfl, rfl, rfl⟩
  exact List.mem_of_getElem? (i := 6) rfl

/-! ## Frames that are refused -/

/-- The detach frame and the call to the control service with which a receiver link is closed for an error. -/
def closesFor (handle : UInt32) (e : LinkError) : Ev :=
  .frame (.detach { handle, closed := true, error := some { condition := .linkError e, description := none, info := none } })

/-- After a frame was refused, the link takes in no frame ever again. -/
theorem refused_for_good {s s' : Session} {r : Ref} {l : Rcv} {t : Transfer} {handle : UInt32} {e} (h : Reachable s)
    (ha : Addressed s handle r) (hl : s.rcv? r = some l) (hd : Declines s r l t e s') (steps : List Step) :
    receivedOn r (s'.run steps).log = receivedOn r s.log := by
  rw [((hd.gone h.rcvSlots (ha.slot h hl).2).run steps).2, hd.receivedOn]

/-! ## C30 -/

/-- **C30** Every frame a receiver link ever took in arrived while there was credit: more had been granted, by then, than
used. -/
theorem c30_guarded {s : Session} (h : Reachable s) {pre post : List Ev} {r : Ref} {t : Transfer}
    (hs : s.log = pre ++ .received r t :: post) : creditLeft r pre ≠ 0 := h.creditGuard pre r t post hs

theorem creditLeft_bound {r : Ref} (log : List Ev)
    (hg : ∀ pre t post, log = pre ++ .received r t :: post → creditLeft r pre ≠ 0) (hb : grantedOn r log < 2 ^ 32) :
    (creditLeft r log).toNat + completedOn r log ≤ grantedOn r log := by
  induction log using List.reverseRecOn with
  | nil => simp [creditLeft, completedOn, receivedOn, grantedOn]
  | append_singleton log e ih =>
    have hgr : grantedOn r (log ++ [e]) = grantedOn r log + grantedOn r [e] := by simp [grantedOn]
    rw [hgr] at hb ⊢
    have ih := ih (fun pre t post h => hg pre t (post ++ [e]) (by rw [h]; simp)) (by omega)
    rw [creditLeft_append, completedOn_append]
    have quiet : ∀ e, (∀ c, creditAfter r c e = c) → completedOn r [e] = 0 →
        (List.foldl (creditAfter r) (creditLeft r log) [e]).toNat + (completedOn r log + completedOn r [e])
          ≤ grantedOn r log + grantedOn r [e] := by
      intro e h₁ h₂
      rw [List.foldl_cons, h₁, h₂, List.foldl_nil]
      omega
    by_cases hne : ∃ t, e = .received r t
    · obtain ⟨t, rfl⟩ := hne
      have hpos := hg log t [] rfl
      have : (creditLeft r log).toNat ≠ 0 := fun h => hpos (UInt32.toNat_inj.mp (by simpa using h))
      cases hm : t.head.more with
      | true =>
        refine quiet _ (fun c => by simp [creditAfter, hm]) (by simp [completedOn, receivedOn, hm])
      | false =>
        have h1 : completedOn r [.received r t] = 1 := by simp [completedOn, receivedOn, hm]
        rw [h1, List.foldl_cons, List.foldl_nil]
        have : creditAfter r (creditLeft r log) (.received r t) = creditLeft r log - 1 := by
          simp [creditAfter, hm, hpos]
        rw [this, UInt32.toNat_sub_of_le _ _ (by rw [UInt32.le_iff_toNat_le]; simp; omega)]
        simp
        omega
    · cases e with
      | received r' t =>
        have hr : r' ≠ r := fun h => hne ⟨t, by rw [h]⟩
        exact quiet _ (fun c => by simp [creditAfter, hr]) (by simp [completedOn, receivedOn, hr])
      | declined r' t =>
        have h0 : completedOn r [.declined r' t] = 0 := by simp [completedOn, receivedOn]
        rw [h0, List.foldl_cons, List.foldl_nil]
        have : (creditAfter r (creditLeft r log) (.declined r' t)).toNat ≤ (creditLeft r log).toNat := by
          unfold creditAfter
          dsimp only
          split
          · next h =>
            rw [UInt32.toNat_sub_of_le]
            · omega
            · have : (creditLeft r log).toNat ≠ 0 := fun h' => h.2.1 (UInt32.toNat_inj.mp (by simpa using h'))
              rw [UInt32.le_iff_toNat_le]; simp; omega
          · exact Nat.le_refl _
        omega
      | granted r' n =>
        have h0 : completedOn r [.granted r' n] = 0 := by simp [completedOn, receivedOn]
        rw [h0, List.foldl_cons, List.foldl_nil]
        by_cases hr : r' = r
        · have hn : grantedOn r [.granted r' n] = n.toNat := by simp [grantedOn, hr]
          rw [hn] at hb ⊢
          simp only [creditAfter, if_pos hr, UInt32.toNat_add]
          rw [Nat.mod_eq_of_lt (by omega)]
          omega
        · have hn : grantedOn r [.granted r' n] = 0 := by simp [grantedOn, hr]
          rw [hn]
          simp only [creditAfter, if_neg hr]
          omega
      | _ => exact quiet _ (fun c => rfl) rfl

/-- **C30** At no time has a receiver link taken in more deliveries than it had granted credit for (unless grants total 2³²
or more: then the counter has wrapped around). -/
theorem c30_never_exceeds {s : Session} (h : Reachable s) (r : Ref) {log : List Ev} (hp : log <+: s.log)
    (hb : grantedOn r log < 2 ^ 32) : completedOn r log ≤ grantedOn r log := by
  obtain ⟨rest, hp⟩ := hp
  have := creditLeft_bound log (fun pre t post h' => h.creditGuard pre r t (post ++ rest) (by rw [← hp, h']; simp)) hb
  omega

/-- **C30** A transfer that arrives when no credit is left is not delivered to the application, then or later, and the link is
closed with transfer-limit-exceeded.  What had arrived before stays available. -/
theorem c30_no_credit {s : Session} {r : Ref} {l : Rcv} {t : Transfer} (h : Reachable s)
    (ha : Addressed s t.head.handle r) (hl : s.rcv? r = some l) (hc : l.closed = false) (h0 : creditLeft r s.log = 0) :
    closesFor l.handle .transferLimitExceeded ∈ (s.step (.peer (.transfer t))).log ∧
    (∀ r', r ≠ r' → (s.step (.peer (.transfer t))).rcv? r' = s.rcv? r') ∧
    ∀ steps, (handedOn r ((s.step (.peer (.transfer t))).run steps).log).map (·.2.asArrival)
      <+: (assemble (receivedOn r s.log)).done := by
  obtain ⟨h₁, h₂⟩ := ha.slot h hl
  have hcr : l.credit = 0 := by
    have := h.creditKept r
    rw [h0, hl] at this
    exact this.symm
  have hd := handleTransfer_declines hl hc h₂ (t := t) (.inl hcr)
  rw [← peer_transfer_eq ha.1 h₁ h₂] at hd
  refine ⟨?_, hd.others, fun steps => ?_⟩
  · have : declineError s l t = linkError .transferLimitExceeded none := by rw [declineError, if_pos hcr]
    rw [hd.log, this]
    simp [closesFor, linkError]
  · rw [← refused_for_good h ha hl hd steps]
    exact handed_prefix (reachable_run (reachable_step h _) steps) r

/-- Two units granted by the application on a link it attached; the peer sends three deliveries. -/
def twoCredits : List Step :=
  [.attachReceiver (anAttach "q" 0 .receiver), .peer (.attach (anAttach "q" 5 .sender)), .grant 0 2]

example : Addressed ((start 100).run (twoCredits ++ transfers [aTransfer 5 (some 1) false [1], aTransfer 5 (some 2) false [2]])) 5 0 ∧
    creditLeft 0 ((start 100).run (twoCredits ++ transfers [aTransfer 5 (some 1) false [1], aTransfer 5 (some 2) false [2]])).log = 0 ∧
    (((start 100).run (twoCredits ++ transfers [aTransfer 5 (some 1) false [1], aTransfer 5 (some 2) false [2]])).rcv? 0).map
      Rcv.closed = some false :=
  ⟨⟨rfl, 0, by decide, rfl, rfl⟩, by decide, rfl⟩

example : (handedOn 0 ((start 100).run (twoCredits ++ transfers [aTransfer 5 (some 1) false [1],
    aTransfer 5 (some 2) false [2], aTransfer 5 (some 3) false [3]] ++ [.take 0, .take 0, .take 0])).log).map
      (fun p => p.2.payload) = [[1], [2]] := rfl

/-! ## C32 -/

/-- **C32** A continuation frame that takes the message over the limit is not delivered, then or later, nor is anything of the
message, and the link is closed with message-size-exceeded. -/
theorem c32_over_limit {s : Session} {r : Ref} {l : Rcv} {t : Transfer} {m : Arrival} (h : Reachable s)
    (ha : Addressed s t.head.handle r) (hl : s.rcv? r = some l) (hc : l.closed = false) (h0 : l.credit ≠ 0)
    (ho : (assemble (receivedOn r s.log)).open_ = some m) (hid : FrameOf t m) (hp : Plain t) (hb : t.body.isSome)
    (hs : m.payload.length + t.payload.length > l.maxMessageSize.toNat) :
    closesFor l.handle .messageSizeExceeded ∈ (s.step (.peer (.transfer t))).log ∧
    ∀ steps, receivedOn r ((s.step (.peer (.transfer t))).run steps).log = receivedOn r s.log ∧
      (handedOn r ((s.step (.peer (.transfer t))).run steps).log).map (·.2.asArrival)
        <+: (assemble (receivedOn r s.log)).done := by
  obtain ⟨h₁, h₂⟩ := ha.slot h hl
  obtain ⟨hpb, hback⟩ := opened_of_open h hl ho
  have hnid : ¬ (t.head.deliveryId.isSome ∧ s.backId l ≠ t.head.deliveryId) := by
    rintro ⟨h₃, h₄⟩
    rcases hid with hid | hid
    · rw [hid] at h₃; cases h₃
    · exact h₄ (hback.trans hid.symm)
  have hd := handleTransfer_declines hl hc h₂ (t := t) (.inr (by
    unfold Refusable
    rw [hpb]
    exact .inr ⟨hb, by rw [hp.size]; exact hs⟩))
  rw [← peer_transfer_eq ha.1 h₁ h₂] at hd
  refine ⟨?_, fun steps => ⟨refused_for_good h ha hl hd steps, ?_⟩⟩
  · have : declineError s l t = linkError .messageSizeExceeded none := by
      rw [declineError, if_neg h0, if_pos (by rw [hpb]; rfl), if_neg hnid]
    rw [hd.log, this]
    simp [closesFor, linkError]
  · rw [← refused_for_good h ha hl hd steps]
    exact handed_prefix (reachable_run (reachable_step h _) steps) r

theorem log_mem_run {s : Session} {e : Ev} (h : e ∈ s.log) (steps : List Step) : e ∈ (s.run steps).log :=
  (run_micros s steps).invariant (P := fun s => e ∈ s.log)
    (fun _ _ hm h => by obtain ⟨evs, he⟩ := hm.log_grows; rw [he]; exact List.mem_append_left _ h) h

/-- The frames after the first, of a message that is too long. -/
theorem refuse_rest {r : Ref} {handle : UInt32} : ∀ (rest : List Transfer) (s : Session) (l : Rcv) (m : Arrival),
    Reachable s → Addressed s handle r → s.rcv? r = some l → l.credit ≠ 0 → l.closed = false →
    (assemble (receivedOn r s.log)).open_ = some m →
    rest.map (·.head.more) = List.replicate (rest.length - 1) true ++ [false] →
    (∀ t ∈ rest, t.head.deliveryId = none ∧ t.head.handle = handle ∧ Plain t) →
    (∃ t ∈ rest, t.body.isSome) →
    m.payload.length + (rest.map Transfer.payload).flatten.length > l.maxMessageSize.toNat →
    ∀ steps, closesFor l.handle .messageSizeExceeded ∈ ((s.run (transfers rest)).run steps).log ∧
      (assemble (receivedOn r ((s.run (transfers rest)).run steps).log)).done = (assemble (receivedOn r s.log)).done := by
  intro rest
  induction rest with
  | nil => intro s l m _ _ _ _ _ _ _ _ ⟨t, h, _⟩; cases h
  | cons t rest ih =>
    intro s l m h ha hl h0 hc ho hm hall hbody hs steps
    obtain ⟨hid, hh, hpl⟩ := hall t (by simp)
    subst hh
    have hrun : s.run (transfers (t :: rest)) = (s.step (.peer (.transfer t))).run (transfers rest) := rfl
    rw [hrun]
    by_cases hover : t.body.isSome ∧ m.payload.length + t.payload.length > l.maxMessageSize.toNat
    · obtain ⟨i₁, i₂⟩ := c32_over_limit h ha hl hc h0 ho (.inl hid) hpl hover.1 hover.2
      have hr2 : ∀ a : Session, (a.run (transfers rest)).run steps = a.run (transfers rest ++ steps) := by
        intro a; simp [Session.run]
      rw [hr2]
      exact ⟨log_mem_run i₁ _, by rw [(i₂ _).1]⟩
    · have htk := takes_next h ha hl h0 ho (.inl hid) (fun hb => by
        rw [hpl.size]
        exact Nat.not_lt.mp (fun hlt => hover ⟨hb, hlt⟩))
      obtain ⟨l', hl', hcr, hpb, hmx, hcl, hha, _⟩ := htk.link
      simp only [List.map_cons, List.flatten_cons, List.length_append] at hs
      have hbody' : ∃ t ∈ rest, t.body.isSome := by
        by_cases hb : t.body.isSome
        · have hle : ¬ m.payload.length + t.payload.length > l.maxMessageSize.toNat := fun h => hover ⟨hb, h⟩
          refine Classical.byContradiction fun hno => ?_
          have : (rest.map Transfer.payload).flatten = [] := by
            rw [List.flatten_eq_nil_iff]
            intro p hp
            obtain ⟨x, hx, rfl⟩ := List.mem_map.mp hp
            have : x.body = none := by
              cases hxb : x.body with
              | none => rfl
              | some b => exact (hno ⟨x, hx, by rw [hxb]; rfl⟩).elim
            simp [Transfer.payload, this]
          rw [this] at hs
          simp at hs
          omega
        · obtain ⟨x, hx, hxb⟩ := hbody
          rcases List.mem_cons.mp hx with rfl | hx
          · exact (hb hxb).elim
          · exact ⟨x, hx, hxb⟩
      have hne : rest ≠ [] := by
        rintro rfl
        obtain ⟨_, h, _⟩ := hbody'
        cases h
      obtain ⟨hmt, hm'⟩ : t.head.more = true ∧ rest.map (·.head.more) = List.replicate (rest.length - 1) true ++ [false] := by
        cases rest with
        | nil => exact (hne rfl).elim
        | cons t' rest =>
          simp only [List.map_cons, List.length_cons, Nat.add_sub_cancel, List.replicate_succ, List.cons_append,
            List.cons.injEq] at hm ⊢
          exact hm
      have hcr' : l'.credit = l.credit := by rw [hcr]; simp [Rcv.charged, hmt]
      have hadd : assemble (receivedOn r (s.step (.peer (.transfer t))).log)
          = { assemble (receivedOn r s.log) with open_ := some { m with payload := m.payload ++ t.payload } } := by
        rw [htk.receivedOn, if_pos rfl, assemble_append, Assembly.add, ho, hmt]; rfl
      have := ih (s.step (.peer (.transfer t))) l' _ (reachable_step h _) (htk.addressed ha) hl' (by rw [hcr']; exact h0)
        (by rw [hcl]; exact hc) (by rw [hadd]) hm' (fun x hx => hall x (by simp [hx])) hbody' (by
          rw [hmx]
          simp only [List.length_append]
          omega) steps
      rw [hha, hadd] at this
      exact this

/-- **C32** However a peer splits a message longer than the receiver's limit, if a frame after the first carries any payload
(possibly none: `body` present), the link is closed with message-size-exceeded and the message never reaches the
application, whatever happens afterwards.  Not covered: the size of the first frame is not looked at, see below. -/
theorem c32_any_split_partial {s : Session} (h : Reachable s) {r : Ref} {l : Rcv} {handle id : UInt32}
    {tag message : Bytes} {format : Option UInt32} {settled : Bool} {ts : List Transfer} (ha : Addressed s handle r)
    (hl : s.rcv? r = some l) (hc : l.credit ≠ 0) (hcl : l.closed = false)
    (ho : (assemble (receivedOn r s.log)).open_ = none)
    (hw : WholeDelivery handle id tag message format settled ts) (hp : ∀ t ∈ ts, Plain t)
    (hb : ∃ t ∈ ts.tail, t.body.isSome) (hs : message.length > l.maxMessageSize.toNat) (steps : List Step) :
    closesFor l.handle .messageSizeExceeded ∈ ((s.run (transfers ts)).run steps).log ∧
    (handedOn r ((s.run (transfers ts)).run steps).log).map (·.2.asArrival) <+: (assemble (receivedOn r s.log)).done := by
  suffices hmain : closesFor l.handle .messageSizeExceeded ∈ ((s.run (transfers ts)).run steps).log ∧
      (assemble (receivedOn r ((s.run (transfers ts)).run steps).log)).done = (assemble (receivedOn r s.log)).done by
    refine ⟨hmain.1, ?_⟩
    rw [← hmain.2]
    exact handed_prefix (reachable_run (reachable_run h _) steps) r
  have hhandle := hw.handle
  obtain ⟨t, rest, rfl, hid, _, hids, hpay, h₁, h₂⟩ := hw.cons
  have hth : t.head.handle = handle := hhandle t (by simp)
  have htk := takes_first h (hth ▸ ha) hl hc ho (by rw [hid]; rfl)
  obtain ⟨l', hl', hcr, hpb, hmx, hcl', hha, _⟩ := htk.link
  have hrun : s.run (transfers (t :: rest)) = (s.step (.peer (.transfer t))).run (transfers rest) := rfl
  rw [hrun]
  have hr : rest ≠ [] := by
    rintro rfl
    obtain ⟨_, h, _⟩ := hb
    cases h
  obtain ⟨hmt, hm⟩ := h₂ hr
  have hcr' : l'.credit = l.credit := by rw [hcr]; simp [Rcv.charged, hmt]
  have hadd : assemble (receivedOn r (s.step (.peer (.transfer t))).log)
      = { assemble (receivedOn r s.log) with open_ := some t.asArrival } := by
    rw [htk.receivedOn, if_pos rfl, assemble_append, Assembly.add, ho, hmt]; rfl
  have := refuse_rest rest (s.step (.peer (.transfer t))) l' _ (reachable_step h _)
    (htk.addressed (handle := handle) ha) hl' (by rw [hcr']; exact hc) (by rw [hcl']; exact hcl) (by rw [hadd]) hm
    (fun x hx => ⟨hids x hx, hhandle x (by simp [hx]), hp x (by simp [hx])⟩) hb (by
      rw [hmx]
      have := congrArg List.length hpay
      rw [List.length_append] at this
      exact this ▸ hs) steps
  rw [hha, hadd] at this
  exact this

/-- The limit set to four octets before the frames of `threeFrames` arrive. -/
def smallLimit : List Step := attachRcv ++ [.limitReceiver 0 4]

example : Addressed ((start 100).run smallLimit) 5 0 ∧
    (((start 100).run smallLimit).rcv? 0).map (fun l => (l.credit, l.maxMessageSize, l.closed)) = some (50, 4, false) :=
  ⟨⟨rfl, 0, by decide, rfl, rfl⟩, rfl⟩

example : handedOn 0 ((start 100).run (smallLimit ++ transfers threeFrames ++ [.take 0, .recv 0])).log = [] := rfl

/-- **C32** Violated: The limit is not applied to the first frame of a delivery: a single-frame message of any size is
delivered, and so is a multi-frame message whose first frame alone exceeds the limit. -/
theorem c32_first_frame_unchecked : ∃ steps : List Step, ∃ l,
    ((start 100).run steps).rcv? 0 = some l ∧ l.maxMessageSize = 4 ∧ l.closed = false ∧
    (handedOn 0 ((start 100).run steps).log).map (fun p => p.2.payload) = [[1, 2, 3, 4, 5], [1, 2, 3, 4, 5, 6]] := by
  let last : Transfer := { head := { emptyTransfer with handle := 5 }, body := none }
  exact ⟨smallLimit ++ transfers [aTransfer 5 (some 9) false [1, 2, 3, 4, 5], aTransfer 5 (some 10) true [1, 2, 3, 4, 5, 6],
    last] ++ [.take 0, .take 0], _, rfl, rfl, rfl, rfl⟩

/-! ## C43 -/

/-- **C43** The credit of a link is what was granted less what was used. -/
theorem c43_credit {s : Session} (h : Reachable s) {r : Ref} {l : Rcv} (hl : s.rcv? r = some l) :
    l.credit = creditLeft r s.log := by
  have := h.creditKept r
  rw [hl] at this
  exact this.symm

/-- Nothing was refused on link `r`. -/
def NothingDeclined (r : Ref) (log : List Ev) : Prop := ∀ t, .declined r t ∉ log

theorem creditLeft_exact {r : Ref} (log : List Ev)
    (hg : ∀ pre t post, log = pre ++ .received r t :: post → creditLeft r pre ≠ 0) (hn : NothingDeclined r log) :
    creditLeft r log = UInt32.ofNat (grantedOn r log) - UInt32.ofNat (completedOn r log) := by
  induction log using List.reverseRecOn with
  | nil => simp [creditLeft, grantedOn, completedOn, receivedOn]
  | append_singleton log e ih =>
    have ih := ih (fun pre t post h => hg pre t (post ++ [e]) (by rw [h]; simp))
      (fun t h => hn t (List.mem_append_left _ h))
    have hgr : grantedOn r (log ++ [e]) = grantedOn r log + grantedOn r [e] := by simp [grantedOn]
    rw [creditLeft_append, completedOn_append, hgr, List.foldl_cons, List.foldl_nil, UInt32.ofNat_add, UInt32.ofNat_add]
    have quiet : ∀ e, (∀ c, creditAfter r c e = c) → completedOn r [e] = 0 → grantedOn r [e] = 0 →
        creditAfter r (creditLeft r log) e = UInt32.ofNat (grantedOn r log) + UInt32.ofNat (grantedOn r [e])
          - (UInt32.ofNat (completedOn r log) + UInt32.ofNat (completedOn r [e])) := by
      intro e h₁ h₂ h₃
      rw [h₁, h₂, h₃, ih]
      simp
    cases e with
    | received r' t =>
      by_cases hr : r' = r
      · subst hr
        have hpos := hg log t [] rfl
        cases hm : t.head.more with
        | true => exact quiet _ (fun c => by simp [creditAfter, hm]) (by simp [completedOn, receivedOn, hm]) rfl
        | false =>
          have h1 : completedOn r' [.received r' t] = 1 := by simp [completedOn, receivedOn, hm]
          have h2 : grantedOn r' [.received r' t] = 0 := rfl
          have : creditAfter r' (creditLeft r' log) (.received r' t) = creditLeft r' log - 1 := by
            simp [creditAfter, hm, hpos]
          rw [this, h1, h2, ih]
          generalize UInt32.ofNat (grantedOn r' log) = a
          generalize UInt32.ofNat (completedOn r' log) = b
          simp
          grind
      · exact quiet _ (fun c => by simp [creditAfter, hr]) (by simp [completedOn, receivedOn, hr]) rfl
    | declined r' t =>
      have hr : r' ≠ r := fun h => hn t (by rw [h]; simp)
      exact quiet _ (fun c => by simp [creditAfter, hr]) (by simp [completedOn, receivedOn]) rfl
    | granted r' n =>
      by_cases hr : r' = r
      · have h1 : completedOn r [.granted r' n] = 0 := rfl
        have h2 : UInt32.ofNat (grantedOn r [.granted r' n]) = n := by simp [grantedOn, hr]
        rw [h1, h2]
        simp only [creditAfter, if_pos hr, ih]
        generalize UInt32.ofNat (grantedOn r log) = a
        generalize UInt32.ofNat (completedOn r log) = b
        simp
        grind
      · exact quiet _ (fun c => by simp [creditAfter, hr]) rfl (by simp [grantedOn, hr])
    | _ => exact quiet _ (fun c => rfl) rfl rfl

/-- **C43** On a link that refused nothing (after refusing a frame a link is closed), the credit visible to the application is
exactly the credit granted less the deliveries completed, modulo 2³². -/
theorem c43_exact {s : Session} (h : Reachable s) {r : Ref} {l : Rcv} (hl : s.rcv? r = some l)
    (hn : NothingDeclined r s.log) :
    l.credit = UInt32.ofNat (grantedOn r s.log) - UInt32.ofNat (completedOn r s.log) := by
  rw [c43_credit h hl]
  exact creditLeft_exact _ (fun pre t post => h.creditGuard pre r t post) hn

/-- **C43** From any point on, the delivery-count of a link grows with the deliveries completed, and with nothing else. -/
theorem c43_count {s : Session} {r : Ref} {l : Rcv} (hl : s.rcv? r = some l) (steps : List Step) :
    ∃ l', (s.run steps).rcv? r = some l' ∧
      l'.deliveryCount = l.deliveryCount + UInt32.ofNat (completedOn r (s.run steps).log)
        - UInt32.ofNat (completedOn r s.log) := by
  have h₁ : baseCount s r = some (l.deliveryCount - UInt32.ofNat (completedOn r s.log)) := by rw [baseCount, hl]; rfl
  obtain ⟨l', hl', h⟩ := Option.map_eq_some_iff.mp (baseCount_run h₁ steps)
  refine ⟨l', hl', ?_⟩
  generalize UInt32.ofNat (completedOn r s.log) = a at *
  generalize UInt32.ofNat (completedOn r (s.run steps).log) = b at *
  grind

/-- **C43** A link the peer attaches starts with the peer's initial delivery-count. -/
theorem c43_remote_count {s : Session} {a : Attach} {l : Rcv} (he : s.error = none) (hn : s.linksByName.get a.name = none)
    (hr : a.role = .sender) (hl : (s.step (.peer (.attach a))).rcv? s.rcvs.length = some l) :
    l.deliveryCount = a.initialDeliveryCount.getD 0 := by
  have : (s.step (.peer (.attach a))).rcvs = s.rcvs ++ [rcvNew (UInt32.ofNat s.links.vacantKey) a.handle a] := by
    show (onPeer s (.attach a)).rcvs = _
    unfold onPeer
    dsimp only
    rw [if_neg (by simp [note, he])]
    unfold onAttach handleAttach
    rw [show (s.note (.peer (.attach a))).linksByName = s.linksByName from rfl, hn]
    dsimp only
    rw [hr]
    rfl
  rw [rcv?, this, List.getElem?_concat_length] at hl
  cases hl
  rfl

example : (((start 100).run [.peer (.attach { anAttach "q" 5 .sender with initialDeliveryCount := some 7 })]).rcv? 0).map
    Rcv.deliveryCount = some 7 := rfl

/-- **C43** Violated: For a link the application attaches, the count is taken from the application's own frame, where it means
nothing, instead of from the peer's answer (AMQP 1.0 §2.7.3: the sender sets it).  The peer starts counting at 7; the
grants announce 0. -/
theorem c43_local_count_wrong : ∃ (s : Session) (f : Flow), Reachable s ∧
    .peer (.attach { anAttach "q" 5 .sender with initialDeliveryCount := some 7 }) ∈ s.log ∧
    .frame (.flow f) ∈ s.log ∧ f.handle = some 0 ∧ f.deliveryCount = some 0 ∧ f.linkCredit = some 2 := by
  refine ⟨(start 100).run [.attachReceiver (anAttach "q" 0 .receiver),
    .peer (.attach { anAttach "q" 5 .sender with initialDeliveryCount := some 7 }), .grant 0 2],
    { nextIncomingId := some 1, incomingWindow := 0xffffffff, nextOutgoingId := 1, outgoingWindow := 100, handle := some 0,
      deliveryCount := some 0, linkCredit := some 2, available := none, drain := false, echo := false,
      properties := none }, reachable _ _ _, ?_, ?_, rfl, rfl, rfl⟩
  · exact List.mem_of_getElem? (i := 1) rfl
  · exact List.mem_of_getElem? (i := 4) rfl

theorem grant_eq {s : Session} {r : Ref} {l : Rcv} (hl : s.rcv? r = some l) (n : UInt32) : ∃ f evs,
    (s.step (.grant r n)).log = s.log ++ evs ++ [.frame (.flow f)] ∧ f.handle = some l.handle ∧
      f.deliveryCount = some l.deliveryCount ∧ f.linkCredit = some n ∧
      (s.step (.grant r n)).rcv? r = some { l with credit := l.credit + n } ∧
      (s.step (.grant r n)).links = s.links ∧ ∀ e ∈ evs, ∀ f, e ≠ .frame f := by
  show ∃ f evs, (s.setLinkCredit r n).log = _ ∧ _ ∧ _ ∧ _ ∧ (s.setLinkCredit r n).rcv? r = _ ∧ (s.setLinkCredit r n).links = _ ∧ _
  unfold setLinkCredit
  rw [hl]
  dsimp only
  unfold checkAdd
  have hr : ∀ a : Session, a.rcvs = s.rcvs → (modRcv a r fun l => { l with credit := l.credit + n }).rcv? r
      = some { l with credit := l.credit + n } := by
    intro a ha
    rw [rcv?_modRcv, if_pos rfl, rcv?_congr ha, hl]
    rfl
  split
  · exact ⟨_, [.granted r n], by simp only [rcvLinkFlow, post, note, modRcv]; rfl, rfl, rfl, rfl, hr _ rfl, rfl, by simp⟩
  · exact ⟨_, [.granted r n, .overflow], by simp only [rcvLinkFlow, post, note, modRcv, List.append_assoc, List.cons_append, List.nil_append]; rfl, rfl, rfl, rfl, hr _ rfl, rfl, by simp⟩

/-- **C43** A grant is announced to the peer with the delivery-count of the link, and if no credit was left, with the credit
the link then has.  Not covered: if credit was left, see below. -/
theorem c43_announced_partial {s : Session} {r : Ref} {l : Rcv} (hl : s.rcv? r = some l) (hc : l.credit = 0) (n : UInt32) :
    ∃ f evs l', (s.step (.grant r n)).rcv? r = some l' ∧
      (s.step (.grant r n)).log = s.log ++ evs ++ [.frame (.flow f)] ∧ f.handle = some l'.handle ∧
      f.deliveryCount = some l'.deliveryCount ∧ f.linkCredit = some l'.credit := by
  obtain ⟨f, evs, h₁, h₂, h₃, h₄, h₅, _⟩ := grant_eq hl n
  exact ⟨f, evs, _, h₅, h₁, h₂, h₃, by rw [h₄]; simp [hc]⟩

/-- **C43** Violated: `link-credit` in a flow frame is the credit from the delivery-count on, not an increment (AMQP 1.0
§2.6.7).  A grant of 10 on a link with 50 left announces 10: the application's link has 60, the peer's 10. -/
theorem c43_increment_announced : ∃ (s : Session) (l : Rcv) (f : Flow), Reachable s ∧ s.rcv? 0 = some l ∧ l.credit = 60 ∧
    s.log.getLast? = some (.frame (.flow f)) ∧ f.handle = some l.handle ∧ f.deliveryCount = some l.deliveryCount ∧
    f.linkCredit = some 10 :=
  ⟨(start 100).run (attachRcv ++ [.grant 0 10]), _, _, reachable _ _ _, rfl, rfl, rfl, rfl, rfl, rfl⟩

end Amqp.Rt
