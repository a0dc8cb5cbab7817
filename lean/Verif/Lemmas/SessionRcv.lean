import Verif.Lemmas.SessionBlocked
import Verif.Spec.Receiving
/-!
# What small changes do to receiver links
-/

namespace Amqp.Rt
open Session

/-- Events that are about receiver links. -/
def Ev.Receiving : Ev → Prop
  | .granted .. | .received .. | .declined .. | .handed .. => True
  | _ => False

theorem Ev.Inert.not_receiving {e : Ev} (h : e.Inert) : ¬ e.Receiving := by
  cases e <;> first
    | exact fun h => h
    | exact h.elim

/-- The parts of a receiver link that take part in receiving. -/
def Rcv.core (l : Rcv) : Rcv := { l with name := ⟨[]⟩, closed := false, error := none, maxMessageSize := 0 }

theorem core_eq {l l' : Rcv} (h : l'.core = l.core) : l'.handle = l.handle ∧ l'.remoteHandle = l.remoteHandle ∧
    l'.queue = l.queue ∧ l'.partialBody = l.partialBody ∧ l'.credit = l.credit ∧ l'.deliveryCount = l.deliveryCount := by
  simp only [Rcv.core, Rcv.mk.injEq] at h
  obtain ⟨_, h₁, h₂, _, h₃, h₄, h₅, _, h₆, _⟩ := h
  exact ⟨h₁, h₂, h₃, h₆, h₄, h₅⟩

/-- What an event does to the receiver link it is about. -/
inductive RcvAct (s : Session) (r : Ref) (l : Rcv) : Ev → Rcv → Prop
  | grant (n) : RcvAct s r l (.granted r n) { l with credit := l.credit + n }
  | noCredit (t) (hc : l.credit = 0) : RcvAct s r l (.declined r t) l
  | refused (t) (hc : l.credit ≠ 0) (h : Refusable s l t) : RcvAct s r l (.declined r t) { l with credit := l.charged t }
  | merge (t body) (hk : s.Receives r) (hc : l.credit ≠ 0) (hb : l.partialBody = some body) (hd : Continues s l t)
      (hm : t.head.more = true)
      (hs : t.body.isSome → body.length + optSum TransferBody.esize t.body ≤ l.maxMessageSize.toNat) :
      RcvAct s r l (.received r t) { l with partialBody := some (body ++ optEnc TransferBody.tenc t.body) }
  | last (t body) (hk : s.Receives r) (hc : l.credit ≠ 0) (hb : l.partialBody = some body) (hd : Continues s l t)
      (hm : t.head.more = false) (hq : l.queue ≠ [])
      (hs : t.body.isSome → body.length + optSum TransferBody.esize t.body ≤ l.maxMessageSize.toNat) :
      RcvAct s r l (.received r t)
        { l with credit := l.credit - 1, partialBody := none, deliveryCount := l.deliveryCount + 1
                 queue := setBackBody l.queue (body ++ optEnc TransferBody.tenc t.body) }
  | lost (t body) (hk : s.Receives r) (hc : l.credit ≠ 0) (hb : l.partialBody = some body)
      (hm : t.head.more = false) (hq : l.queue = []) :
      RcvAct s r l (.received r t) { l with credit := l.credit - 1, partialBody := none, deliveryCount := l.deliveryCount + 1 }
  | first (t id) (hk : s.Receives r) (hc : l.credit ≠ 0) (hb : l.partialBody = none)
      (hm : t.head.more = true) (hi : t.head.deliveryId = some id) :
      RcvAct s r l (.received r t)
        { l with partialBody := some (optEnc TransferBody.tenc t.body)
                 queue := l.queue ++ [(s.dlvs.length, { t with body := none })] }
  | single (t id) (hk : s.Receives r) (hc : l.credit ≠ 0) (hb : l.partialBody = none)
      (hm : t.head.more = false) (hi : t.head.deliveryId = some id) :
      RcvAct s r l (.received r t)
        { l with credit := l.credit - 1, deliveryCount := l.deliveryCount + 1
                 queue := l.queue ++ [(s.dlvs.length, t)] }
  | handed (d t q) (hq : l.queue = (d, t) :: q) (hp : l.partialBody = none ∨ q ≠ []) :
      RcvAct s r l (.handed r d t) { l with queue := q }

inductive RcvView (s s' : Session) : Prop
  | quiet (evs) (hl : s'.log = s.log ++ evs) (he : ∀ e ∈ evs, ¬ e.Receiving)
      (hr : ∀ r, (s'.rcv? r).map Rcv.core = (s.rcv? r).map Rcv.core)
  | new (h rh a) (hl : s'.log = s.log) (hr : s'.rcvs = s.rcvs ++ [rcvNew h rh a])
  | reset (k r op) (hk : s.links.get k = some (.rcv (.openingLocal (some (r, op))))) (hl : s'.log = s.log)
      (hr : ∀ r', s'.rcv? r' = if r = r' then (s.rcv? r').map (fun l => { l with queue := [], closed := true }) else s.rcv? r')
  | act (r l e l') (hg : s.rcv? r = some l) (hl : s'.log = s.log ++ [e])
      (hr : ∀ r', s'.rcv? r' = if r = r' then some l' else s.rcv? r') (ha : RcvAct s r l e l')
      (hd : ∀ t id, e = .received r t → l.partialBody = none → t.head.deliveryId = some id → s'.dlvs = s.dlvs ++
        [newDlv false id (t.head.deliveryTag.getD []) (t.head.settled.getD false)])

theorem rcv?_congr {s s' : Session} (h : s'.rcvs = s.rcvs) (r : Ref) : s'.rcv? r = s.rcv? r := by simp [rcv?, h]

theorem rcv?_lt {s : Session} {r : Ref} {l : Rcv} (h : s.rcv? r = some l) : r < s.rcvs.length := by
  simp only [rcv?] at h
  exact (List.getElem?_eq_some_iff.mp h).1

theorem rcv?_modRcv (s : Session) (r r' : Ref) (f : Rcv → Rcv) :
    (s.modRcv r f).rcv? r' = if r = r' then (s.rcv? r').map f else s.rcv? r' := by
  simp only [modRcv, rcv?, List.getElem?_modify]
  split
  · rfl
  · cases h' : s.rcvs[r']? <;> simp

theorem rcv?_grown {s s' : Session} {x : Rcv} (h : s'.rcvs = s.rcvs ++ [x]) (r : Ref) :
    s'.rcv? r = if r = s.rcvs.length then some x else s.rcv? r := by
  simp only [rcv?, h, List.getElem?_append]
  split
  · next hlt => rw [if_neg (Nat.ne_of_lt hlt)]
  · next hge =>
    split
    · next heq => subst heq; simp
    · next hne =>
      have h₂ : s.rcvs.length ≤ r := Nat.le_of_not_lt hge
      have h₁ : [x].length ≤ r - s.rcvs.length := Nat.sub_pos_of_lt (Nat.lt_of_le_of_ne h₂ (fun h => hne h.symm))
      rw [List.getElem?_eq_none h₁, List.getElem?_eq_none h₂]

theorem rcv?_startDelivery (s : Session) (r r' : Ref) (l : Rcv) (id : UInt32) (t : Transfer) :
    (s.startDelivery r l id t).rcv? r' =
      if r = r' then (s.rcv? r').map fun l => { l with queue := l.queue ++ [(s.dlvs.length, t)] } else s.rcv? r' := by
  have key : ∀ s' : Session, s'.rcvs = s.rcvs → (s'.modRcv r fun l => { l with queue := l.queue ++ [(s.dlvs.length, t)] }).rcv? r' =
      if r = r' then (s.rcv? r').map fun l => { l with queue := l.queue ++ [(s.dlvs.length, t)] } else s.rcv? r' := by
    intro s' h
    rw [rcv?_modRcv, rcv?_congr h]
  unfold startDelivery newRcv
  cases t.head.settled.getD false
  · simp only [Bool.false_eq_true, if_false]
    show Session.rcv? (Session.modRcv _ _ _) _ = _
    cases h : s.unsettledRcv.get id with
    | none => exact key _ rfl
    | some old => dsimp only; cases old.tx <;> exact key _ rfl
  · exact key _ rfl

theorem startDelivery_log (s : Session) (r : Ref) (l : Rcv) (id : UInt32) (t : Transfer) :
    (s.startDelivery r l id t).log = s.log := by
  unfold startDelivery newRcv
  cases t.head.settled.getD false
  · simp only [Bool.false_eq_true, if_false]
    show Session.log (Session.modRcv _ _ _) = _
    cases h : s.unsettledRcv.get id with
    | none => rfl
    | some old => dsimp only; cases old.tx <;> rfl
  · rfl

theorem Micro.rcv {s s' : Session} (h : Micro s s') : RcvView s s' := by
  have same : s'.log = s.log → s'.rcvs = s.rcvs → RcvView s s' := fun hl h =>
    .quiet [] (by simpa using hl) (by simp) (fun r => by rw [rcv?_congr h])
  have minor : ∀ (r : Ref) (f : Rcv → Rcv), (∀ l, (f l).core = l.core) → s'.log = s.log →
      (∀ r', s'.rcv? r' = if r = r' then (s.rcv? r').map f else s.rcv? r') → RcvView s s' := by
    intro r f hf hl hr
    refine .quiet [] (by simpa using hl) (by simp) fun r' => ?_
    rw [hr]
    split
    · cases s.rcv? r' <;> simp [hf]
    · rfl
  have one : ∀ {r : Ref} {l : Rcv}, s.rcv? r = some l → ∀ (f : Rcv → Rcv),
      (∀ r', s'.rcv? r' = if r = r' then (s.rcv? r').map f else s.rcv? r') →
      ∀ r', s'.rcv? r' = if r = r' then some (f l) else s.rcv? r' := by
    intro r l hl f h r'
    rw [h]
    split
    · next h => subst h; rw [hl]; rfl
    · rfl
  cases h
  case note e he => exact .quiet [e] rfl (by simpa using he.inert.not_receiving) (fun r => rfl)
  case newRcvRemote a _ => exact .new _ _ a rfl rfl
  case newRcvLocal a op => exact .new _ _ a rfl rfl
  case rcvReset k r op hk => exact .reset k r op hk rfl (rcv?_modRcv _ _ · _)
  case rcvClosed r => exact minor r (fun l => { l with closed := true }) (fun _ => rfl) rfl (rcv?_modRcv _ _ · _)
  case rcvDetached r e =>
    exact minor r (fun l => { l with closed := true, error := e }) (fun _ => rfl) rfl (rcv?_modRcv _ _ · _)
  case rcvLimit r n => exact minor r (fun l => { l with maxMessageSize := n }) (fun _ => rfl) rfl (rcv?_modRcv _ _ · _)
  case rcvErrTaken r => exact minor r (fun l => { l with error := none }) (fun _ => rfl) rfl (rcv?_modRcv _ _ · _)
  case grant r n l hl => exact .act r l _ _ hl rfl (one hl _ (rcv?_modRcv _ _ · _)) (.grant n) (by simp)
  case recvNoCredit r t l hl hc =>
    refine .act r l _ _ hl rfl (fun r' => ?_) (.noCredit t hc) (by simp)
    split
    · next h => subst h; exact hl
    · rfl
  case recvRefused r t l hl hc h =>
    exact .act r l _ _ hl rfl (one hl _ (rcv?_modRcv _ _ · _)) (.refused t hc h) (by simp)
  case recvMerge r t l body hk hl hc hb hd hm hs =>
    exact .act r l _ _ hl rfl (one hl _ (rcv?_modRcv _ _ · _)) (.merge t body hk hc hb hd hm hs) (by simp [hb])
  case recvLast r t l body hk hl hc hb hd hm hq hs =>
    exact .act r l _ _ hl rfl (one hl _ (rcv?_modRcv _ _ · _)) (.last t body hk hc hb hd hm hq hs) (by simp [hb])
  case recvLost r t l body hk hl hc hb hm hq =>
    exact .act r l _ _ hl rfl (one hl _ (rcv?_modRcv _ _ · _)) (.lost t body hk hc hb hm hq) (by simp [hb])
  case recvFirst r t l id hk hl hc hb hm hi =>
    refine .act r l _ _ hl (startDelivery_log _ _ _ _ _) (fun r' => ?_) (.first t id hk hc hb hm hi)
      (by rintro _ _ ⟨⟩ _ h; rw [hi] at h; cases h; exact (startDelivery_same _ _ _ _ _).dlvs)
    rw [rcv?_startDelivery, rcv?_modRcv]
    split
    · next h => subst h; rw [show (s.note _).rcv? r = s.rcv? r from rfl, hl]; rfl
    · rfl
  case recvSingle r t l id hk hl hc hb hm hi =>
    refine .act r l _ _ hl (startDelivery_log _ _ _ _ _) (fun r' => ?_) (.single t id hk hc hb hm hi)
      (by rintro _ _ ⟨⟩ _ h; rw [hi] at h; cases h; exact (startDelivery_same _ _ _ _ _).dlvs)
    rw [rcv?_startDelivery, rcv?_modRcv]
    split
    · next h => subst h; rw [show (s.note _).rcv? r = s.rcv? r from rfl, hl]; rfl
    · rfl
  case handed r l d t q hl hq hp => exact .act r l _ _ hl rfl (one hl _ (rcv?_modRcv _ _ · _)) (.handed d t q hq hp) (by simp)
  case flowSess => exact .quiet [_] rfl (by simp [Ev.Receiving]) (fun _ => rfl)
  case flowLink => exact .quiet [_] (by simp; rfl) (by simp [Ev.Receiving]) (fun r => by rw [rcv?_congr (s := s) (by simp)])
  case parkWindow => exact .quiet [_] (by simp; rfl) (by simp [Ev.Receiving]) (fun _ => rfl)
  case sendNow t req tag l ht hl h hp hw =>
    refine .quiet (.took t req.link :: .begun t req.link s.nextOutgoingId :: (transferFrames s.maxFrameSize
      (UInt32.ofNat l.id) s.nextOutgoingId tag req.body req.settled req.format).map .frame)
      (by rw [emit_log, takeCredit_log, List.append_assoc]; rfl) ?_ (fun r => by rw [rcv?_congr (s := s) (by simp)])
    intro e he
    simp only [List.mem_cons, List.mem_map] at he
    rcases he with rfl | rfl | ⟨f, hf, rfl⟩ <;> exact _root_.id
  case emitParked t req tag l ht hl hw =>
    refine .quiet _ (by rw [emit_log]) ?_ (fun r => by rw [rcv?_congr (s := s) (by simp)])
    intro e he
    simp only [List.mem_cons, List.mem_map] at he
    rcases he with rfl | ⟨f, hf, rfl⟩ <;> exact _root_.id
  case settle d st h =>
    rcases settle_log s d st with h | ⟨_, _, h⟩
    · exact same h (by simp)
    · exact .quiet _ h (by simp [Ev.Receiving]) (fun r => by rw [rcv?_congr (s := s) (by simp)])
  case update d st h =>
    rcases updateState_log s d st with h | ⟨_, _, h⟩
    · exact same h (by simp)
    · exact .quiet _ h (by simp [Ev.Receiving]) (fun r => by rw [rcv?_congr (s := s) (by simp)])
  case dropDlv d h =>
    rcases dropDelivery_log s d with h | ⟨_, _, h⟩
    · exact same h (by simp)
    · exact .quiet _ h (by simp [Ev.Receiving]) (fun r => by rw [rcv?_congr (s := s) (by simp)])
  all_goals exact same (by first | rfl | (simp; done)) (by first | rfl | (simp; done))

/-! ## Slots and link objects -/

/-- A slot that is about a receiver link is the only one, and the link has its handle. -/
structure RcvSlots (s : Session) : Prop where
  handle : ∀ k x r, s.links.get k = some x → x.rcv? = some r → ∃ l, s.rcv? r = some l ∧ l.handle = UInt32.ofNat k
  unique : ∀ k k' x x' r, s.links.get k = some x → s.links.get k' = some x' → x.rcv? = some r → x'.rcv? = some r →
    k = k'

/-- Where the receiver links in slots come from. -/
theorem Micro.rcv_slots {s s' : Session} (h : Micro s s') (k : Nat) (x : Link) (r : Ref)
    (hx : s'.links.get k = some x) (hr : x.rcv? = some r) :
    (∃ y, s.links.get k = some y ∧ y.rcv? = some r ∧ (x = y ∨ y.NotEst)) ∨
      (k = s.links.vacantKey ∧ r = s.rcvs.length ∧ x.NotEst ∧
        ∃ rh a, s'.rcvs = s.rcvs ++ [rcvNew (UInt32.ofNat k) rh a]) := by
  have ins : ∀ l : Link, s'.links = s.links.insert l →
      (s.links.vacantKey = k ∧ x = l) ∨ s.links.get k = some x := fun l h => Slab.get_insert_some (by rw [← h]; exact hx)
  have old : s.links.get k = some x → (∃ y, s.links.get k = some y ∧ y.rcv? = some r ∧ (x = y ∨ y.NotEst)) :=
    fun h => ⟨x, h, hr, .inl rfl⟩
  cases h
  case insertSlot l hl =>
    rcases ins l rfl with ⟨_, rfl⟩ | h
    · rw [hl.2] at hr; cases hr
    · exact .inl (old h)
  case newSnd a =>
    rcases ins _ rfl with ⟨_, rfl⟩ | h
    · cases hr
    · exact .inl (old h)
  case newRcvRemote a _ =>
    rcases ins _ rfl with ⟨hk, rfl⟩ | h
    · exact .inr ⟨hk.symm, by simpa [Link.rcv?] using hr.symm, trivial, a.handle, a, by rw [← hk]⟩
    · exact .inl (old h)
  case newRcvLocal a op =>
    rcases ins _ rfl with ⟨hk, rfl⟩ | h
    · exact .inr ⟨hk.symm, by simpa [Link.rcv?] using hr.symm, trivial, _, a, by rw [← hk]⟩
    · exact .inl (old h)
  case estSnd k' r' l o hl hk ho ht _ =>
    rcases Slab.get_set_some hx with ⟨_, rfl⟩ | ⟨_, h⟩
    · cases hr
    · exact .inl (old h)
  case estSndLocal k' l op ho _ _ _ _ _ =>
    rcases Slab.get_set_some hx with ⟨_, rfl⟩ | ⟨_, h⟩
    · cases hr
    · exact .inl (old h)
  case estRcv k' r' src ho =>
    rcases Slab.get_set_some hx with ⟨rfl, rfl⟩ | ⟨_, h⟩
    · exact .inl ⟨_, ho, hr, .inr trivial⟩
    · exact .inl (old h)
  case estRcvLocal k' r' op ho =>
    rcases Slab.get_set_some hx with ⟨rfl, rfl⟩ | ⟨_, h⟩
    · exact .inl ⟨_, ho, hr, .inr trivial⟩
    · exact .inl (old h)
  case closeSlot k' l o ho hl _ =>
    rcases Slab.get_set_some hx with ⟨_, rfl⟩ | ⟨_, h⟩
    · rw [hl.2] at hr; cases hr
    · exact .inl (old h)
  case removeSlot k' _ =>
    have hx : (s.links.remove k').get k = some x := hx
    rw [Slab.get_remove] at hx
    split at hx
    · simp at hx
    · exact .inl (old hx)
  case clearSlots _ =>
    have hx : (Slab.empty : Slab Link).get k = some x := hx
    rw [Slab.get_empty] at hx
    simp at hx
  all_goals exact .inl (old (by first | exact hx | simpa using hx))

/-- Receiver links keep their handle and are never removed. -/
theorem Micro.rcv_kept {s s' : Session} (h : Micro s s') {r : Ref} {l : Rcv} (hl : s.rcv? r = some l) :
    ∃ l', s'.rcv? r = some l' ∧ l'.handle = l.handle ∧ l'.remoteHandle = l.remoteHandle := by
  cases h.rcv
  case quiet evs _ _ hr =>
    have := hr r
    rw [hl] at this
    obtain ⟨l', hl', hc⟩ := Option.map_eq_some_iff.mp this
    exact ⟨l', hl', (core_eq hc).1, (core_eq hc).2.1⟩
  case new _ _ a _ hr =>
    exact ⟨l, by rw [rcv?_grown hr, if_neg (Nat.ne_of_lt (rcv?_lt hl)), hl], rfl, rfl⟩
  case reset k r' op _ _ hr =>
    rw [hr]
    split
    · exact ⟨{ l with queue := [], closed := true }, by rw [hl]; rfl, rfl, rfl⟩
    · exact ⟨l, hl, rfl, rfl⟩
  case act r' l₀ e l' hg _ hr ha _ =>
    rw [hr]
    split
    · next h =>
      subst h
      obtain rfl : l₀ = l := by rw [hg] at hl; exact Option.some.inj hl
      exact ⟨l', rfl, by cases ha <;> rfl, by cases ha <;> rfl⟩
    · exact ⟨l, hl, rfl, rfl⟩

theorem Micro.rcvSlots {s s' : Session} (h : Micro s s') (hi : RcvSlots s) : RcvSlots s' := by
  constructor
  · intro k x r hx hr
    rcases h.rcv_slots k x r hx hr with ⟨y, hy, hyr, _⟩ | ⟨_, rfl, _, rh, a, hs⟩
    · obtain ⟨l, hl, hh⟩ := hi.handle k y r hy hyr
      obtain ⟨l', hl', hh', _⟩ := h.rcv_kept hl
      exact ⟨l', hl', hh'.trans hh⟩
    · exact ⟨_, by rw [rcv?_grown hs, if_pos rfl], rfl⟩
  · intro k k' x x' r hx hx' hr hr'
    have bound : ∀ k x, s.links.get k = some x → x.rcv? = some s.rcvs.length → False := by
      intro k x hx hr
      obtain ⟨l, hl, _⟩ := hi.handle k x _ hx hr
      exact absurd (rcv?_lt hl) (Nat.lt_irrefl _)
    rcases h.rcv_slots k x r hx hr with ⟨y, hy, hyr, _⟩ | ⟨hk, hr₁, _⟩ <;>
      rcases h.rcv_slots k' x' r hx' hr' with ⟨y', hy', hyr', _⟩ | ⟨hk', hr₂, _⟩
    · exact hi.unique k k' y y' r hy hy' hyr hyr'
    · subst hr₂; exact (bound k y hy hyr).elim
    · subst hr₁; exact (bound k' y' hy' hyr').elim
    · exact hk.trans hk'.symm

theorem Session.Reachable.rcvSlots {s : Session} (h : Reachable s) : RcvSlots s := by
  refine h.invariant ?_ (fun _ _ h => h.rcvSlots)
  rintro _ ⟨_, _, _, _, _, rfl⟩
  constructor
  · intro k x r hx
    simp [Session.new, Slab.get_empty] at hx
  · intro k k' x x' r hx
    simp [Session.new, Slab.get_empty] at hx

/-! ## Reassembly -/

theorem receivedOn_append (r : Ref) (a b : List Ev) : receivedOn r (a ++ b) = receivedOn r a ++ receivedOn r b := by
  simp [receivedOn]

theorem handedOn_append (r : Ref) (a b : List Ev) : handedOn r (a ++ b) = handedOn r a ++ handedOn r b := by
  simp [handedOn]

theorem receivedOn_quiet {evs : List Ev} (h : ∀ e ∈ evs, ¬ e.Receiving) (r : Ref) : receivedOn r evs = [] := by
  unfold receivedOn
  rw [List.filterMap_eq_nil_iff]
  intro e he
  have := h e he
  cases e <;> first | rfl | exact (this trivial).elim

theorem handedOn_quiet {evs : List Ev} (h : ∀ e ∈ evs, ¬ e.Receiving) (r : Ref) : handedOn r evs = [] := by
  unfold handedOn
  rw [List.filterMap_eq_nil_iff]
  intro e he
  have := h e he
  cases e <;> first | rfl | exact (this trivial).elim

theorem optEnc_payload (t : Transfer) : optEnc TransferBody.tenc t.body = t.payload := by
  unfold Transfer.payload optEnc
  cases t.body <;> rfl

theorem assemble_append (ts : List Transfer) (t : Transfer) : assemble (ts ++ [t]) = (assemble ts).add t := by
  simp [assemble]

/-- What the application took and what is ready for it are the complete messages, in order; the message still open is at
the back of the queue with its payload kept aside. -/
structure Assembled (r : Ref) (log : List Ev) (l : Rcv) : Prop where
  closed : l.partialBody = none → (assemble (receivedOn r log)).open_ = none ∧
    (handedOn r log ++ l.queue).map (·.2.asArrival) = (assemble (receivedOn r log)).done
  opened : ∀ body, l.partialBody = some body → ∃ q d t, l.queue = q ++ [(d, t)] ∧
    (assemble (receivedOn r log)).open_ = some { head := t.head, payload := body } ∧
    (handedOn r log ++ q).map (·.2.asArrival) = (assemble (receivedOn r log)).done

/-- Links that were never established have received nothing, and are as empty as they were made. -/
structure Untouched (r : Ref) (log : List Ev) (l : Rcv) : Prop where
  received : receivedOn r log = []
  queue : l.queue = []
  part : l.partialBody = none

structure RcvInv (s : Session) : Prop where
  assembled : ∀ r l, s.rcv? r = some l → Assembled r s.log l
  waiting : ∀ k x r l, s.links.get k = some x → x.rcv? = some r → x.NotEst → s.rcv? r = some l → Untouched r s.log l
  absent : ∀ r, s.rcv? r = none → receivedOn r s.log = [] ∧ handedOn r s.log = []

theorem Assembled.congr {r : Ref} {log log' : List Ev} {l l' : Rcv} (h : Assembled r log l)
    (h₁ : receivedOn r log' = receivedOn r log) (h₂ : handedOn r log' = handedOn r log) (h₃ : l'.queue = l.queue)
    (h₄ : l'.partialBody = l.partialBody) : Assembled r log' l' := by
  constructor
  · intro hp
    rw [h₁, h₂, h₃]
    exact h.closed (h₄ ▸ hp)
  · intro body hp
    rw [h₁, h₂, h₃]
    exact h.opened body (h₄ ▸ hp)

theorem Assembled.empty {r : Ref} {log : List Ev} {l : Rcv} (h₁ : receivedOn r log = []) (h₂ : handedOn r log = [])
    (h₃ : l.queue = []) (h₄ : l.partialBody = none) : Assembled r log l := by
  constructor
  · intro _
    rw [h₁, h₂, h₃]
    exact ⟨rfl, rfl⟩
  · intro body hp
    rw [h₄] at hp; cases hp

theorem Untouched.assembled_handed {r : Ref} {log : List Ev} {l : Rcv} (h : Untouched r log l) (ha : Assembled r log l) :
    handedOn r log = [] := by
  have := (ha.closed h.part).2
  rw [h.received, h.queue] at this
  simpa [assemble] using this

/-- The events and link states that go with an action. -/
theorem RcvAct.evs {s : Session} {r : Ref} {l l' : Rcv} {e : Ev} (h : RcvAct s r l e l') (r' : Ref) (hr : r' ≠ r) :
    receivedOn r' [e] = [] ∧ handedOn r' [e] = [] := by
  have hr' : r ≠ r' := fun h => hr h.symm
  cases h <;> simp [receivedOn, handedOn, hr']

theorem setBackBody_append (q : List (Ref × Transfer)) (d : Ref) (t : Transfer) (b : Bytes) :
    setBackBody (q ++ [(d, t)]) b = q ++ [(d, { t with body := some (.data b) })] := by
  simp [setBackBody]

theorem RcvAct.assembled {s : Session} {r : Ref} {l l' : Rcv} {e : Ev} (h : RcvAct s r l e l')
    (hi : Assembled r s.log l) : Assembled r (s.log ++ [e]) l' := by
  cases h
  case grant n => exact hi.congr (by simp [receivedOn]) (by simp [handedOn]) rfl rfl
  case noCredit t hc => exact hi.congr (by simp [receivedOn]) (by simp [handedOn]) rfl rfl
  case refused t hc _ => exact hi.congr (by simp [receivedOn]) (by simp [handedOn]) rfl rfl
  case merge t body hk hc hb hd hm hs =>
    obtain ⟨q, d, t₀, hq, ho, hdone⟩ := hi.opened body hb
    have hrec : receivedOn r (s.log ++ [.received r t]) = receivedOn r s.log ++ [t] := by simp [receivedOn]
    have hhan : handedOn r (s.log ++ [.received r t]) = handedOn r s.log := by simp [handedOn]
    constructor
    · intro h; cases h
    · rintro _ ⟨⟩
      refine ⟨q, d, t₀, hq, ?_, ?_⟩
      · rw [hrec, assemble_append, Assembly.add, ho, optEnc_payload, hm]; rfl
      · rw [hrec, hhan, hdone, assemble_append, Assembly.add, ho, hm]; rfl
  case last t body hk hc hb hd hm hqn hs =>
    obtain ⟨q, d, t₀, hq, ho, hdone⟩ := hi.opened body hb
    have hrec : receivedOn r (s.log ++ [.received r t]) = receivedOn r s.log ++ [t] := by simp [receivedOn]
    have hhan : handedOn r (s.log ++ [.received r t]) = handedOn r s.log := by simp [handedOn]
    constructor
    · intro _
      rw [hrec, hhan, assemble_append, Assembly.add, ho, hm]
      refine ⟨rfl, ?_⟩
      show (handedOn r s.log ++ setBackBody l.queue _).map _ = _
      rw [hq, setBackBody_append, ← List.append_assoc, List.map_append, hdone, optEnc_payload]
      rfl
    · intro _ h; cases h
  case lost t body hk hc hb hm hqn =>
    obtain ⟨q, d, t₀, hq, _⟩ := hi.opened body hb
    rw [hqn] at hq
    simp at hq
  case first t id hk hc hb hm hi' =>
    obtain ⟨ho, hdone⟩ := hi.closed hb
    have hrec : receivedOn r (s.log ++ [.received r t]) = receivedOn r s.log ++ [t] := by simp [receivedOn]
    have hhan : handedOn r (s.log ++ [.received r t]) = handedOn r s.log := by simp [handedOn]
    constructor
    · intro h; cases h
    · rintro _ ⟨⟩
      refine ⟨l.queue, _, _, rfl, ?_, ?_⟩
      · rw [hrec, assemble_append, Assembly.add, ho, optEnc_payload, hm]; rfl
      · rw [hrec, hhan, hdone, assemble_append, Assembly.add, ho, hm]; rfl
  case single t id hk hc hb hm hi' =>
    obtain ⟨ho, hdone⟩ := hi.closed hb
    have hrec : receivedOn r (s.log ++ [.received r t]) = receivedOn r s.log ++ [t] := by simp [receivedOn]
    have hhan : handedOn r (s.log ++ [.received r t]) = handedOn r s.log := by simp [handedOn]
    constructor
    · intro _
      rw [hrec, hhan, assemble_append, Assembly.add, ho, hm]
      refine ⟨rfl, ?_⟩
      show (handedOn r s.log ++ (l.queue ++ [(s.dlvs.length, t)])).map _ = _
      rw [← List.append_assoc, List.map_append, hdone]
      rfl
    · intro body h
      exact absurd (show l.partialBody = some body from h) (by rw [hb]; simp)
  case handed d t q hq hp =>
    have hrec : receivedOn r (s.log ++ [.handed r d t]) = receivedOn r s.log := by simp [receivedOn]
    have hhan : handedOn r (s.log ++ [.handed r d t]) = handedOn r s.log ++ [(d, t)] := by simp [handedOn]
    constructor
    · intro h
      obtain ⟨ho, hdone⟩ := hi.closed h
      rw [hrec, hhan]
      refine ⟨ho, ?_⟩
      rw [← hdone, hq, List.append_assoc]; rfl
    · intro body h
      obtain ⟨q', d', t', hq', ho, hdone⟩ := hi.opened body h
      have hqn : q ≠ [] := by
        rcases hp with hp | hp
        · rw [show l.partialBody = some body from h] at hp; cases hp
        · exact hp
      rw [hrec, hhan]
      cases q' with
      | nil =>
        rw [hq] at hq'
        exact absurd (by simpa using hq' : _ ∧ q = []).2 hqn
      | cons z q' =>
        have h' : (d, t) = z ∧ q = q' ++ [(d', t')] := by rw [hq] at hq'; simpa using hq'
        refine ⟨q', d', t', h'.2, ho, ?_⟩
        rw [← hdone, ← h'.1, List.append_assoc]; rfl

theorem Micro.rcvInv {s s' : Session} (h : Micro s s') (hs : RcvSlots s) (hi : RcvInv s) : RcvInv s' := by
  have hw : ∀ k x r l', s'.links.get k = some x → x.rcv? = some r → x.NotEst → s'.rcv? r = some l' →
      (∃ l, s.rcv? r = some l ∧ Untouched r s.log l) ∨ (s.rcv? r = none ∧ ∃ h rh a, l' = rcvNew h rh a) := by
    intro k x r l' hx hr hn hl'
    rcases h.rcv_slots k x r hx hr with ⟨y, hy, hyr, hxy⟩ | ⟨_, rfl, _, rh, a, hsr⟩
    · obtain ⟨l, hl, _⟩ := hs.handle k y r hy hyr
      refine .inl ⟨l, hl, hi.waiting k y r l hy hyr ?_ hl⟩
      rcases hxy with rfl | h
      · exact hn
      · exact h
    · rw [rcv?_grown hsr, if_pos rfl] at hl'
      exact .inr ⟨by simp [rcv?], _, _, _, (Option.some.inj hl').symm⟩
  cases h.rcv
  case quiet evs hlog he hr =>
    have h₁ : ∀ r, receivedOn r s'.log = receivedOn r s.log := fun r => by
      rw [hlog, receivedOn_append, receivedOn_quiet he, List.append_nil]
    have h₂ : ∀ r, handedOn r s'.log = handedOn r s.log := fun r => by
      rw [hlog, handedOn_append, handedOn_quiet he, List.append_nil]
    have h₃ : ∀ r l', s'.rcv? r = some l' → ∃ l, s.rcv? r = some l ∧ l'.core = l.core := by
      intro r l' hl'
      have := hr r
      rw [hl'] at this
      obtain ⟨l, hl, hc⟩ := Option.map_eq_some_iff.mp this.symm
      exact ⟨l, hl, hc.symm⟩
    constructor
    · intro r l' hl'
      obtain ⟨l, hl, hc⟩ := h₃ r l' hl'
      exact (hi.assembled r l hl).congr (h₁ r) (h₂ r) (core_eq hc).2.2.1 (core_eq hc).2.2.2.1
    · intro k x r l' hx hxr hn hl'
      obtain ⟨l, hl, hc⟩ := h₃ r l' hl'
      rcases hw k x r l' hx hxr hn hl' with ⟨l₀, hl₀, hu⟩ | ⟨hl₀, _⟩
      · obtain rfl : l₀ = l := by rw [hl] at hl₀; exact (Option.some.inj hl₀).symm
        exact ⟨by rw [h₁]; exact hu.received, (core_eq hc).2.2.1.trans hu.queue, (core_eq hc).2.2.2.1.trans hu.part⟩
      · rw [hl] at hl₀; cases hl₀
    · intro r hr'
      have := hr r
      rw [hr'] at this
      rw [h₁, h₂]
      exact hi.absent r (by simpa using this.symm)
  case new hd rh a hlog hr =>
    have hnew : s.rcv? s.rcvs.length = none := by simp [rcv?]
    constructor
    · intro r l' hl'
      rw [rcv?_grown hr] at hl'
      split at hl'
      · next h =>
        subst h
        obtain rfl := Option.some.inj hl'
        have := hi.absent _ hnew
        rw [hlog]
        exact .empty this.1 this.2 rfl rfl
      · rw [hlog]; exact hi.assembled r l' hl'
    · intro k x r l' hx hxr hn hl'
      rcases hw k x r l' hx hxr hn hl' with ⟨l₀, hl₀, hu⟩ | ⟨hl₀, _, _, _, rfl⟩
      · rw [rcv?_grown hr, if_neg (Nat.ne_of_lt (rcv?_lt hl₀)), hl₀] at hl'
        obtain rfl := Option.some.inj hl'
        rw [hlog]; exact hu
      · exact ⟨by rw [hlog]; exact (hi.absent r hl₀).1, rfl, rfl⟩
    · intro r hr'
      rw [rcv?_grown hr] at hr'
      split at hr'
      · cases hr'
      · rw [hlog]; exact hi.absent r hr'
  case reset k₀ r₀ op hk hlog hr =>
    have h₃ : ∀ r l', s'.rcv? r = some l' → ∃ l, s.rcv? r = some l ∧ l'.queue = l.queue ∧ l'.partialBody = l.partialBody := by
      intro r l' hl'
      rw [hr] at hl'
      split at hl'
      · next h =>
        subst h
        obtain ⟨l, hl, rfl⟩ := Option.map_eq_some_iff.mp hl'
        have := hi.waiting k₀ _ r₀ l hk rfl trivial hl
        exact ⟨l, hl, this.queue.symm, rfl⟩
      · exact ⟨l', hl', rfl, rfl⟩
    constructor
    · intro r l' hl'
      obtain ⟨l, hl, hc⟩ := h₃ r l' hl'
      rw [hlog]
      exact (hi.assembled r l hl).congr rfl rfl hc.1 hc.2
    · intro k x r l' hx hxr hn hl'
      obtain ⟨l, hl, hc⟩ := h₃ r l' hl'
      rcases hw k x r l' hx hxr hn hl' with ⟨l₀, hl₀, hu⟩ | ⟨hl₀, _⟩
      · obtain rfl : l₀ = l := by rw [hl] at hl₀; exact (Option.some.inj hl₀).symm
        rw [hlog]
        exact ⟨hu.received, hc.1.trans hu.queue, hc.2.trans hu.part⟩
      · rw [hl] at hl₀; cases hl₀
    · intro r hr'
      rw [hr] at hr'
      rw [hlog]
      refine hi.absent r ?_
      split at hr'
      · simpa using hr'
      · exact hr'
  case act r₀ l₀ e l₀' hg hlog hr ha hdl =>
    have hev : ∀ r, r ≠ r₀ → receivedOn r s'.log = receivedOn r s.log ∧ handedOn r s'.log = handedOn r s.log := by
      intro r hne
      have := ha.evs r hne
      rw [hlog, receivedOn_append, handedOn_append, this.1, this.2, List.append_nil, List.append_nil]
      exact ⟨rfl, rfl⟩
    constructor
    · intro r l' hl'
      rw [hr] at hl'
      split at hl'
      · next h =>
        subst h
        obtain rfl := Option.some.inj hl'
        rw [hlog]
        exact ha.assembled (hi.assembled _ _ hg)
      · next h =>
        have := hev r (fun h' => h h'.symm)
        exact (hi.assembled r l' hl').congr this.1 this.2 rfl rfl
    · intro k x r l' hx hxr hn hl'
      rcases hw k x r l' hx hxr hn hl' with ⟨l, hl, hu⟩ | ⟨hl₀, _⟩
      · rw [hr] at hl'
        split at hl'
        · next h =>
          subst h
          obtain rfl : l₀ = l := by rw [hg] at hl; exact Option.some.inj hl
          obtain rfl := Option.some.inj hl'
          -- an established link has one slot only
          have no : s.Receives r₀ → False := by
            rintro ⟨k', hk'⟩
            rcases h.rcv_slots k x r₀ hx hxr with ⟨y, hy, hyr, hxy⟩ | ⟨_, h', _⟩
            · obtain rfl := hs.unique k k' y _ r₀ hy hk' hyr rfl
              rw [hy] at hk'
              obtain rfl := Option.some.inj hk'
              rcases hxy with rfl | h
              · exact hn
              · exact h
            · exact absurd (rcv?_lt hg) (by rw [h']; exact Nat.lt_irrefl _)
          rw [hlog]
          cases ha
          case grant n => exact ⟨by rw [receivedOn_append, hu.received]; rfl, hu.queue, hu.part⟩
          case noCredit t hc => exact ⟨by rw [receivedOn_append, hu.received]; rfl, hu.queue, hu.part⟩
          case refused t hc _ => exact ⟨by rw [receivedOn_append, hu.received]; rfl, hu.queue, hu.part⟩
          case handed d t q hq hp => rw [hu.queue] at hq; cases hq
          all_goals exact (no (by assumption)).elim
        · next h =>
          obtain rfl : l' = l := by rw [hl] at hl'; exact (Option.some.inj hl').symm
          exact ⟨by rw [(hev r (fun h' => h h'.symm)).1]; exact hu.received, hu.queue, hu.part⟩
      · rw [hr] at hl'
        split at hl'
        · next h => subst h; rw [hg] at hl₀; cases hl₀
        · rw [hl₀] at hl'; cases hl'
    · intro r hr'
      rw [hr] at hr'
      split at hr'
      · cases hr'
      · next h =>
        have := hev r (fun h' => h h'.symm)
        rw [this.1, this.2]
        exact hi.absent r hr'

theorem Session.Reachable.rcvInv {s : Session} (h : Reachable s) : RcvInv s := by
  have : RcvSlots s ∧ RcvInv s := by
    refine h.invariant (P := fun s => RcvSlots s ∧ RcvInv s) ?_ (fun _ _ h hi => ⟨h.rcvSlots hi.1, h.rcvInv hi.1 hi.2⟩)
    intro s hf
    refine ⟨Reachable.rcvSlots ⟨s, [], hf, rfl⟩, ?_⟩
    obtain ⟨_, _, _, _, _, rfl⟩ := hf
    refine ⟨?_, ?_, ?_⟩
    · intro r l hl; simp [Session.new, rcv?] at hl
    · intro k x r l hx; simp [Session.new, Slab.get_empty] at hx
    · intro r _; exact ⟨rfl, rfl⟩
  exact this.2

/-! ## Credit -/

theorem creditLeft_append (r : Ref) (a b : List Ev) : creditLeft r (a ++ b) = b.foldl (creditAfter r) (creditLeft r a) := by
  simp [creditLeft]

theorem creditAfter_quiet {evs : List Ev} (h : ∀ e ∈ evs, ¬ e.Receiving) (r : Ref) (c : UInt32) :
    evs.foldl (creditAfter r) c = c := by
  induction evs generalizing c with
  | nil => rfl
  | cons e evs ih =>
    have : creditAfter r c e = c := by
      have := h e (by simp)
      cases e <;> first | rfl | exact (this trivial).elim
    rw [List.foldl_cons, this]
    exact ih (fun e he => h e (by simp [he])) c

theorem RcvAct.credit {s : Session} {r : Ref} {l l' : Rcv} {e : Ev} (h : RcvAct s r l e l') (r' : Ref) (c : UInt32) :
    creditAfter r' c e = if r' = r then (if c = l.credit then l'.credit else creditAfter r' c e) else c := by
  by_cases hr : r' = r
  · subst hr
    rw [if_pos rfl]
    split
    · next hc =>
      subst hc
      cases h <;> simp_all [creditAfter, Rcv.charged]
      split <;> simp_all
    · rfl
  · have hr' : r ≠ r' := fun h => hr h.symm
    rw [if_neg hr]
    cases h <;> simp [creditAfter, hr']

/-- The credit of a link is what its history says. -/
def CreditKept (s : Session) : Prop := ∀ r, creditLeft r s.log = ((s.rcv? r).map Rcv.credit).getD 0

theorem Micro.creditKept {s s' : Session} (h : Micro s s') (hi : CreditKept s) : CreditKept s' := by
  intro r
  have hi := hi r
  cases h.rcv
  case quiet evs hlog he hr =>
    rw [hlog, creditLeft_append, creditAfter_quiet he, hi]
    have := hr r
    cases h₁ : s.rcv? r <;> cases h₂ : s'.rcv? r <;> rw [h₁, h₂] at this
    · cases this
    · cases this
    · exact (core_eq (Option.some.inj this)).2.2.2.2.1.symm
  case new _ _ a hlog hr =>
    rw [hlog, hi, rcv?_grown hr]
    split
    · next h => subst h; simp [rcv?, rcvNew]
    · rfl
  case reset k₀ r₀ op hk hlog hr =>
    rw [hlog, hi, hr]
    split
    · cases s.rcv? r <;> rfl
    · rfl
  case act r₀ l₀ e l₀' hg hlog hr ha hdl =>
    rw [hlog, creditLeft_append, List.foldl_cons, List.foldl_nil, ha.credit, hr]
    by_cases h : r = r₀
    · subst h
      rw [if_pos rfl, if_pos (by rw [hi, hg]; rfl), if_pos rfl]; rfl
    · rw [if_neg h, if_neg (fun h' => h h'.symm)]
      exact hi

theorem Session.Reachable.creditKept {s : Session} (h : Reachable s) : CreditKept s := by
  refine h.invariant ?_ (fun _ _ h => h.creditKept)
  rintro _ ⟨_, _, _, _, _, rfl⟩ r
  rfl

/-- Frames are taken in only while there is credit. -/
def CreditGuard (s : Session) : Prop :=
  ∀ pre r t post, s.log = pre ++ .received r t :: post → creditLeft r pre ≠ 0

theorem Micro.creditGuard {s s' : Session} (h : Micro s s') (hk : CreditKept s) (hi : CreditGuard s) : CreditGuard s' := by
  intro pre r t post hsplit
  have old : ∀ evs, s'.log = s.log ++ evs → (∀ r t, .received r t ∉ evs) → creditLeft r pre ≠ 0 := by
    intro evs hlog hn
    rw [hlog] at hsplit
    rcases List.append_eq_append_iff.mp hsplit with ⟨c, rfl, hc⟩ | ⟨c, hc, hc'⟩
    · exact (hn r t (by rw [hc]; simp)).elim
    · cases c with
      | nil => exact (hn r t (by rw [List.nil_append] at hc'; rw [← hc']; simp)).elim
      | cons x c =>
        obtain ⟨rfl, rfl⟩ : Ev.received r t = x ∧ post = c ++ evs := by simpa using hc'
        exact hi pre r t c hc
  cases h.rcv
  case quiet evs hlog he hr => exact old evs hlog (fun r t h => he _ h trivial)
  case new hlog _ => exact old [] (by simpa using hlog) (by simp)
  case reset hlog _ => exact old [] (by simpa using hlog) (by simp)
  case act r₀ l₀ e l₀' hg hlog hr ha hdl =>
    by_cases hn : ∀ r t, .received r t ∉ [e]
    · exact old [e] hlog hn
    · obtain ⟨r₁, t₁, he⟩ : ∃ r t, Ev.received r t = e := by
        have := hn
        simp only [List.mem_singleton, not_forall, not_not] at this
        exact this
      subst he
      have hl : creditLeft r₁ s.log ≠ 0 := by
        rw [hk r₁]
        cases ha <;> (rw [hg]; assumption)
      rw [hlog] at hsplit
      rcases List.append_eq_append_iff.mp hsplit with ⟨c, rfl, hc⟩ | ⟨c, hc, hc'⟩
      · cases c with
        | nil =>
          obtain ⟨⟨rfl, rfl⟩, rfl⟩ : (r₁ = r ∧ t₁ = t) ∧ [] = post := by simpa using hc
          rw [List.append_nil]; exact hl
        | cons x c => simp at hc
      · cases c with
        | nil =>
          obtain ⟨⟨rfl, rfl⟩, rfl⟩ : (r = r₁ ∧ t = t₁) ∧ post = [] := by simpa using hc'
          rw [List.append_nil] at hc; rw [← hc]; exact hl
        | cons x c =>
          obtain ⟨rfl, rfl⟩ : Ev.received r t = x ∧ post = c ++ [.received r₁ t₁] := by simpa using hc'
          exact hi pre r t c hc

theorem Session.Reachable.creditGuard {s : Session} (h : Reachable s) : CreditGuard s := by
  have : CreditKept s ∧ CreditGuard s := by
    refine h.invariant (P := fun s => CreditKept s ∧ CreditGuard s) ?_
      (fun _ _ h hi => ⟨h.creditKept hi.1, h.creditGuard hi.1 hi.2⟩)
    intro s hf
    refine ⟨Reachable.creditKept ⟨s, [], hf, rfl⟩, ?_⟩
    obtain ⟨_, _, _, _, _, rfl⟩ := hf
    intro pre r t post h
    simp [Session.new] at h
  exact this.2

/-! ## Links that are gone -/

/-- The link exists and no slot is about it: it has been detached, closed or refused. -/
def Gone (s : Session) (r : Ref) : Prop :=
  (∃ l, s.rcv? r = some l) ∧ ∀ k x, s.links.get k = some x → x.rcv? ≠ some r

theorem Micro.gone {s s' : Session} (h : Micro s s') {r : Ref} (hg : Gone s r) :
    Gone s' r ∧ receivedOn r s'.log = receivedOn r s.log := by
  obtain ⟨⟨l, hl⟩, hk⟩ := hg
  have hno : ¬ s.Receives r := fun ⟨k, h⟩ => hk k _ h rfl
  refine ⟨⟨?_, ?_⟩, ?_⟩
  · obtain ⟨l', hl', _⟩ := h.rcv_kept hl
    exact ⟨l', hl'⟩
  · intro k x hx hr
    rcases h.rcv_slots k x r hx hr with ⟨y, hy, hyr, _⟩ | ⟨_, h', _⟩
    · exact hk k y hy hyr
    · exact absurd (rcv?_lt hl) (by rw [h']; exact Nat.lt_irrefl _)
  · cases h.rcv
    case quiet evs hlog he hr => rw [hlog, receivedOn_append, receivedOn_quiet he, List.append_nil]
    case new hlog _ => rw [hlog]
    case reset hlog _ => rw [hlog]
    case act r₀ l₀ e l₀' hg hlog hr ha hdl =>
      rw [hlog, receivedOn_append]
      by_cases hr' : r = r₀
      · subst hr'
        cases ha <;> first | exact (hno (by assumption)).elim | simp [receivedOn]
      · rw [(ha.evs r hr').1, List.append_nil]

theorem Gone.run {s : Session} {r : Ref} (h : Gone s r) (steps : List Step) :
    Gone (s.run steps) r ∧ receivedOn r (s.run steps).log = receivedOn r s.log := by
  refine (run_micros s steps).invariant (P := fun s' => Gone s' r ∧ receivedOn r s'.log = receivedOn r s.log) ?_ ⟨h, rfl⟩
  intro a b hm ⟨hg, hr⟩
  have := hm.gone hg
  exact ⟨this.1, this.2.trans hr⟩

/-! ## Delivery objects of received messages -/

/-- The delivery objects a receiver link made, oldest first, with the performative that began each. -/
def keys (s : Session) (r : Ref) : List (Ref × TransferHead) :=
  (handedOn r s.log ++ ((s.rcv? r).map Rcv.queue).getD []).map fun p => (p.1, p.2.head)

theorem setBackBody_keys (q : List (Ref × Transfer)) (b : Bytes) :
    (setBackBody q b).map (fun p => (p.1, p.2.head)) = q.map fun p => (p.1, p.2.head) := by
  rcases List.eq_nil_or_concat q with rfl | ⟨q, ⟨d, t⟩, rfl⟩
  · rfl
  · rw [List.concat_eq_append, setBackBody_append]; simp

theorem Micro.keys {s s' : Session} (h : Micro s s') (hi : RcvInv s) :
    (∀ r, keys s' r = keys s r) ∨
    ∃ r h id, (∀ r', keys s' r' = if r = r' then keys s r' ++ [(s.dlvs.length, h)] else keys s r') ∧
      h.deliveryId = some id ∧
      s'.dlvs = s.dlvs ++ [newDlv false id (h.deliveryTag.getD []) (h.settled.getD false)] := by
  cases h.rcv
  case quiet evs hlog he hr =>
    left
    intro r
    have := hr r
    have hq : ((s'.rcv? r).map Rcv.queue).getD [] = ((s.rcv? r).map Rcv.queue).getD [] := by
      cases h₁ : s.rcv? r <;> cases h₂ : s'.rcv? r <;> rw [h₁, h₂] at this
      · cases this
      · cases this
      · exact (core_eq (Option.some.inj this)).2.2.1
    rw [Rt.keys, Rt.keys, hlog, handedOn_append, handedOn_quiet he, List.append_nil, hq]
  case new _ _ a hlog hr =>
    left
    intro r
    rw [Rt.keys, Rt.keys, hlog, rcv?_grown hr]
    split
    · next h => subst h; simp [rcv?, rcvNew]
    · rfl
  case reset k₀ r₀ op hk hlog hr =>
    left
    intro r
    rw [Rt.keys, Rt.keys, hlog, hr]
    split
    · next h =>
      subst h
      cases hl : s.rcv? r₀ with
      | none => rfl
      | some l =>
        have := (hi.waiting k₀ _ r₀ l hk rfl trivial hl).queue
        simp [this]
    · rfl
  case act r₀ l₀ e l₀' hg hlog hr ha hdl =>
    have other : ∀ r, r₀ ≠ r → Rt.keys s' r = Rt.keys s r := by
      intro r hne
      rw [Rt.keys, Rt.keys, hlog, handedOn_append, (ha.evs r (fun h => hne h.symm)).2, List.append_nil, hr, if_neg hne]
    have this₀ : Rt.keys s' r₀ = (handedOn r₀ (s.log ++ [e]) ++ l₀'.queue).map fun p => (p.1, p.2.head) := by
      rw [Rt.keys, hlog, hr, if_pos rfl]; rfl
    have this₁ : Rt.keys s r₀ = (handedOn r₀ s.log ++ l₀.queue).map fun p => (p.1, p.2.head) := by
      rw [Rt.keys, hg]; rfl
    have same : Rt.keys s' r₀ = Rt.keys s r₀ → ∀ r, Rt.keys s' r = Rt.keys s r := by
      intro h r
      by_cases hne : r₀ = r
      · subst hne; exact h
      · exact other r hne
    have more : ∀ t id, e = .received r₀ t → l₀.partialBody = none → t.head.deliveryId = some id →
        Rt.keys s' r₀ = Rt.keys s r₀ ++ [(s.dlvs.length, t.head)] →
        ∃ r h id, (∀ r', Rt.keys s' r' = if r = r' then Rt.keys s r' ++ [(s.dlvs.length, h)] else Rt.keys s r') ∧
          h.deliveryId = some id ∧
          s'.dlvs = s.dlvs ++ [newDlv false id (h.deliveryTag.getD []) (h.settled.getD false)] := by
      intro t id he hb hid hk
      refine ⟨r₀, t.head, id, fun r' => ?_, hid, hdl t id he hb hid⟩
      split
      · next h => subst h; exact hk
      · next h => exact other r' h
    cases ha
    case grant n => exact .inl (same (by rw [this₀, this₁]; simp [handedOn]))
    case noCredit t hc => exact .inl (same (by rw [this₀, this₁]; simp [handedOn]))
    case refused t hc _ => exact .inl (same (by rw [this₀, this₁]; simp [handedOn]))
    case merge t body _ _ _ _ _ _ => exact .inl (same (by rw [this₀, this₁]; simp [handedOn]))
    case last t body _ _ _ _ _ _ _ =>
      refine .inl (same ?_)
      rw [this₀, this₁, List.map_append, List.map_append, setBackBody_keys]
      simp [handedOn]
    case lost t body _ _ _ _ _ => exact .inl (same (by rw [this₀, this₁]; simp [handedOn]))
    case first t id _ _ hb _ hid =>
      exact .inr (more t id rfl hb hid (by rw [this₀, this₁]; simp [handedOn]))
    case single t id _ _ hb _ hid =>
      exact .inr (more t id rfl hb hid (by rw [this₀, this₁]; simp [handedOn]))
    case handed d t q hq hp =>
      exact .inl (same (by rw [this₀, this₁, hq]; simp [handedOn]))

/-- Each message has a delivery object of its own, made for it. -/
structure OwnDlv (s : Session) : Prop where
  object : ∀ r d h, (d, h) ∈ keys s r → ∃ x, s.dlv? d = some x ∧ x.sender = false ∧ h.deliveryId = some x.id ∧
    x.tag = h.deliveryTag.getD []
  sorted : ∀ r, (keys s r).Pairwise (fun a b => a.1 < b.1)
  disjoint : ∀ r r' d h h', (d, h) ∈ keys s r → (d, h') ∈ keys s r' → r = r'

theorem Micro.ownDlv {s s' : Session} (h : Micro s s') (hr : RcvInv s) (hi : OwnDlv s) : OwnDlv s' := by
  have kept : ∀ r d h', (d, h') ∈ Rt.keys s r → ∃ x, s'.dlv? d = some x ∧ x.sender = false ∧ h'.deliveryId = some x.id ∧
      x.tag = h'.deliveryTag.getD [] := by
    intro r d h' hm
    obtain ⟨x, hx, h₁, h₂, h₃⟩ := hi.object r d h' hm
    obtain ⟨x', hx', ho⟩ := h.dlv_kept d x hx
    exact ⟨x', hx', ho.sender.trans h₁, by rw [ho.id]; exact h₂, ho.tag.trans h₃⟩
  have old : ∀ r d h', (d, h') ∈ Rt.keys s r → d < s.dlvs.length := by
    intro r d h' hm
    obtain ⟨x, hx, _⟩ := hi.object r d h' hm
    exact dlv?_lt hx
  rcases h.keys hr with hk | ⟨r₀, h₀, id, hk, hid, hd⟩
  · constructor
    · intro r d h' hm; rw [hk] at hm; exact kept r d h' hm
    · intro r; rw [hk]; exact hi.sorted r
    · intro r r' d h' h'' hm hm'; rw [hk] at hm hm'; exact hi.disjoint r r' d h' h'' hm hm'
  · have cases' : ∀ r d h', (d, h') ∈ Rt.keys s' r →
        (d, h') ∈ Rt.keys s r ∨ (r = r₀ ∧ d = s.dlvs.length ∧ h' = h₀) := by
      intro r d h' hm
      rw [hk] at hm
      split at hm
      · next h =>
        rcases List.mem_append.mp hm with hm | hm
        · exact .inl hm
        · right
          have : d = s.dlvs.length ∧ h' = h₀ := by simpa using hm
          exact ⟨h.symm, this⟩
      · exact .inl hm
    constructor
    · intro r d h' hm
      rcases cases' r d h' hm with hm | ⟨_, rfl, rfl⟩
      · exact kept r d h' hm
      · exact ⟨_, by rw [dlv?_grown hd, if_pos rfl], rfl, hid, rfl⟩
    · intro r
      rw [hk]
      split
      · rw [List.pairwise_append]
        refine ⟨hi.sorted r, List.pairwise_singleton _ _, ?_⟩
        rintro ⟨d, h'⟩ hm b hb
        obtain rfl : b = (s.dlvs.length, h₀) := by simpa using hb
        exact old r d h' hm
      · exact hi.sorted r
    · intro r r' d h' h'' hm hm'
      rcases cases' r d h' hm with hm | ⟨hr₁, hd₁, _⟩ <;> rcases cases' r' d h'' hm' with hm' | ⟨hr₂, hd₂, _⟩
      · exact hi.disjoint r r' d h' h'' hm hm'
      · subst hd₂; exact absurd (old r _ h' hm) (Nat.lt_irrefl _)
      · subst hd₁; exact absurd (old r' _ h'' hm') (Nat.lt_irrefl _)
      · exact hr₁.trans hr₂.symm

theorem Session.Reachable.ownDlv {s : Session} (h : Reachable s) : OwnDlv s := by
  have : (RcvSlots s ∧ RcvInv s) ∧ OwnDlv s := by
    refine h.invariant (P := fun s => (RcvSlots s ∧ RcvInv s) ∧ OwnDlv s) ?_
      (fun _ _ h hi => ⟨⟨h.rcvSlots hi.1.1, h.rcvInv hi.1.1 hi.1.2⟩, h.ownDlv hi.1.2 hi.2⟩)
    intro s hf
    have hr : Reachable s := ⟨s, [], hf, rfl⟩
    refine ⟨⟨hr.rcvSlots, hr.rcvInv⟩, ?_⟩
    obtain ⟨_, _, _, _, _, rfl⟩ := hf
    constructor
    · intro r d h hm; cases hm
    · intro r; exact .nil
    · intro r r' d h h' hm; cases hm
  exact this.2

end Amqp.Rt
