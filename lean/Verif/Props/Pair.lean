import Verif.Lemmas.PairTake
import Mathlib.Tactic.IntervalCases
import Mathlib.Tactic.FinCases
/-!
# Two sessions of the library connected to each other: C62, C63
-/

namespace Amqp.Rt
open Session Examples

/-! ## A concrete pair -/

def aPair : Pair := { left := start 100, right := start 100, toRight := 0, toLeft := 0 }

theorem aPair_fresh : aPair.Fresh := ⟨⟨0, true, 65535, 0, aBegin 100, rfl⟩, ⟨0, true, 65535, 0, aBegin 100, rfl⟩, rfl, rfl⟩

/-- The right application attaches a receiver link, the left services accept the sender link. -/
def joinOne : List PStep := [.right (.attachReceiver (anAttach "a" 0 .receiver)), .arriveLeft, .left (pass 0), .arriveRight]

/-- The right application grants, and the left side hears of it. -/
def given (n : UInt32) : List PStep := [.right (.grant 0 n), .arriveLeft, .left (pass 0)]

def sendOne (b : UInt8) : PStep := .left (.send (aSend 0 [b] true))

/-- Two messages, each granted when the one before has arrived. -/
def quietRun : List PStep := joinOne ++ given 1 ++ [sendOne 1, .arriveRight] ++ given 1 ++ [sendOne 2, .arriveRight]

theorem sole_none {s : Session} (h : s.snds = []) (k r) : SoleSender s k r := by
  intro r' l hl
  simp [snd?, h] at hl

theorem sole_one {s : Session} {l : Snd} {k} (h : s.snds = [l]) (hk : UInt32.ofNat l.id = k) : SoleSender s k 0 := by
  intro r' l' hl
  rcases r' with _ | r'
  · simp [snd?, h] at hl; subst hl; simp [hk]
  · simp [snd?, h] at hl

theorem soleR_none {s : Session} (h : s.rcvs = []) (k r) : SoleReceiver s k r := by
  intro r' l hl
  simp [rcv?, h] at hl

theorem soleR_one {s : Session} {l : Rcv} {k} (h : s.rcvs = [l]) (hk : l.handle = k) : SoleReceiver s k 0 := by
  intro r' l' hl
  rcases r' with _ | r'
  · simp [rcv?, h] at hl; subst hl; simp [hk]
  · simp [rcv?, h] at hl

/-! ## C62 -/

/-- **C62** Every session sees a first part of the frames the other one posted, in that order and as the codec delivers them
(C07). -/
theorem c62_frames_in_order {σ : Pair} (hf : σ.Fresh) (steps : List PStep) :
    arrived (σ.run steps).right.log <+: (posted (σ.run steps).left.log).map Frame.asReceived ∧
    arrived (σ.run steps).left.log <+: (posted (σ.run steps).right.log).map Frame.asReceived := by
  have h := hf.sound.run steps
  constructor
  · obtain ⟨_, k, _, h, _⟩ := h.toRight
    rw [h]; exact (List.take_prefix _ _).map _
  · obtain ⟨_, k, _, h, _⟩ := h.toLeft
    rw [h]; exact (List.take_prefix _ _).map _

theorem transfersOn_prefix {h : UInt32} {a b : List Frame} (hp : a <+: b) : transfersOn h a <+: transfersOn h b := by
  obtain ⟨c, rfl⟩ := hp
  rw [transfersOn_append]
  exact List.prefix_append _ _

/-- The deliveries of a sender link as they arrive at the other session. -/
theorem wire_received {σ : Pair} (hs : σ.Sound) {ra : Ref} {h : UInt32} (hr : SoleSender σ.left h ra)
    (hc : ∀ x ∈ σ.left.sends, x.req.body.coherent) :
    ∃ ds : List (SendReq × List Transfer),
      transfersOn h ((posted σ.left.log).map Frame.asReceived) = (ds.map Prod.snd).flatten ∧
      sentOn ra σ.left = ds.map Prod.fst ∧ ds.length = begunOn ra σ.left.log ∧ ∀ d ∈ ds, DeliveryOf h d := by
  obtain ⟨ds, h₁, h₂, h₃, h₄⟩ := wire_of_link hs.left hr hc
  refine ⟨ds.map fun d => (d.1, d.2.map Transfer.asReceived), ?_, ?_, ?_, ?_⟩
  · rw [transfersOn_received, h₁, List.map_map, List.map_flatten, List.map_map]; rfl
  · rw [h₂, List.map_map]; rfl
  · rw [List.length_map, h₃]
  · intro d hd
    obtain ⟨d', hd', rfl⟩ := List.mem_map.mp hd
    obtain ⟨id, tag, htag, hw⟩ := h₄ d' hd'
    exact ⟨id, tag, htag, hw.received⟩

/-- **C62** The messages the application takes from a receiver link are the first of those that went out on the sender link
at the other end, in that order, each with its payload, format, settled flag and tag: nothing is lost, repeated, reordered or
changed on the way, whatever the sizes of the frames and whenever they arrive. -/
theorem c62_messages_in_order {σ₀ : Pair} (hf : σ₀.Fresh) (steps : List PStep) {σ : Pair} (hσ : σ = σ₀.run steps) {ra rb : Ref}
    {h : UInt32} (hr : SoleSender σ.left h ra) (hc : ∀ x ∈ σ.left.sends, x.req.body.coherent)
    (ht : receivedOn rb σ.right.log <+: transfersOn h (arrived σ.right.log)) :
    (handedOn rb σ.right.log).length ≤ (sentOn ra σ.left).length ∧
    ∀ (i : Nat) d t, (handedOn rb σ.right.log)[i]? = some (d, t) →
      ∃ q, (sentOn ra σ.left)[i]? = some q ∧ SameMessage q t.asArrival := by
  subst hσ
  have hs := hf.sound.run steps
  obtain ⟨ds, h₁, h₂, _, h₄⟩ := wire_received hs hr hc
  obtain ⟨_, a₂, a₃⟩ := assemble_all h₄
  rw [← h₁] at a₂ a₃
  have hp : (handedOn rb (σ₀.run steps).right.log).map (·.2.asArrival) <+:
      (assemble (transfersOn h ((posted (σ₀.run steps).left.log).map Frame.asReceived))).done :=
    (c31_in_order hs.right rb).trans (done_prefix (ht.trans (transfersOn_prefix (c62_frames_in_order hf steps).1)))
  constructor
  · have := hp.length_le
    rw [List.length_map, a₂] at this
    rw [h₂, List.length_map]; exact this
  · intro i d t hi
    have hi' : ((handedOn rb (σ₀.run steps).right.log).map (·.2.asArrival))[i]? = some t.asArrival := by
      rw [List.getElem?_map, hi]; rfl
    have hd : (assemble (transfersOn h ((posted (σ₀.run steps).left.log).map Frame.asReceived))).done[i]? = some t.asArrival := by
      obtain ⟨w, hw⟩ := hp
      rw [← hw, List.getElem?_append_left (List.getElem?_eq_some_iff.mp hi').1]; exact hi'
    have hlt : i < ds.length := by
      rw [← a₂]; exact (List.getElem?_eq_some_iff.mp hd).1
    refine ⟨ds[i].1, ?_, a₃ i ds[i] _ (List.getElem?_eq_getElem hlt) hd⟩
    rw [h₂, List.getElem?_map, List.getElem?_eq_getElem hlt]; rfl

/-- **C62** When everything posted has arrived and been taken in, every message that went out is there to be taken. -/
theorem c62_nothing_missing {σ₀ : Pair} (hf : σ₀.Fresh) (steps : List PStep) {σ : Pair} (hσ : σ = σ₀.run steps) {ra rb : Ref}
    {h : UInt32} (hr : SoleSender σ.left h ra) (hc : ∀ x ∈ σ.left.sends, x.req.body.coherent)
    (ht : receivedOn rb σ.right.log = transfersOn h (arrived σ.right.log)) (he : σ.right.ending = false)
    (hall : σ.toRight = (posted σ.left.log).length) :
    (assemble (receivedOn rb σ.right.log)).open_ = none ∧
    (assemble (receivedOn rb σ.right.log)).done.length = (sentOn ra σ.left).length ∧
    ∀ (i : Nat) q a, (sentOn ra σ.left)[i]? = some q → (assemble (receivedOn rb σ.right.log)).done[i]? = some a →
      SameMessage q a := by
  subst hσ
  have hs := hf.sound.run steps
  obtain ⟨ds, h₁, h₂, _, h₄⟩ := wire_received hs hr hc
  obtain ⟨_, k, _, h₅, h₆⟩ := hs.toRight
  rw [h₆ he, hall, List.take_length] at h₅
  obtain ⟨a₁, a₂, a₃⟩ := assemble_all h₄
  rw [ht, h₅, h₁]
  refine ⟨a₁, by rw [a₂, h₂, List.length_map], ?_⟩
  intro i q a hq ha
  rw [h₂, List.getElem?_map] at hq
  obtain ⟨d, hd, rfl⟩ := Option.map_eq_some_iff.mp hq
  exact a₃ i d a hd ha

example : SoleSender (aPair.run quietRun).left 0 0 ∧
    receivedOn 0 (aPair.run quietRun).right.log = transfersOn 0 (arrived (aPair.run quietRun).right.log) ∧
    (aPair.run quietRun).right.ending = false ∧
    (aPair.run quietRun).toRight = (posted (aPair.run quietRun).left.log).length ∧
    (sentOn 0 (aPair.run quietRun).left).map (·.body.tenc) = [[1], [2]] :=
  ⟨sole_one rfl rfl, rfl, rfl, rfl, rfl⟩

example : (handedOn 0 (aPair.run (quietRun ++ [.right (.take 0), .right (.take 0)])).right.log).map (fun p => p.2.payload) =
    [[1], [2]] := rfl

/-! ## C63 -/

/-- Sender link `ra` on the left and receiver link `rb` on the right are the ends of one link, which is open: the left session
uses handle `h` for it and the right session handle `k`. -/
structure Linked (σ : Pair) (ra rb : Ref) (h k : UInt32) : Prop where
  sender : SoleSender σ.left h ra
  receiver : SoleReceiver σ.right k rb
  /-- The control service on the left lets the flow frames about the link pass in order. -/
  told : appliedOn ra σ.left.log <+: flowsOn k (arrived σ.left.log)
  /-- As long as it has not failed, the right session gives the frames of the link to `rb`, and no others. -/
  routed : σ.right.error = none → ∀ t, σ.nextRight = some (.transfer t) → t.head.handle = h → Addressed σ.right h rb
  others : σ.right.error = none → ∀ t, σ.nextRight = some (.transfer t) → t.head.handle ≠ h →
    ∀ j, σ.right.remoteHandles.get t.head.handle = some j → σ.right.links.get j ≠ some (.rcv (.established rb))
  /-- Both ends began to count at the same number. -/
  counts : ∀ la lb, σ.left.snd? ra = some la → σ.right.rcv? rb = some lb →
    la.deliveryCount - UInt32.ofNat (taken ra σ.left.log) = lb.deliveryCount - UInt32.ofNat (completedOn rb σ.right.log)
  /-- The messages are no longer than the receiver allows. -/
  coherent : ∀ x ∈ σ.left.sends, x.req.body.coherent
  fits : ∀ q ∈ sentOn ra σ.left, ∀ lb, σ.right.rcv? rb = some lb → q.body.tenc.length ≤ lb.maxMessageSize.toNat

/-- The frame that arrives next, among the deliveries of its link. -/
theorem next_frame {σ : Pair} (hs : σ.Sound) {ra rb : Ref} {h : UInt32} (hr : SoleSender σ.left h ra)
    (hc : ∀ x ∈ σ.left.sends, x.req.body.coherent) (ht : receivedOn rb σ.right.log = transfersOn h (arrived σ.right.log))
    (he : σ.right.ending = false) {t : Transfer} (hn : σ.nextRight = some (.transfer t)) (hh : t.head.handle = h) :
    Plain t ∧ ∃ ds₁ d ds₂ pre post, sentOn ra σ.left = (ds₁ ++ d :: ds₂).map Prod.fst ∧
      (ds₁ ++ d :: ds₂).length = begunOn ra σ.left.log ∧ (∀ x ∈ ds₁ ++ d :: ds₂, DeliveryOf h x) ∧
      receivedOn rb σ.right.log = (ds₁.map Prod.snd).flatten ++ pre ∧ d.2 = pre ++ t :: post := by
  obtain ⟨ds, h₁, h₂, h₃, h₄⟩ := wire_received hs hr hc
  obtain ⟨_, k, _, h₅, h₆⟩ := hs.toRight
  obtain rfl := h₆ he
  unfold Pair.nextRight at hn
  obtain ⟨f, hf, hft⟩ := Option.map_eq_some_iff.mp hn
  have hpre : receivedOn rb σ.right.log ++ [t] <+: (ds.map Prod.snd).flatten := by
    rw [← h₁, ht, h₅]
    have : ((posted σ.left.log).take σ.toRight).map Frame.asReceived ++ [.transfer t] <+:
        (posted σ.left.log).map Frame.asReceived := by
      have := (List.take_prefix (σ.toRight + 1) (posted σ.left.log)).map Frame.asReceived
      rwa [List.take_add_one, hf, List.map_append, Option.toList_some, List.map_cons, List.map_nil, hft] at this
    have := transfersOn_prefix (h := h) this
    rw [transfersOn_append] at this
    simpa [transfersOn, hh] using this
  obtain ⟨ds₁, d, ds₂, pre, post, rfl, e₂, e₃⟩ := next_of_blocks hpre
  refine ⟨?_, ds₁, d, ds₂, pre, post, h₂, h₃, h₄, e₂, e₃⟩
  cases f <;> simp only [Frame.asReceived] at hft <;> try cases hft
  intro b hb
  unfold Transfer.asReceived at hb
  dsimp only at hb
  split at hb
  · cases hb
  · cases hb; exact ⟨_, rfl⟩

/-- **C63** A message on its way between two endpoints of this library never lacks credit at the receiver.  Not covered: a
receiver that grants while credit is left, see below. -/
theorem c63_credit_suffices_partial {σ₀ : Pair} (hf : σ₀.Fresh) (steps : List PStep) {σ : Pair} (hσ : σ = σ₀.run steps)
    {ra rb : Ref} {h k : UInt32} (hj : Linked σ ra rb h k) (hg : Frugal rb σ.right.log)
    (hd : NothingDeclined rb σ.right.log) (ht : receivedOn rb σ.right.log = transfersOn h (arrived σ.right.log))
    (he : σ.right.ending = false) {lb : Rcv} (hlb : σ.right.rcv? rb = some lb)
    {t : Transfer} (hn : σ.nextRight = some (.transfer t)) (hh : t.head.handle = h) : lb.credit ≠ 0 := by
  subst hσ
  have hs := hf.sound.run steps
  generalize σ₀.run steps = σ at *
  obtain ⟨_, ds₁, d, ds₂, pre, post, _, e₂, e₃, e₄, e₅⟩ := next_frame hs hj.sender hj.coherent ht he hn hh
  -- the deliveries taken in are fewer than those that went out
  have hcomp : completedOn rb σ.right.log = ds₁.length := by
    unfold completedOn
    obtain ⟨id, tag, _, hw⟩ := e₃ d (by simp)
    rw [e₄, List.filter_append, List.length_append, lasts_blocks fun x hx => e₃ x (by simp [hx]),
      (lasts_whole hw).2 pre t post e₅]
    rfl
  have hlt : completedOn rb σ.right.log < taken ra σ.left.log := by
    have h₁ := hs.left.begunOn_le ra σ.left.log [] (by simp)
    rw [List.length_append, List.length_cons] at e₂
    omega
  -- and those are no more than were granted
  obtain ⟨la, hla⟩ : ∃ la, σ.left.snd? ra = some la := by
    have : 0 < taken ra σ.left.log := by omega
    unfold taken at this
    obtain ⟨e, he, hp⟩ := List.countP_pos_iff.mp this
    cases e <;> simp at hp
    subst hp
    exact ⟨_, List.getElem?_eq_getElem (hs.left.sndRefs.took _ _ he)⟩
  obtain ⟨i, ht₁, ht₂⟩ := hs.left.creditInv ra (la.deliveryCount, la.linkCredit) (by simp [meter, hla])
  have hcnt := hj.counts la lb hla hlb
  have hi : la.deliveryCount = i + UInt32.ofNat (taken ra σ.left.log) := by rw [← track_count, ht₁]
  have hann := hs.right.announced k rb i hj.receiver hd hg (by
    intro c hc
    rw [baseCount, hlb, Option.map_some, Option.some.injEq, ← hcnt, hi] at hc
    rw [← hc]
    generalize UInt32.ofNat (taken ra σ.left.log) = x
    grind)
  have happ : (appliedOn ra σ.left.log).map (fun f => (f.deliveryCount, f.linkCredit)) <+: stages i (grantsOn rb σ.right.log) := by
    rw [← hann]
    refine (hj.told.trans ?_).map _
    obtain ⟨_, m, _, hm, _⟩ := hs.toLeft
    rw [hm]
    have h₁ : ∀ fs : List Frame, flowsOn k (fs.map Frame.asReceived) = flowsOn k fs := by
      intro fs
      unfold flowsOn
      rw [List.filterMap_map]
      congr 1
      funext f
      cases f <;> rfl
    rw [h₁]
    conv => rhs; rw [← List.take_append_drop m (posted σ.right.log)]
    unfold flowsOn
    rw [List.filterMap_append]
    exact List.prefix_append _ _
  have hstage : (appliedOn ra σ.left.log).map (fun f => (f.deliveryCount, f.linkCredit)) =
      stages i ((grantsOn rb σ.right.log).take (appliedOn ra σ.left.log).length) := by
    rw [← stages_take]
    have := List.prefix_iff_eq_take.mp happ
    rw [this, List.length_map]
  have hb := track_stages σ.left.log _ ht₂ hstage
  have hle := total_take_le (grantsOn rb σ.right.log) (appliedOn ra σ.left.log).length
  have hex := creditLeft_frugal σ.right.log (fun pre t post => hs.right.creditGuard pre rb t post) hd hg
  rw [grantedOn_eq] at hex
  rw [c43_credit hs.right hlb]
  intro hz
  rw [hz] at hex
  simp at hex
  omega

/-- **C63** The next frame of the link is taken in.  Not covered: a receiver that grants while credit is left. -/
theorem c63_next_frame_taken_partial {σ₀ : Pair} (hf : σ₀.Fresh) (steps : List PStep) {σ : Pair} (hσ : σ = σ₀.run steps)
    {ra rb : Ref} {h k : UInt32} (hj : Linked σ ra rb h k) (hg : Frugal rb σ.right.log)
    (hd : NothingDeclined rb σ.right.log) (ht : receivedOn rb σ.right.log = transfersOn h (arrived σ.right.log))
    (he : σ.right.ending = false) (herr : σ.right.error = none)
    {t : Transfer} (hn : σ.nextRight = some (.transfer t)) (hh : t.head.handle = h) :
    ∃ lb, σ.right.rcv? rb = some lb ∧ Takes σ.right rb lb t (σ.step .arriveRight).right := by
  have hs := hf.sound.run steps
  rw [← hσ] at hs
  have ha := hj.routed herr t hn hh
  obtain ⟨lb, hlb, _⟩ := hs.right.rcvSlots.handle _ _ rb ha.2.choose_spec.2.2 rfl
  have hcr := c63_credit_suffices_partial hf steps hσ hj hg hd ht he hlb hn hh
  have hstep : (σ.step .arriveRight).right = σ.right.step (.peer (.transfer t)) := by
    show (match σ.nextRight with | some f => _ | none => _ : Pair).right = _
    rw [hn]
    show σ.right.deliver (.transfer t) = _
    unfold Session.deliver
    rw [he]; rfl
  rw [hstep]
  refine ⟨lb, hlb, ?_⟩
  obtain ⟨hplain, ds₁, d, ds₂, pre, post, e₁, _, e₃, e₄, e₅⟩ := next_frame hs hj.sender hj.coherent ht he hn hh
  obtain ⟨id, tag, _, hw⟩ := e₃ d (by simp)
  have ho := (assemble_all fun x hx => e₃ x (by simp [hx]) : (assemble (ds₁.map Prod.snd).flatten).open_ = none ∧ _).1
  have hfit : d.1.body.tenc.length ≤ lb.maxMessageSize.toNat := hj.fits d.1 (by rw [e₁]; simp) lb hlb
  have hids := hw.ids
  have hmore := hw.more
  have hpay := hw.payload
  rw [e₅] at hids hmore hpay
  cases pre with
  | nil =>
    rw [List.append_nil] at e₄
    refine takes_first hs.right (hh ▸ ha) hlb hcr (by rw [e₄]; exact ho) ?_
    simp at hids
    rw [hids.1]; rfl
  | cons p pre =>
    have hall : ∀ x ∈ p :: pre, x.head.more = true := by
      intro x hx
      have hlen : ((p :: pre) ++ t :: post).length - 1 = (p :: pre).length + post.length := by simp; omega
      rw [List.map_append, hlen] at hmore
      have h₁ : (p :: pre).map (·.head.more) <+: List.replicate ((p :: pre).length + post.length) true ++ [false] :=
        ⟨_, hmore⟩
      have h₂ := List.prefix_of_prefix_length_le h₁ (List.prefix_append (List.replicate ((p :: pre).length + post.length) true) [false])
        (by simp)
      exact (List.mem_replicate.mp (h₂.subset (List.mem_map_of_mem hx))).2
    have hopen := open_frames ho p pre hall
    rw [← e₄] at hopen
    refine takes_next hs.right (hh ▸ ha) hlb hcr hopen ?_ ?_
    · left
      simp only [List.cons_append, List.map_cons, List.map_append, List.cons.injEq] at hids
      have : t.head.deliveryId ∈ List.replicate ((p :: (pre ++ t :: post)).length - 1) none := by
        rw [← hids.2]; simp
      exact (List.mem_replicate.mp this).2
    · intro _
      rw [hplain.size]
      have := congrArg List.length hpay
      rw [List.map_append, List.map_cons (l := post), List.flatten_append, List.flatten_cons, List.length_append, List.length_append] at this
      dsimp only
      omega

/-- What the right session has of the link. -/
structure Taken (σ : Pair) (rb : Ref) (h : UInt32) : Prop where
  clean : NothingDeclined rb σ.right.log
  part : receivedOn rb σ.right.log <+: transfersOn h (arrived σ.right.log)
  all : σ.right.error = none → receivedOn rb σ.right.log = transfersOn h (arrived σ.right.log)

theorem transfersOn_single (h : UInt32) (f : Frame) (hf : ∀ t, f = .transfer t → t.head.handle ≠ h) : transfersOn h [f] = [] := by
  cases f <;> try rfl
  next t => simp [transfersOn, hf t rfl]

theorem Taken.step {σ₀ : Pair} (hf : σ₀.Fresh) (steps : List PStep) {σ : Pair} (hσ : σ = σ₀.run steps) {ra rb : Ref}
    {h k : UInt32} (ht : Taken σ rb h) (hj : Linked σ ra rb h k) (hg : Frugal rb σ.right.log) (p : PStep) :
    Taken (σ.step p) rb h := by
  have hs := hf.sound.run steps
  rw [← hσ] at hs
  -- a step of the right session other than a frame of the link
  have quiet : ∀ (s' : Session) (n : Nat), (σ.right.error.isSome → s'.error.isSome) →
      (∃ l, arrived s'.log = arrived σ.right.log ++ l ∧ transfersOn h l = []) →
      receivedOn rb s'.log = receivedOn rb σ.right.log → (NothingDeclined rb σ.right.log → NothingDeclined rb s'.log) →
      Taken { σ with right := s', toRight := n } rb h := by
    intro s' n h₁ ⟨l, h₂, h₃⟩ h₄ h₅
    have hsame : transfersOn h (arrived s'.log) = transfersOn h (arrived σ.right.log) := by
      rw [h₂, transfersOn_append, h₃, List.append_nil]
    refine ⟨h₅ ht.clean, ?_, fun he => ?_⟩
    · show receivedOn rb s'.log <+: _
      rw [h₄]; show _ <+: transfersOn h (arrived s'.log); rw [hsame]; exact ht.part
    · show receivedOn rb s'.log = transfersOn h (arrived s'.log)
      rw [h₄, hsame]
      refine ht.all ?_
      cases hx : σ.right.error with
      | none => rfl
      | some e =>
        have := h₁ (by rw [hx]; rfl)
        change s'.error = none at he
        rw [he] at this; cases this
  cases p with
  | left st =>
    unfold Pair.step
    dsimp only
    split
    · exact ⟨ht.clean, ht.part, ht.all⟩
    · exact ht
  | arriveLeft =>
    unfold Pair.step
    dsimp only
    split
    · exact ⟨ht.clean, ht.part, ht.all⟩
    · exact ht
  | right st =>
    unfold Pair.step
    dsimp only
    split
    · next ho =>
      have hne : ∀ t, st ≠ .peer (.transfer t) := by rintro t rfl; cases ho
      obtain ⟨h₁, h₂⟩ := step_quiet (s := σ.right) rb hne
      exact quiet _ σ.toRight (step_error_mono st) ⟨[], by rw [Step.own_arrived ho, List.append_nil], rfl⟩ h₁ h₂
    · exact ht
  | arriveRight =>
    cases hn : σ.nextRight with
    | none =>
      have : σ.step .arriveRight = σ := by unfold Pair.step; rw [hn]
      rw [this]; exact ht
    | some f =>
      have hstep : σ.step .arriveRight = { σ with right := σ.right.deliver f, toRight := σ.toRight + 1 } := by
        unfold Pair.step; rw [hn]
      cases hend : σ.right.ending with
      | true =>
        rw [hstep]
        have harr : arrived (σ.right.deliver f).log = arrived σ.right.log ++ [] := by rw [arrived_deliver, hend]; rfl
        unfold Session.deliver at harr ⊢
        rw [hend] at harr ⊢
        simp only [if_true] at harr ⊢
        split
        · next e =>
          obtain ⟨h₁, h₂⟩ := step_quiet (s := σ.right) (st := .endConfirmed e) rb (by simp)
          exact quiet _ _ (step_error_mono _) ⟨[], harr, rfl⟩ h₁ h₂
        · exact quiet _ _ id ⟨[], by simp, rfl⟩ rfl id
      | false =>
        have hdel : σ.right.deliver f = σ.right.step (.peer f) := by unfold Session.deliver; rw [hend]; rfl
        have harr : arrived (σ.right.deliver f).log = arrived σ.right.log ++ [f] := by rw [arrived_deliver, hend]; rfl
        rw [hdel] at harr
        by_cases hm : ∃ t, f = .transfer t ∧ t.head.handle = h
        · obtain ⟨t, rfl, hh⟩ := hm
          have hone : transfersOn h [.transfer t] = [t] := by simp [transfersOn, hh]
          cases herr : σ.right.error with
          | none =>
            obtain ⟨lb, hlb, htk⟩ := c63_next_frame_taken_partial hf steps hσ hj hg ht.clean (ht.all herr) hend herr hn hh
            rw [hstep] at htk ⊢
            have hlog : receivedOn rb (σ.right.deliver (.transfer t)).log = receivedOn rb σ.right.log ++ [t] ∧
                NothingDeclined rb (σ.right.deliver (.transfer t)).log := by
              rcases htk.log with hl | hl <;> dsimp only at hl <;> rw [hl]
              · refine ⟨by simp [receivedOn], fun t' ht' => ?_⟩
                rcases List.mem_append.mp ht' with ht' | ht'
                · exact ht.clean t' ht'
                · simp at ht'
              · refine ⟨by simp [receivedOn], fun t' ht' => ?_⟩
                rcases List.mem_append.mp ht' with ht' | ht'
                · exact ht.clean t' ht'
                · simp at ht'
            have heq : receivedOn rb (σ.right.deliver (.transfer t)).log =
                transfersOn h (arrived (σ.right.deliver (.transfer t)).log) := by
              rw [hlog.1, hdel, harr, transfersOn_append, hone, ht.all herr]
            exact ⟨hlog.2, heq ▸ List.prefix_rfl, fun _ => heq⟩
          | some e =>
            obtain ⟨h₁, h₂⟩ := transfer_other (r := rb) hs.right t (fun h => by rw [herr] at h; cases h)
            rw [hstep, hdel]
            refine ⟨h₂ ht.clean, ?_, fun he => ?_⟩
            · dsimp only
              rw [h₁, harr, transfersOn_append]
              exact ht.part.trans (List.prefix_append _ _)
            · have := step_error_mono (s := σ.right) (.peer (.transfer t)) (by rw [herr]; rfl)
              dsimp only at he
              rw [he] at this; cases this
        · rw [hstep, hdel]
          have hnone : transfersOn h [f] = [] := transfersOn_single h f fun t he hh => hm ⟨t, he, hh⟩
          have hq : receivedOn rb (σ.right.step (.peer f)).log = receivedOn rb σ.right.log ∧
              (NothingDeclined rb σ.right.log → NothingDeclined rb (σ.right.step (.peer f)).log) := by
            by_cases hx : ∃ t, f = .transfer t
            · obtain ⟨t, rfl⟩ := hx
              exact transfer_other hs.right t fun he => hj.others he t hn fun hh => hm ⟨t, rfl, hh⟩
            · exact step_quiet rb fun t he => hx ⟨t, by cases he; rfl⟩
          exact quiet _ _ (step_error_mono _) ⟨[f], harr, hnone⟩ hq.1 hq.2

theorem right_prefix (σ : Pair) (p : PStep) : σ.right.log <+: (σ.step p).right.log := by
  have hone : ∀ st, σ.right.log <+: (σ.right.step st).log := fun st => by
    obtain ⟨evs, h⟩ := run_log σ.right [st]
    exact ⟨evs, h.symm⟩
  cases p <;> unfold Pair.step <;> dsimp only
  case left => split <;> exact List.prefix_rfl
  case right st =>
    split
    · exact hone st
    · exact List.prefix_rfl
  case arriveRight =>
    split
    · unfold Session.deliver
      split
      · split
        · exact hone _
        · exact List.prefix_rfl
      · exact hone _
    · exact List.prefix_rfl
  case arriveLeft => split <;> exact List.prefix_rfl

/-- **C63** Over any execution in which the link stays open, no message is refused.  Not covered: a receiver that grants while
credit is left. -/
theorem c63_never_refused_partial {σ₀ : Pair} (hf : σ₀.Fresh) (steps : List PStep) {ra rb : Ref} {h k : UInt32}
    (hj : ∀ pre, pre <+: steps → Linked (σ₀.run pre) ra rb h k) (hg : Frugal rb (σ₀.run steps).right.log) :
    NothingDeclined rb (σ₀.run steps).right.log ∧
    receivedOn rb (σ₀.run steps).right.log <+: transfersOn h (arrived (σ₀.run steps).right.log) ∧
    ((σ₀.run steps).right.error = none →
      receivedOn rb (σ₀.run steps).right.log = transfersOn h (arrived (σ₀.run steps).right.log)) := by
  suffices hT : Taken (σ₀.run steps) rb h from ⟨hT.clean, hT.part, hT.all⟩
  induction steps using List.reverseRecOn with
  | nil =>
    have hl : σ₀.right.log = [] := by obtain ⟨_, _, _, _, _, h⟩ := hf.right; rw [h]; rfl
    show Taken σ₀ rb h
    refine ⟨?_, ?_, ?_⟩ <;> rw [hl]
    · intro t h; cases h
    · exact List.nil_prefix
    · intro _; rfl
  | append_singleton steps p ih =>
    have hrun : σ₀.run (steps ++ [p]) = (σ₀.run steps).step p := by simp [Pair.run]
    have hlog : (σ₀.run steps).right.log <+: (σ₀.run (steps ++ [p])).right.log := by
      rw [hrun]; exact right_prefix _ p
    obtain ⟨evs, hev⟩ := hlog
    have hg' : Frugal rb (σ₀.run steps).right.log := by rw [← hev] at hg; exact hg.prefix
    rw [hrun]
    exact (ih (fun pre hp => hj pre (hp.trans (List.prefix_append _ _))) hg').step hf steps rfl
      (hj steps (List.prefix_append _ _)) hg' p

set_option maxHeartbeats 4000000 in
theorem quiet_linked (n : Nat) (hn : n ≤ 14) : Linked (aPair.run (quietRun.take n)) 0 0 0 0 := by
  interval_cases n
  all_goals refine
    { sender := by first | exact sole_none rfl _ _ | exact sole_one rfl rfl
      receiver := by first | exact soleR_none rfl _ _ | exact soleR_one rfl rfl
      told := ⟨_, rfl⟩
      routed := fun _ t ht hh => ?_
      others := fun _ t ht hh => ?_
      counts := fun la lb h₁ h₂ => ?_
      coherent := fun x hx => ?_
      fits := fun q hq lb hb => ?_ }
  all_goals first
    | (cases ht; done)
    | (cases ht; first | exact absurd rfl hh | exact ⟨rfl, 0, by decide, rfl, rfl⟩)
    | (cases h₁; done)
    | (cases h₁; cases h₂; done)
    | (cases h₁; cases h₂; rfl)
    | (fin_cases hx; done)
    | (fin_cases hx <;> trivial)
    | (fin_cases hq; done)
    | (cases hb; fin_cases hq <;> decide)

/-- `Frugal`, checked event by event. -/
def frugal (r : Ref) (c : UInt32) : List Ev → Bool
  | [] => true
  | e :: l => (match e with
    | .granted r' _ => r' ≠ r || c = 0
    | _ => true) && frugal r (creditAfter r c e) l

theorem frugal_sound (r : Ref) : ∀ (l p : List Ev), frugal r (creditLeft r p) l = true →
    ∀ pre n post, l = pre ++ .granted r n :: post → creditLeft r (p ++ pre) = 0 := by
  intro l
  induction l with
  | nil => intro p _ pre n post h; simp at h
  | cons e l ih =>
    intro p h pre n post hl
    unfold frugal at h
    rw [Bool.and_eq_true] at h
    cases pre with
    | nil =>
      obtain ⟨rfl, rfl⟩ := List.cons.inj hl
      simpa using h.1
    | cons x pre =>
      obtain ⟨rfl, hl'⟩ := List.cons.inj hl
      have := ih (p ++ [e]) (by simpa [creditLeft] using h.2) pre n post hl'
      simpa using this

theorem quiet_frugal : Frugal 0 (aPair.run quietRun).right.log := fun pre n post h =>
  frugal_sound 0 _ [] (by decide) pre n post h

example : NothingDeclined 0 (aPair.run quietRun).right.log :=
  (c63_never_refused_partial aPair_fresh quietRun (fun pre hp => by
    rw [List.prefix_iff_eq_take.mp hp]
    exact quiet_linked _ hp.length_le) quiet_frugal).1

example : (receivedOn 0 (aPair.run quietRun).right.log).map Transfer.payload = [[1], [2]] := rfl

/-- **C63** Violated: A receiver that grants while credit is left.  Two units are granted and two messages are on their way when a
third unit is granted; the flow frame says 'one unit from delivery 0 on', which for the sender, at delivery 2, is a credit of
2³²−1.  It sends four messages for three units, and the receiver refuses the fourth and closes the link. -/
theorem c63_early_grant_refused : ∃ σ : Pair, ∃ steps : List PStep, σ.Fresh ∧
    (∀ x ∈ (σ.run steps).left.sends, x.req.body.coherent) ∧
    (transfersOn 0 (arrived (σ.run steps).right.log)).map Transfer.payload = [[1], [2], [3], [4]] ∧
    (receivedOn 0 (σ.run steps).right.log).map Transfer.payload = [[1], [2], [3]] ∧
    grantedOn 0 (σ.run steps).right.log = 3 ∧ ((σ.run steps).right.rcv? 0).map Rcv.closed = some true := by
  refine ⟨aPair, joinOne ++ given 2 ++ [sendOne 1, sendOne 2] ++ given 1 ++ [sendOne 3, sendOne 4] ++ List.replicate 4 .arriveRight,
    aPair_fresh, ?_, rfl, rfl, rfl, rfl⟩
  intro x hx
  fin_cases hx <;> trivial

end Amqp.Rt
