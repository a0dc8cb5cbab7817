import Verif.Spec.Pair
import Verif.Lemmas.SessionPeer
import Verif.Lemmas.SessionGrant
import Verif.Lemmas.SessionTask
import Verif.Lemmas.Transfer
import Verif.Props.Receiving
/-!
# Two sessions connected to each other
-/

namespace Amqp.Rt
open Session

/-! ## Frames arrive in the order in which they were posted -/

theorem posted_append (a b : List Ev) : posted (a ++ b) = posted a ++ posted b := by simp [posted]
theorem arrived_append (a b : List Ev) : arrived (a ++ b) = arrived a ++ arrived b := by simp [arrived]

theorem arrived_peers (s : Session) : arrived s.log = arrived s.peers := by
  unfold arrived peers
  rw [List.filterMap_filter]
  congr 1
  funext e
  cases e <;> rfl

theorem arrived_step (s : Session) (st : Step) : arrived (s.step st).log = arrived s.log ++ (match st with
    | .peer f => [f]
    | _ => []) := by
  rw [arrived_peers, step_peers, arrived_append, ← arrived_peers]
  cases st <;> rfl

theorem posted_prefix (s : Session) (st : Step) : posted s.log <+: posted (s.step st).log := by
  obtain ⟨evs, h⟩ := run_log s [st]
  have h : (s.step st).log = s.log ++ evs := h
  rw [h, posted_append]
  exact List.prefix_append _ _

theorem arrived_deliver (s : Session) (f : Frame) :
    arrived (s.deliver f).log = arrived s.log ++ (if s.ending then [] else [f]) := by
  unfold deliver
  split
  · rw [List.append_nil]
    split
    · rw [arrived_step]; simp
    · rfl
  · exact arrived_step s _

theorem posted_deliver (s : Session) (f : Frame) : posted s.log <+: posted (s.deliver f).log := by
  unfold deliver
  split
  · split
    · exact posted_prefix _ _
    · exact List.prefix_rfl
  · exact posted_prefix _ _

theorem Micro.ending {s s' : Session} (h : Micro s s') (he : s.ending = true) : s'.ending = true := by
  cases h <;> first | rfl | exact he | simpa using he

theorem step_ending {s : Session} (st : Step) (h : s.ending = true) : (s.step st).ending = true :=
  (step_micros s st).invariant (P := fun s => s.ending = true) (fun _ _ hm h => hm.ending h) h

theorem deliver_ending {s : Session} (f : Frame) (h : s.ending = true) : (s.deliver f).ending = true := by
  unfold deliver
  rw [if_pos h]
  split
  · exact step_ending _ h
  · exact h

/-- What one session posted and what the other one was given of it: a first part, and everything that arrived unless the
other one has ended. -/
def Fifo (src dst : Session) (n : Nat) : Prop :=
  n ≤ (posted src.log).length ∧ ∃ k ≤ n, arrived dst.log = ((posted src.log).take k).map Frame.asReceived ∧
    (dst.ending = false → k = n)

theorem Fifo.src {a b a' : Session} {n : Nat} (h : Fifo a b n) (hp : posted a.log <+: posted a'.log) : Fifo a' b n := by
  obtain ⟨h₁, k, hk, h₂, h₃⟩ := h
  refine ⟨Nat.le_trans h₁ hp.length_le, k, hk, ?_, h₃⟩
  rw [h₂]
  obtain ⟨c, hc⟩ := hp
  rw [← hc, List.take_append_of_le_length (Nat.le_trans hk h₁)]

theorem Fifo.dst {a b b' : Session} {n : Nat} (h : Fifo a b n) (ha : arrived b'.log = arrived b.log)
    (he : b.ending = true → b'.ending = true) : Fifo a b' n := by
  obtain ⟨h₁, k, hk, h₂, h₃⟩ := h
  refine ⟨h₁, k, hk, ha.trans h₂, fun h' => h₃ ?_⟩
  cases hb : b.ending with
  | false => rfl
  | true => rw [he hb] at h'; cases h'

theorem Fifo.arrive {a b : Session} {n : Nat} {f : Frame} (h : Fifo a b n) (hf : (posted a.log)[n]?.map Frame.asReceived = some f) :
    Fifo a (b.deliver f) (n + 1) := by
  obtain ⟨h₁, k, hk, h₂, h₃⟩ := h
  obtain ⟨g, hg, rfl⟩ := Option.map_eq_some_iff.mp hf
  obtain ⟨hn, hg⟩ := List.getElem?_eq_some_iff.mp hg
  refine ⟨hn, ?_⟩
  rw [arrived_deliver]
  cases hb : b.ending with
  | true =>
    refine ⟨k, by omega, by simpa using h₂, fun h => ?_⟩
    rw [deliver_ending _ hb] at h; cases h
  | false =>
    obtain rfl := h₃ hb
    refine ⟨k + 1, Nat.le_refl _, ?_, fun _ => rfl⟩
    rw [h₂, List.take_add_one, List.getElem?_eq_getElem hn]
    simp [hg]

theorem Step.own_arrived {st : Step} (h : st.own = true) (s : Session) : arrived (s.step st).log = arrived s.log := by
  rw [arrived_step]
  cases st <;> first | cases h; done | simp

namespace Pair

theorem step_fifo {σ : Pair} (h₁ : Fifo σ.left σ.right σ.toRight) (h₂ : Fifo σ.right σ.left σ.toLeft) (st : PStep) :
    Fifo (σ.step st).left (σ.step st).right (σ.step st).toRight ∧
      Fifo (σ.step st).right (σ.step st).left (σ.step st).toLeft := by
  cases st with
  | left st =>
    unfold step; dsimp only
    split
    · next ho =>
      exact ⟨h₁.src (posted_prefix _ _), h₂.dst (Step.own_arrived ho _) (step_ending st)⟩
    · exact ⟨h₁, h₂⟩
  | right st =>
    unfold step; dsimp only
    split
    · next ho =>
      exact ⟨h₁.dst (Step.own_arrived ho _) (step_ending st), h₂.src (posted_prefix _ _)⟩
    · exact ⟨h₁, h₂⟩
  | arriveRight =>
    unfold step; dsimp only
    split
    · next f hf => exact ⟨h₁.arrive hf, h₂.src (posted_deliver _ _)⟩
    · exact ⟨h₁, h₂⟩
  | arriveLeft =>
    unfold step; dsimp only
    split
    · next f hf => exact ⟨h₁.src (posted_deliver _ _), h₂.arrive hf⟩
    · exact ⟨h₁, h₂⟩

theorem deliver_reachable {s : Session} (h : Reachable s) (f : Frame) : Reachable (s.deliver f) := by
  unfold deliver
  split
  · split
    · exact reachable_step h _
    · exact h
  · exact reachable_step h _

theorem step_reachable {σ : Pair} (h₁ : Reachable σ.left) (h₂ : Reachable σ.right) (st : PStep) :
    Reachable (σ.step st).left ∧ Reachable (σ.step st).right := by
  cases st <;> unfold step <;> dsimp only <;> split <;>
    first
    | exact ⟨h₁, h₂⟩
    | exact ⟨reachable_step h₁ _, h₂⟩
    | exact ⟨h₁, reachable_step h₂ _⟩
    | exact ⟨deliver_reachable h₁ _, h₂⟩
    | exact ⟨h₁, deliver_reachable h₂ _⟩

/-- What holds of every execution of two sessions. -/
structure Sound (σ : Pair) : Prop where
  left : Reachable σ.left
  right : Reachable σ.right
  toRight : Fifo σ.left σ.right σ.toRight
  toLeft : Fifo σ.right σ.left σ.toLeft

theorem Fresh.sound {σ : Pair} (h : σ.Fresh) : Sound σ := by
  obtain ⟨left, right, n, m⟩ := σ
  obtain ⟨hl, hr, h₁, h₂⟩ := h
  dsimp only at *
  subst h₁ h₂
  refine ⟨⟨left, [], hl, rfl⟩, ⟨right, [], hr, rfl⟩, ?_, ?_⟩
  all_goals
    obtain ⟨_, _, _, _, _, rfl⟩ := hl
    obtain ⟨_, _, _, _, _, rfl⟩ := hr
    exact ⟨Nat.zero_le _, 0, Nat.le_refl _, rfl, fun _ => rfl⟩

theorem Sound.step {σ : Pair} (h : Sound σ) (st : PStep) : Sound (σ.step st) :=
  ⟨(step_reachable h.left h.right st).1, (step_reachable h.left h.right st).2, (step_fifo h.toRight h.toLeft st).1,
    (step_fifo h.toRight h.toLeft st).2⟩

theorem Sound.run {σ : Pair} (h : Sound σ) (steps : List PStep) : Sound (σ.run steps) := by
  induction steps generalizing σ with
  | nil => exact h
  | cons st steps ih => exact ih (h.step st)

end Pair

/-! ## The frames of one sender link -/

theorem payload_asReceived (t : Transfer) : t.asReceived.payload = t.payload := by
  unfold Transfer.asReceived
  by_cases h : t.payload = []
  · rw [if_pos h, h]; rfl
  · rw [if_neg h]; simp [Transfer.payload, TransferBody.tenc]

theorem transfersOn_append (h : UInt32) (a b : List Frame) : transfersOn h (a ++ b) = transfersOn h a ++ transfersOn h b := by
  simp [transfersOn]

theorem transfersOn_received (h : UInt32) (fs : List Frame) :
    transfersOn h (fs.map Frame.asReceived) = (transfersOn h fs).map Transfer.asReceived := by
  unfold transfersOn
  rw [List.filterMap_map, List.map_filterMap]
  congr 1
  funext f
  cases f <;> try rfl
  next t =>
    simp only [Function.comp, Frame.asReceived, Transfer.asReceived]
    split <;> rfl

theorem transfersOn_posted (h : UInt32) (log : List Ev) :
    transfersOn h (posted log) = (sentTransfers log).filter fun t => t.head.handle = h := by
  unfold transfersOn posted sentTransfers
  rw [List.filterMap_filterMap, List.filter_filterMap]
  congr 1
  funext e
  cases e <;> try rfl
  next f =>
    cases f <;> try rfl
    next t =>
      simp only [Option.bind_some, Ev.transfer?]
      by_cases ht : t.head.handle = h <;> simp [ht, Option.filter]

/-- No other sender link of the session has the handle of link `r`. -/
def SoleSender (s : Session) (h : UInt32) (r : Ref) : Prop := ∀ r' l, s.snd? r' = some l → (UInt32.ofNat l.id = h ↔ r' = r)

/-- The frames posted under a handle are the deliveries that went out on its link, one after the other. -/
theorem wire_of_link {s : Session} (hs : Reachable s) {h : UInt32} {r : Ref} (hr : SoleSender s h r)
    (hc : ∀ x ∈ s.sends, x.req.body.coherent) :
    ∃ ds : List (SendReq × List Transfer), transfersOn h (posted s.log) = (ds.map Prod.snd).flatten ∧
      sentOn r s = ds.map Prod.fst ∧ ds.length = begunOn r s.log ∧
      ∀ d ∈ ds, ∃ id tag, TagFor d.1.tag tag ∧ WholeDelivery h id tag d.1.body.tenc
        (if d.1.format.isNone then d.1.body.format else d.1.format) d.1.settled d.2 := by
  obtain ⟨ds, h₁, h₂, h₃⟩ := hs.sentInv
  -- the request of a delivery
  let req : Sent → SendReq := fun d => ((s.sends[d.task]?.map (·.req))).getD ⟨0, .data [], none, false, none⟩
  have hreq : ∀ d ∈ ds, s.sends[d.task]?.map (·.req) = some (req d) := by
    intro d hd
    obtain ⟨x, l, tag, hx, _⟩ := h₃ d hd
    simp [req, hx]
  have hwhole : ∀ d ∈ ds, ∃ l tag, s.snd? d.link = some l ∧ TagFor (req d).tag tag ∧
      WholeDelivery (UInt32.ofNat l.id) d.id tag (req d).body.tenc
        (if (req d).format.isNone then (req d).body.format else (req d).format) (req d).settled d.frames := by
    intro d hd
    obtain ⟨x, l, tag, hx, hlk, hl, htag, hf⟩ := h₃ d hd
    have hq : req d = x.req := by simp [req, hx]
    obtain ⟨ts, hts, hw, _⟩ := transferFrames_spec s.maxFrameSize (UInt32.ofNat l.id) d.id tag x.req.body x.req.settled
      x.req.format (hc x (List.mem_of_getElem? hx))
    have : ts = d.frames := by
      have hi : Function.Injective Frame.transfer := fun a b h => by injection h
      exact List.map_injective_iff.mpr hi (hts.symm.trans hf)
    rw [this] at hw
    exact ⟨l, tag, hl, by rw [hq]; exact htag, by rw [hq]; exact hw⟩
  refine ⟨(ds.filter fun d => d.link = r).map fun d => (req d, d.frames), ?_, ?_, ?_, ?_⟩
  · rw [transfersOn_posted, h₁, List.map_map]
    clear h₁ h₂
    induction ds with
    | nil => rfl
    | cons d ds ih =>
      have ih := ih (fun x hx => h₃ x (by simp [hx])) (fun x hx => hreq x (by simp [hx])) (fun x hx => hwhole x (by simp [hx]))
      obtain ⟨l, tag, hl, _, hw⟩ := hwhole d (by simp)
      rw [List.map_cons, List.flatten_cons, List.filter_append, ih]
      by_cases hd : d.link = r
      · have : d.frames.filter (fun t => t.head.handle = h) = d.frames := by
          apply List.filter_eq_self.mpr
          intro t ht
          simp [hw.handle t ht, (hr _ _ hl).mpr hd]
        rw [this, List.filter_cons_of_pos (by simpa using hd)]
        rfl
      · have : d.frames.filter (fun t => t.head.handle = h) = [] := by
          apply List.filter_eq_nil_iff.mpr
          intro t ht
          simp only [hw.handle t ht, decide_eq_true_eq]
          exact fun e => hd ((hr _ _ hl).mp e)
        rw [this, List.filter_cons_of_neg (by simpa using hd)]
        rfl
  · have : sentOn r s = (starts s.log).filterMap fun p => if p.2.1 = r then s.sends[p.1]?.map (·.req) else none := by
      unfold sentOn starts
      rw [List.filterMap_filterMap]
      congr 1
      funext e
      cases e <;> rfl
    rw [this, h₂, List.filterMap_map, List.map_map]
    clear h₁ h₂ this
    induction ds with
    | nil => rfl
    | cons d ds ih =>
      have ih := ih (fun x hx => h₃ x (by simp [hx])) (fun x hx => hreq x (by simp [hx])) (fun x hx => hwhole x (by simp [hx]))
      have hq := hreq d (by simp)
      by_cases hd : d.link = r
      · rw [List.filterMap_cons_some (b := req d) (by simpa [hd] using hq), ih, List.filter_cons_of_pos (by simpa using hd)]
        rfl
      · rw [List.filterMap_cons_none (by simp [hd]), ih, List.filter_cons_of_neg (by simpa using hd)]
  · have : begunOn r s.log = ((starts s.log).filter fun p => p.2.1 = r).length := by
      unfold begunOn starts
      rw [← List.countP_eq_length_filter, List.countP_filterMap]
      apply List.countP_congr
      intro e _
      cases e <;> simp
    rw [this, h₂, List.length_map, List.filter_map, List.length_map]
    rfl
  · intro d hd
    obtain ⟨d', hd', rfl⟩ := List.mem_map.mp hd
    obtain ⟨hm, hlk⟩ := List.mem_filter.mp hd'
    obtain ⟨l, tag, hl, htag, hw⟩ := hwhole d' hm
    have hlk : d'.link = r := by simpa using hlk
    exact ⟨d'.id, tag, htag, (hr _ _ hl).mpr hlk ▸ hw⟩

/-- A delivery on the wire is the same when it arrives. -/
theorem WholeDelivery.received {h id : UInt32} {tag message : Bytes} {format : Option UInt32} {settled : Bool}
    {ts : List Transfer} (w : WholeDelivery h id tag message format settled ts) :
    WholeDelivery h id tag message format settled (ts.map Transfer.asReceived) := by
  obtain ⟨h₁, h₂, h₃, h₄, h₅, h₆, h₇, h₈⟩ := w
  refine ⟨?_, ?_, ?_, ?_, ?_, ?_, ?_, ?_⟩
  · rw [List.length_map, ← h₁, List.map_map]; rfl
  · rw [List.length_map, ← h₂, List.map_map]; rfl
  · rw [List.length_map, ← h₃, List.map_map]; rfl
  · rw [List.length_map, ← h₄, List.map_map]; rfl
  · intro t ht; obtain ⟨t', ht', rfl⟩ := List.mem_map.mp ht; exact h₅ t' ht'
  · intro t ht; obtain ⟨t', ht', rfl⟩ := List.mem_map.mp ht; exact h₆ t' ht'
  · intro t ht; obtain ⟨t', ht', rfl⟩ := List.mem_map.mp ht; exact h₇ t' ht'
  · rw [← h₈, List.map_map]
    congr 1
    exact List.map_congr_left fun t _ => payload_asReceived t

end Amqp.Rt
