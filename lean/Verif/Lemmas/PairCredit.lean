import Verif.Lemmas.Pair
import Verif.Lemmas.SessionAccept
/-!
# Credit between two sessions
-/

namespace Amqp.Rt
open Session

/-! ## Deliveries put together again -/

theorem assemble_one {ts₀ ts : List Transfer} {handle id : UInt32} {tag message : Bytes} {format : Option UInt32}
    {settled : Bool} (h : WholeDelivery handle id tag message format settled ts)
    (ho : (assemble ts₀).open_ = none) : ∃ head : TransferHead, head.deliveryTag = some tag ∧ head.messageFormat = format ∧
      head.settled = (if settled then some true else none) ∧
      assemble (ts₀ ++ ts) = { done := (assemble ts₀).done ++ [{ head, payload := message }], open_ := none } := by
  have hf := h.format
  have hst := h.settles
  obtain ⟨t, rest, rfl, hid, htag, _, hp, h₁, h₂⟩ := h.cons
  refine ⟨t.head, htag, hf t (by simp), by simp at hst; exact hst.1, ?_⟩
  show (ts₀ ++ t :: rest).foldl Assembly.add _ = _
  rw [List.foldl_append, List.foldl_cons]
  show rest.foldl Assembly.add ((assemble ts₀).add t) = _
  by_cases hr : rest = []
  · subst hr
    simp [Assembly.add, ho, h₁ rfl, ← hp]
  · rw [assemble_foldl _ { head := t.head, payload := t.payload } (by simp [Assembly.add, ho, (h₂ hr).1]) rest hr (h₂ hr).2]
    simp [Assembly.add, ho, (h₂ hr).1, hp]

theorem done_prefix_add (a : Assembly) (t : Transfer) : a.done <+: (a.add t).done := by
  unfold Assembly.add
  dsimp only
  split <;> split <;> simp

theorem done_prefix {a b : List Transfer} (h : a <+: b) : (assemble a).done <+: (assemble b).done := by
  obtain ⟨c, rfl⟩ := h
  unfold assemble
  rw [List.foldl_append]
  generalize a.foldl Assembly.add ⟨[], none⟩ = x
  induction c generalizing x with
  | nil => exact List.prefix_rfl
  | cons t c ih => exact (done_prefix_add x t).trans (ih _)

/-- The frames of a delivery as a receiver sees them, and what was asked to be sent. -/
def DeliveryOf (h : UInt32) (d : SendReq × List Transfer) : Prop :=
  ∃ id tag, TagFor d.1.tag tag ∧ WholeDelivery h id tag d.1.body.tenc
    (if d.1.format.isNone then d.1.body.format else d.1.format) d.1.settled d.2

/-- Whole deliveries one after the other are put together to what was asked to be sent. -/
theorem assemble_all {h : UInt32} {ds : List (SendReq × List Transfer)} (hd : ∀ d ∈ ds, DeliveryOf h d) :
    (assemble (ds.map Prod.snd).flatten).open_ = none ∧
      (assemble (ds.map Prod.snd).flatten).done.length = ds.length ∧
      ∀ (i : Nat) d a, ds[i]? = some d → (assemble (ds.map Prod.snd).flatten).done[i]? = some a → SameMessage d.1 a := by
  induction ds using List.reverseRecOn with
  | nil => exact ⟨rfl, rfl, fun i d a h => by simp at h⟩
  | append_singleton ds d ih =>
    obtain ⟨h₁, h₂, h₃⟩ := ih fun x hx => hd x (by simp [hx])
    obtain ⟨id, tag, htag, hw⟩ := hd d (by simp)
    obtain ⟨head, e₁, e₂, e₃, e₄⟩ := assemble_one hw h₁
    have : ((ds ++ [d]).map Prod.snd).flatten = (ds.map Prod.snd).flatten ++ d.2 := by simp
    rw [this, e₄]
    refine ⟨rfl, by simp [h₂], ?_⟩
    intro i d' a hi ha
    dsimp only at ha
    by_cases hlt : i < ds.length
    · rw [List.getElem?_append_left hlt] at hi
      rw [List.getElem?_append_left (by omega)] at ha
      exact h₃ i d' a hi ha
    · obtain rfl : i = ds.length := by
        have := (List.getElem?_eq_some_iff.mp hi).1
        simp at this; omega
      rw [List.getElem?_append_right (Nat.le_refl _), Nat.sub_self] at hi
      rw [List.getElem?_append_right (by omega), h₂, Nat.sub_self] at ha
      obtain rfl : d = d' := by simpa using hi
      obtain rfl := (by simpa using ha : (⟨head, d.1.body.tenc⟩ : Arrival) = a)
      exact ⟨rfl, e₂, e₃, fun g hg => by rw [e₁, htag.1 g hg]⟩

/-- Where in a sequence of deliveries the next frame is. -/
theorem next_of_blocks {ds : List (SendReq × List Transfer)} {p : List Transfer} {t : Transfer}
    (hp : p ++ [t] <+: (ds.map Prod.snd).flatten) : ∃ ds₁ d ds₂ pre post, ds = ds₁ ++ d :: ds₂ ∧
      p = (ds₁.map Prod.snd).flatten ++ pre ∧ d.2 = pre ++ t :: post := by
  induction ds generalizing p with
  | nil => simp at hp
  | cons d ds ih =>
    rw [List.map_cons, List.flatten_cons] at hp
    obtain ⟨c, hc⟩ := hp
    by_cases hlt : p.length < d.2.length
    · refine ⟨[], d, ds, p, d.2.drop (p.length + 1), rfl, rfl, ?_⟩
      have h₁ : p ++ [t] = d.2.take (p.length + 1) := by
        have h₁ := congrArg (List.take (p.length + 1)) hc
        rwa [List.take_append_of_le_length (l₁ := p ++ [t]) (by simp), List.take_append_of_le_length (l₁ := d.2) hlt,
          List.take_of_length_le (by simp)] at h₁
      conv => lhs; rw [← List.take_append_drop (p.length + 1) d.2, ← h₁]
      simp
    · have h₁ := congrArg (List.take d.2.length) hc
      rw [List.append_assoc, List.take_append_of_le_length (by omega), List.take_append_of_le_length (Nat.le_refl _),
        List.take_length] at h₁
      obtain ⟨q, rfl⟩ : ∃ q, p = d.2 ++ q := ⟨p.drop d.2.length, by
        conv => lhs; rw [← List.take_append_drop d.2.length p, h₁]⟩
      rw [List.append_assoc, List.append_assoc] at hc
      obtain ⟨ds₁, d', ds₂, pre, post, e₁, e₂, e₃⟩ := ih (p := q) ⟨c, by
        have := List.append_cancel_left hc
        rw [← this]; simp⟩
      exact ⟨d :: ds₁, d', ds₂, pre, post, by rw [e₁]; rfl, by rw [e₂]; simp, e₃⟩

/-- The last frames among those of whole deliveries. -/
theorem lasts_whole {h id : UInt32} {tag message : Bytes} {format : Option UInt32} {settled : Bool}
    {ts : List Transfer} (w : WholeDelivery h id tag message format settled ts) :
    (ts.filter fun t => !t.head.more).length = 1 ∧ ∀ pre t post, ts = pre ++ t :: post →
      (pre.filter fun t => !t.head.more) = [] := by
  have hm := w.more
  have hlen : 0 < ts.length := by
    have := congrArg List.length w.ids
    simp at this
    omega
  obtain ⟨init, last, rfl⟩ : ∃ init last, ts = init ++ [last] := by
    rcases List.eq_nil_or_concat ts with h | ⟨a, b, h⟩
    · rw [h] at hlen; simp at hlen
    · exact ⟨a, b, by rw [h]; simp⟩
  simp only [List.map_append, List.map_cons, List.map_nil, List.length_append, List.length_cons, List.length_nil,
    Nat.add_sub_cancel] at hm
  obtain ⟨h₁, h₂⟩ := List.append_inj' hm rfl
  have h₁ : ∀ t ∈ init, t.head.more = true := by
    intro t ht
    have : t.head.more ∈ init.map (·.head.more) := List.mem_map.mpr ⟨t, ht, rfl⟩
    rw [h₁] at this
    exact (List.mem_replicate.mp this).2
  have h₂ : last.head.more = false := by simpa using h₂
  constructor
  · rw [List.filter_append, List.filter_eq_nil_iff.mpr (fun t ht => by simp [h₁ t ht])]
    simp [h₂]
  · intro pre t post heq
    apply List.filter_eq_nil_iff.mpr
    intro x hx
    have : x ∈ init := by
      rcases List.eq_nil_or_concat post with hp | ⟨a, b, hp⟩
      · subst hp
        have := (List.append_inj' heq rfl).1
        rw [this]; exact hx
      · rw [hp] at heq
        have : init ++ [last] = (pre ++ t :: a) ++ [b] := by rw [heq]; simp
        rw [(List.append_inj' this rfl).1]
        simp [hx]
    simp [h₁ x this]

theorem lasts_blocks {h : UInt32} {ds : List (SendReq × List Transfer)} (hd : ∀ d ∈ ds, DeliveryOf h d) :
    ((ds.map Prod.snd).flatten.filter fun t => !t.head.more).length = ds.length := by
  induction ds with
  | nil => rfl
  | cons d ds ih =>
    obtain ⟨id, tag, _, hw⟩ := hd d (by simp)
    rw [List.map_cons, List.flatten_cons, List.filter_append, List.length_append, (lasts_whole hw).1,
      ih fun x hx => hd x (by simp [hx]), List.length_cons]
    omega

/-! ## What the receiving side announces -/

/-- The grants on receiver link `r`, oldest first. -/
def grantsOn (r : Ref) (log : List Ev) : List UInt32 := log.filterMap fun
  | .granted r' n => if r' = r then some n else none
  | _ => none

def total (ns : List UInt32) : Nat := (ns.map UInt32.toNat).sum

theorem grantedOn_eq (r : Ref) (log : List Ev) : grantedOn r log = total (grantsOn r log) := by
  induction log with
  | nil => rfl
  | cons e log ih =>
    have h₁ : grantedOn r (e :: log) = grantedOn r [e] + grantedOn r log := by simp [grantedOn]
    have h₂ : grantsOn r (e :: log) = grantsOn r [e] ++ grantsOn r log := by
      rw [← List.singleton_append]; simp only [grantsOn, List.filterMap_append]
    have h₃ : ∀ a b, total (a ++ b) = total a + total b := by simp [total]
    rw [h₁, h₂, h₃, ih]
    congr 1
    cases e <;> try rfl
    next r' n => by_cases h : r' = r <;> simp [grantedOn, grantsOn, total, h]

/-- The counters announced when each grant is made with no credit left. -/
def stages (i : UInt32) : List UInt32 → List (Option UInt32 × Option UInt32)
  | [] => []
  | n :: ns => (some i, some n) :: stages (i + n) ns

theorem stages_append (i : UInt32) (ns : List UInt32) (n : UInt32) :
    stages i (ns ++ [n]) = stages i ns ++ [(some (i + UInt32.ofNat (total ns)), some n)] := by
  induction ns generalizing i with
  | nil => simp [stages, total]
  | cons m ns ih =>
    have : total (m :: ns) = m.toNat + total ns := by simp [total]
    rw [List.cons_append, stages, ih, stages, this, UInt32.ofNat_add, UInt32.ofNat_toNat, UInt32.add_assoc]
    rfl

theorem stages_length (i : UInt32) (ns : List UInt32) : (stages i ns).length = ns.length := by
  induction ns generalizing i with
  | nil => rfl
  | cons n ns ih => simp [stages, ih]

theorem stages_take (i : UInt32) (ns : List UInt32) (j : Nat) : (stages i ns).take j = stages i (ns.take j) := by
  induction ns generalizing i j with
  | nil => simp [stages]
  | cons n ns ih =>
    cases j with
    | zero => rfl
    | succ j => simp [stages, ih]

theorem total_take_le (ns : List UInt32) (j : Nat) : total (ns.take j) ≤ total ns := by
  have h₃ : ∀ a b, total (a ++ b) = total a + total b := by simp [total]
  conv => rhs; rw [← List.take_append_drop j ns, h₃]
  omega

/-- No other receiver link of the session has the handle of link `r`. -/
def SoleReceiver (s : Session) (k : UInt32) (r : Ref) : Prop := ∀ r' l, s.rcv? r' = some l → (l.handle = k ↔ r' = r)

theorem SoleReceiver.back {s : Session} {st : Step} {k : UInt32} {r : Ref} (h : SoleReceiver (s.step st) k r) :
    SoleReceiver s k r := by
  intro r' l hl
  obtain ⟨l', hl', hh⟩ := step_rcv_kept st hl
  rw [← hh]
  exact h r' l' hl'

theorem Frugal.prefix {r : Ref} {a b : List Ev} (h : Frugal r (a ++ b)) : Frugal r a :=
  fun pre n post e => h pre n (post ++ b) (by rw [e]; simp)

theorem flowsOn_grants (k : UInt32) (s : Session) : flowsOn k (posted s.log) = flowsOn k (posted s.grants) := by
  unfold flowsOn posted grants
  rw [List.filterMap_filterMap, List.filterMap_filterMap, List.filterMap_filter]
  congr 1
  funext e
  cases e <;> try rfl
  next f =>
    cases f <;> try rfl
    next f =>
      simp only [Option.bind_some, Ev.granting]
      split
      · next h => simp [h]
      · split <;> rfl

theorem grantsOn_grants (r : Ref) (s : Session) : grantsOn r s.log = grantsOn r s.grants := by
  unfold grantsOn grants
  rw [List.filterMap_filter]
  congr 1
  funext e
  cases e <;> first
    | rfl
    | (next f =>
        cases f <;> first
          | rfl
          | exact (ite_self _).symm)

theorem appliedOn_grants (r : Ref) (s : Session) : appliedOn r s.log = appliedOn r s.grants := by
  unfold appliedOn grants
  rw [List.filterMap_filter]
  congr 1
  funext e
  cases e <;> first
    | rfl
    | (next f =>
        cases f <;> first
          | rfl
          | exact (ite_self _).symm)

/-- The credit is not changed by events that are neither arrivals nor grants. -/
theorem creditLeft_still {r : Ref} {a b : List Ev} (h₁ : ∀ e ∈ b, e.arrival = false) (h₂ : ∀ e ∈ b, e.granting = false) :
    creditLeft r (a ++ b) = creditLeft r a := by
  rw [creditLeft_append]
  generalize creditLeft r a = c
  induction b generalizing c with
  | nil => rfl
  | cons e b ih =>
    rw [List.foldl_cons, show creditAfter r c e = c from ?_]
    · exact ih (fun x hx => h₁ x (by simp [hx])) (fun x hx => h₂ x (by simp [hx])) c
    · have h₁ := h₁ e (by simp)
      have h₂ := h₂ e (by simp)
      cases e <;> first | rfl | (cases h₁; done) | cases h₂

/-- A list filtered to one that begins with `x`: what comes before `x` is filtered out. -/
theorem filter_cons_split {α} {p : α → Bool} {l : List α} {x : α} {xs : List α} (h : l.filter p = x :: xs) :
    ∃ a b, l = a ++ x :: b ∧ ∀ y ∈ a, p y = false := by
  induction l with
  | nil => cases h
  | cons y l ih =>
    by_cases hy : p y
    · rw [List.filter_cons_of_pos hy] at h
      injection h with h₁ h₂
      exact ⟨[], l, by rw [h₁]; rfl, by simp⟩
    · rw [List.filter_cons_of_neg hy] at h
      obtain ⟨a, b, rfl, hab⟩ := ih h
      refine ⟨y :: a, b, rfl, ?_⟩
      intro z hz
      rcases List.mem_cons.mp hz with rfl | hz
      · simpa using hy
      · exact hab z hz

/-- What is announced for a link whose application grants only when no credit is left. -/
def Announced (s : Session) : Prop := ∀ k r i, SoleReceiver s k r → NothingDeclined r s.log → Frugal r s.log →
  (∀ c, baseCount s r = some c → c = i) →
  (flowsOn k (posted s.log)).map (fun f => (f.deliveryCount, f.linkCredit)) = stages i (grantsOn r s.log)

theorem step_announced {s : Session} (hs : Reachable s) (hi : Announced s) (st : Step) : Announced (s.step st) := by
  intro k r i hk hn hf hb
  obtain ⟨evs, hlog⟩ : ∃ evs, (s.step st).log = s.log ++ evs := run_log s [st]
  have hk' := hk.back
  have hn' : NothingDeclined r s.log := fun t ht => hn t (by rw [hlog]; exact List.mem_append_left _ ht)
  have hf' : Frugal r s.log := Frugal.prefix (hlog ▸ hf)
  have hb' : ∀ c, baseCount s r = some c → c = i := fun c hc => hb c (baseCount_run hc [st])
  have ih := hi k r i hk' hn' hf' hb'
  have same : (s.step st).grants = s.grants →
      (flowsOn k (posted (s.step st).log)).map (fun f => (f.deliveryCount, f.linkCredit)) = stages i (grantsOn r (s.step st).log) := by
    intro he
    rw [flowsOn_grants, grantsOn_grants, he, ← flowsOn_grants, ← grantsOn_grants]
    exact ih
  -- one more grant
  have grown : ∀ r' (l : Rcv) f n, st.moves = false → s.rcv? r' = some l →
      (s.step st).grants = s.grants ++ [.granted r' n, .frame (.flow f)] →
      f.handle = some l.handle → f.deliveryCount = some l.deliveryCount → f.linkCredit = some n →
      (flowsOn k (posted (s.step st).log)).map (fun f => (f.deliveryCount, f.linkCredit)) = stages i (grantsOn r (s.step st).log) := by
    intro r' l f n hm hl hg e₁ e₂ e₃
    have hevs : evs.filter Ev.granting = [.granted r' n, .frame (.flow f)] := by
      have : (s.step st).grants = s.grants ++ evs.filter Ev.granting := by
        unfold grants; rw [hlog, List.filter_append]
      rw [hg] at this
      exact (List.append_cancel_left this).symm
    have harr : evs.filter Ev.arrival = [] := by
      have : (s.step st).arrivals = s.arrivals ++ evs.filter Ev.arrival := by
        unfold arrivals; rw [hlog, List.filter_append]
      rw [step_arrivals s hm] at this
      simpa using this
    rw [flowsOn_grants, grantsOn_grants, hg]
    have p₁ : flowsOn k (posted (s.grants ++ [.granted r' n, .frame (.flow f)])) = flowsOn k (posted s.grants) ++
        if l.handle = k then [f] else [] := by
      rw [posted_append]
      by_cases h : l.handle = k <;> simp [flowsOn, posted, e₁, h]
    have p₂ : grantsOn r (s.grants ++ [.granted r' n, .frame (.flow f)]) = grantsOn r s.grants ++ if r' = r then [n] else [] := by
      by_cases h : r' = r <;> simp [grantsOn, h]
    rw [p₁, p₂, ← flowsOn_grants, ← grantsOn_grants]
    by_cases hr : r' = r
    · subst hr
      rw [if_pos ((hk' r' l hl).mpr rfl), if_pos rfl, List.map_append, ih, stages_append]
      congr 1
      simp only [List.map_cons, List.map_nil, e₂, e₃, List.cons.injEq, Prod.mk.injEq, and_true, Option.some.injEq]
      -- no credit was left
      obtain ⟨a, b, hab, ha⟩ := filter_cons_split hevs
      have hz : creditLeft r' (s.log ++ a) = 0 := hf (s.log ++ a) n b (by rw [hlog, hab]; simp)
      rw [creditLeft_still (fun e he => by
        have := List.filter_eq_nil_iff.mp harr e (by rw [hab]; simp [he])
        simpa using this) ha,
        creditLeft_exact s.log (fun pre t post => hs.creditGuard pre r' t post) hn'] at hz
      have hbase := hb' (l.deliveryCount - UInt32.ofNat (completedOn r' s.log)) (by rw [baseCount, hl]; rfl)
      rw [grantedOn_eq] at hz
      generalize UInt32.ofNat (total (grantsOn r' s.log)) = x at *
      generalize UInt32.ofNat (completedOn r' s.log) = y at *
      grind
    · rw [if_neg hr, if_neg (fun h => hr ((hk' r' l hl).mp h)), List.append_nil, List.append_nil]
      exact ih
  cases hst : st.grants with
  | false => exact same (step_grants s hst)
  | true =>
    cases st
    case grant r' n =>
      rcases grant_grants s r' n with h | ⟨l, f, hl, h, e₁, e₂, e₃⟩
      · exact same h
      · exact grown r' l f n rfl hl h e₁ e₂ e₃
    case complete j edit e =>
      rcases complete_grants s j edit e with h | ⟨r', f, _, _, h⟩ | ⟨r', l, f, hl, h, e₁, e₂, e₃⟩
      · exact same h
      · rw [flowsOn_grants, grantsOn_grants, h]
        have p₁ : flowsOn k (posted (s.grants ++ [.applied r' f])) = flowsOn k (posted s.grants) := by
          rw [posted_append]; simp [flowsOn, posted]
        have p₂ : grantsOn r (s.grants ++ [.applied r' f]) = grantsOn r s.grants := by simp [grantsOn]
        rw [p₁, p₂, ← flowsOn_grants, ← grantsOn_grants]
        exact ih
      · exact grown r' l f 50 rfl hl h e₁ e₂ e₃
    all_goals cases hst

theorem Session.Reachable.announced {s : Session} (h : Reachable s) : Announced s := by
  obtain ⟨s₀, steps, hf, rfl⟩ := h
  induction steps using List.reverseRecOn with
  | nil =>
    obtain ⟨_, _, _, _, _, rfl⟩ := hf
    intro k r i _ _ _ _
    rfl
  | append_singleton steps st ih =>
    have : s₀.run (steps ++ [st]) = (s₀.run steps).step st := by simp [Session.run]
    rw [this]
    exact step_announced ⟨s₀, steps, hf, rfl⟩ ih st

/-- On such a link the credit left is exactly what was granted and not used. -/
theorem creditLeft_frugal {r : Ref} (log : List Ev)
    (hg : ∀ pre t post, log = pre ++ .received r t :: post → creditLeft r pre ≠ 0) (hn : NothingDeclined r log)
    (hf : Frugal r log) : (creditLeft r log).toNat + completedOn r log = grantedOn r log := by
  induction log using List.reverseRecOn with
  | nil => simp [creditLeft, grantedOn, completedOn, receivedOn]
  | append_singleton log e ih =>
    have ih := ih (fun pre t post h => hg pre t (post ++ [e]) (by rw [h]; simp))
      (fun t h => hn t (List.mem_append_left _ h)) hf.prefix
    have hgr : grantedOn r (log ++ [e]) = grantedOn r log + grantedOn r [e] := by simp [grantedOn]
    rw [creditLeft_append, completedOn_append, hgr, List.foldl_cons, List.foldl_nil]
    have quiet : ∀ e, (∀ c, creditAfter r c e = c) → completedOn r [e] = 0 → grantedOn r [e] = 0 →
        (creditAfter r (creditLeft r log) e).toNat + (completedOn r log + completedOn r [e]) =
          grantedOn r log + grantedOn r [e] := by
      intro e h₁ h₂ h₃
      rw [h₁, h₂, h₃]; omega
    cases e with
    | received r' t =>
      by_cases hr : r' = r
      · subst hr
        have hpos := hg log t [] rfl
        cases hm : t.head.more with
        | true => exact quiet _ (fun c => by simp [creditAfter, hm]) (by simp [completedOn, receivedOn, hm]) rfl
        | false =>
          have h1 : completedOn r' [.received r' t] = 1 := by simp [completedOn, receivedOn, hm]
          have h2 : grantedOn r' [.received r' t] = 0 := rfl
          have h3 : creditAfter r' (creditLeft r' log) (.received r' t) = creditLeft r' log - 1 := by
            simp [creditAfter, hm, hpos]
          have h4 : 0 < (creditLeft r' log).toNat := by
            rcases Nat.eq_zero_or_pos (creditLeft r' log).toNat with h | h
            · exact absurd (UInt32.toNat_inj.mp h) hpos
            · exact h
          have h5 : (creditLeft r' log - 1).toNat = (creditLeft r' log).toNat - 1 := by
            rw [UInt32.toNat_sub_of_le _ _ (by rw [UInt32.le_iff_toNat_le]; exact h4)]; rfl
          rw [h3, h1, h2, h5]; omega
      · exact quiet _ (fun c => by simp [creditAfter, hr]) (by simp [completedOn, receivedOn, hr]) rfl
    | declined r' t =>
      have hr : r' ≠ r := fun h => hn t (by rw [h]; simp)
      exact quiet _ (fun c => by simp [creditAfter, hr]) (by simp [completedOn, receivedOn]) rfl
    | granted r' n =>
      by_cases hr : r' = r
      · have h1 : completedOn r [.granted r' n] = 0 := rfl
        have h2 : grantedOn r [.granted r' n] = n.toNat := by simp [grantedOn, hr]
        have h3 := hf log n [] (by rw [hr])
        rw [h3] at ih
        rw [h1, h2, h3]
        simp only [creditAfter, if_pos hr]
        simp at ih ⊢
        omega
      · exact quiet _ (fun c => by simp [creditAfter, hr]) rfl (by simp [grantedOn, hr])
    | _ => exact quiet _ (fun c => rfl) rfl rfl

/-! ## What the sending side makes of it -/

/-- A sender link that is told of the grants in order uses no more than was granted. -/
theorem track_stages {r : Ref} {i : UInt32} (log : List Ev) (ns : List UInt32) (hg : Guarded r i log)
    (ha : (appliedOn r log).map (fun f => (f.deliveryCount, f.linkCredit)) = stages i ns) :
    (track r i log).2.toNat + taken r log ≤ total ns := by
  induction log using List.reverseRecOn generalizing ns with
  | nil => simp [track, taken]
  | append_singleton log e ih =>
    have hg' : Guarded r i log := fun pre t post h => hg pre t (post ++ [e]) (by rw [h]; simp)
    rw [track_append, taken_append, List.foldl_cons, List.foldl_nil]
    have happ : appliedOn r (log ++ [e]) = appliedOn r log ++ appliedOn r [e] := by simp [appliedOn]
    rw [happ, List.map_append] at ha
    have quiet : see r (track r i log) e = track r i log → taken r [e] = 0 → appliedOn r [e] = [] →
        (see r (track r i log) e).2.toNat + (taken r log + taken r [e]) ≤ total ns := by
      intro h₁ h₂ h₃
      rw [h₁, h₂]
      rw [h₃] at ha
      exact ih ns hg' (by simpa using ha)
    cases e <;> try exact quiet rfl rfl rfl
    · next t r' =>
      by_cases hr : r' = r
      · subst hr
        have hpos := hg log t [] rfl
        have ih := ih ns hg' (by simpa [appliedOn] using ha)
        have h4 : 0 < (track r' i log).2.toNat := by
          rcases Nat.eq_zero_or_pos (track r' i log).2.toNat with h | h
          · exact absurd (UInt32.toNat_inj.mp h) hpos
          · exact h
        have h5 : ((track r' i log).2 - 1).toNat = (track r' i log).2.toNat - 1 := by
          rw [UInt32.toNat_sub_of_le _ _ (by rw [UInt32.le_iff_toNat_le]; exact h4)]; rfl
        have h6 : taken r' [.took t r'] = 1 := by simp [taken]
        simp only [see, if_true]
        rw [h5, h6]; omega
      · exact quiet (by simp [see, hr]) (by simp [taken, hr]) rfl
    · next r' f =>
      by_cases hr : r' = r
      · subst hr
        have hone : appliedOn r' [.applied r' f] = [f] := by simp [appliedOn]
        rw [hone] at ha
        have hne : ns ≠ [] := by
          rintro rfl
          simp [stages] at ha
        obtain ⟨ms, n, rfl⟩ : ∃ ms n, ns = ms ++ [n] := ⟨_, _, (List.dropLast_append_getLast hne).symm⟩
        rw [stages_append] at ha
        obtain ⟨h₁, h₂⟩ := List.append_inj' ha rfl
        have ih := ih ms hg' h₁
        simp only [List.map_cons, List.map_nil, List.cons.injEq, Prod.mk.injEq, and_true] at h₂
        have ht : taken r' [.applied r' f] = 0 := rfl
        have htot : total (ms ++ [n]) = total ms + n.toNat := by simp [total]
        simp only [see, if_true, h₂.1, h₂.2, ht, htot, Option.getD_some, track_count]
        have : i + UInt32.ofNat (total ms) + n - (i + UInt32.ofNat (taken r' log)) =
            UInt32.ofNat (total ms + n.toNat - taken r' log) := by
          have e : total ms + n.toNat = (total ms + n.toNat - taken r' log) + taken r' log := by omega
          have e' := congrArg UInt32.ofNat e
          rw [UInt32.ofNat_add, UInt32.ofNat_add (a := _ - _), UInt32.ofNat_toNat] at e'
          generalize UInt32.ofNat (total ms + n.toNat - taken r' log) = x at *
          generalize UInt32.ofNat (total ms) = y at *
          generalize UInt32.ofNat (taken r' log) = z at *
          grind
        rw [this, UInt32.toNat_ofNat']
        have := Nat.mod_le (total ms + n.toNat - taken r' log) (2 ^ 32)
        omega
      · exact quiet (by simp [see, hr]) rfl (by simp [appliedOn, hr])

end Amqp.Rt
