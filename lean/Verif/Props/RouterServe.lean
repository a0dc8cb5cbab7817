import Verif.Lemmas.RouterServe
/-!
# The router serves the links it has handlers for: C60
-/

namespace Amqp.Rt
open Session Examples Router

/-- **C60** Before a message is given to its handler the credit of the link is looked at: if none is left, 50 units are
granted and announced to the peer with the delivery-count of the link; otherwise nothing is.  In every state. -/
theorem c60_renewed (σ : Router) {i : Nat} {r srv d : Ref} {t : Transfer} {att : Bool}
    (hc : σ.calls[i]? = some (.readying r srv d t att)) {l : Rcv} (hl : σ.sess.rcv? r = some l) :
    (l.credit = 0 → ∃ f evs, (σ.step (.readied i none)).sess.log = σ.sess.log ++ evs ++ [.frame (.flow f)] ∧
      f.handle = some l.handle ∧ f.deliveryCount = some l.deliveryCount ∧ f.linkCredit = some 50 ∧
      (σ.step (.readied i none)).sess.rcv? r = some { l with credit := 50 }) ∧
    (l.credit ≠ 0 → (σ.step (.readied i none)).sess = σ.sess) := by
  have hstep : (σ.step (.readied i none)).sess = if l.credit = 0 then σ.sess.step (.grant r 50) else σ.sess := by
    simp only [Router.step, hc, Router.readied, hl]
    split <;> rfl
  rw [hstep]
  refine ⟨fun h => ?_, fun h => by rw [if_neg h]⟩
  rw [if_pos h]
  obtain ⟨f, evs, h₁, h₂, h₃, h₄, h₅, _⟩ := grant_eq hl 50
  exact ⟨f, evs, h₁, h₂, h₃, h₄, by rw [h₅, h]; rfl⟩

example : (∃ t, (router.run (served ++ (oneMessage false).take 2)).calls[1]? = some (.readying 0 0 0 t false)) ∧
    ∃ l, (router.run (served ++ (oneMessage false).take 2)).sess.rcv? 0 = some l :=
  ⟨⟨_, rfl⟩, _, rfl⟩

/-- **C60** When the router has nothing more to do for a link it has a handler for, the handler was given every message
that is complete, in the order of arrival, and is done with all of them.

Missing: executions in which the connection closes, a handler service is not ready, a call is dropped, the application
takes messages itself, or a link loses its slot while it is being attached (`Router.Orderly`). -/
theorem c60_served_partial {σ₀ : Router} (hf : σ₀.Fresh) {r : Ref} {steps : List RStep} (ho : σ₀.OrderlyRun r steps)
    {srv : Ref} (hh : (σ₀.run steps).handlers.get r = some (some srv)) (hi : (σ₀.run steps).IdleFor r) :
    (handedOn r (σ₀.run steps).sess.log).map (·.2.asArrival) = (assemble (receivedOn r (σ₀.run steps).sess.log)).done ∧
    ∀ d t, (d, t) ∈ handedOn r (σ₀.run steps).sess.log →
      ∃ srv' live hnd, .invoked r srv' d t live ∈ (σ₀.run steps).log ∧ .answered r srv' d t hnd ∈ (σ₀.run steps).log := by
  have hs := ho.serves hf
  have hr : (σ₀.run steps).sess.Reachable := Router.Reachable.sess ⟨σ₀, steps, hf, rfl⟩
  refine ⟨?_, fun d t hm => ?_⟩
  · refine (c31_in_order hr r).eq_of_length_le ?_
    have h1 := hs.calls srv hh
    have h2 : (σ₀.run steps).calls.countP (transferOf r) = 0 := by
      refine List.countP_eq_zero.mpr fun c hc htr => ?_
      cases c with
      | transfer r' => exact (hi _ hc).1 (by rw [show r' = r by simpa [transferOf] using htr])
      | _ => cases htr
    rw [h2] at h1
    simpa [doneOn, takenOn] using h1
  · rcases hs.invoked d t (hs.fetched d t hm) with ⟨srv', att, hc⟩ | ⟨srv', live, hv⟩
    · exact absurd rfl ((hi _ hc).2.1 srv' d t att)
    · rcases hs.answered srv' d t live hv with ⟨att, hc⟩ | ⟨hnd, ha⟩
      · exact absurd rfl ((hi _ hc).2.2 srv' d t att)
      · exact ⟨srv', live, hnd, hv, ha⟩

/-- **C60** And then the peer may send more: the link has credit, unless it is closed.

Missing: as for `c60_served_partial`. -/
theorem c60_not_starved_partial {σ₀ : Router} (hf : σ₀.Fresh) {r : Ref} {steps : List RStep} (ho : σ₀.OrderlyRun r steps)
    {srv : Ref} (hh : (σ₀.run steps).handlers.get r = some (some srv)) (hi : (σ₀.run steps).IdleFor r)
    (hcf : CreditFits r (σ₀.run steps).sess.log) {l : Rcv} (hl : (σ₀.run steps).sess.rcv? r = some l) :
    l.credit ≠ 0 ∨ l.closed = true := by
  have hs := ho.serves hf
  rcases hs.fed srv hh hcf with h | h | ⟨srv', d, t, att, h⟩
  · exact h l hl
  · have := (c60_served_partial hf ho hh hi).1
    have := congrArg List.length this
    rw [List.length_map] at this
    unfold takenOn doneOn at h
    omega
  · exact absurd rfl ((hi _ h).2.1 srv' d t att)

/-- **C60** So the peer gets one answer to every message it sent unsettled: a settled disposition with the state the outcome
of the handler stands for.

Missing: as for `c60_served_partial`. -/
theorem c60_answered_partial {σ₀ : Router} (hf : σ₀.Fresh) {r : Ref} {steps : List RStep} (ho : σ₀.OrderlyRun r steps)
    {srv : Ref} (hh : (σ₀.run steps).handlers.get r = some (some srv)) (hi : (σ₀.run steps).IdleFor r)
    {m : Arrival} (hm : m ∈ (assemble (receivedOn r (σ₀.run steps).sess.log)).done) (hn : m.head.settled ≠ some true) :
    ∃ srv' d t hnd id, .answered r srv' d t hnd ∈ (σ₀.run steps).log ∧ t.asArrival = m ∧ m.head.deliveryId = some id ∧
      settling id (settledAs hnd) ∈ sentDispositions (σ₀.run steps).sess.log := by
  obtain ⟨h1, h2⟩ := c60_served_partial hf ho hh hi
  rw [← h1] at hm
  obtain ⟨⟨d, t⟩, hdt, rfl⟩ := List.mem_map.mp hm
  obtain ⟨srv', live, hnd, _, ha⟩ := h2 d t hdt
  obtain ⟨_, id, hid, hsent⟩ := (c41_outcome ⟨σ₀, steps, hf, rfl⟩ ha).2 hn
  exact ⟨srv', d, t, hnd, id, ha, rfl, hid, hsent⟩

/-! ## Such executions -/

theorem orderly_nil (σ₀ : Router) (r : Ref) : σ₀.OrderlyRun r [] := by
  intro pre st post h
  cases pre <;> cases h

theorem orderly_snoc {σ₀ : Router} {r : Ref} {steps : List RStep} {st : RStep} (h : σ₀.OrderlyRun r steps)
    (ho : (σ₀.run steps).Orderly r st) (hfit : ((σ₀.run steps).step st).sess.links.slots.length ≤ 2 ^ 32) :
    σ₀.OrderlyRun r (steps ++ [st]) := by
  intro pre st' post he
  cases post using List.reverseRecOn with
  | nil =>
    obtain ⟨hp, he⟩ := List.append_inj' he rfl
    cases he
    subst hp
    refine ⟨ho, fun k x hx => ?_⟩
    unfold Slab.get at hx
    rcases Nat.lt_or_ge k ((σ₀.run steps).step st).sess.links.slots.length with h | h
    · omega
    · rw [List.getElem?_eq_none h] at hx; cases hx
  | append_singleton post st'' =>
    rw [← List.cons_append, ← List.append_assoc] at he
    obtain ⟨rfl, -⟩ := List.append_inj' he rfl
    exact h pre st' post rfl

/-- A message is served. -/
def servedOne : List RStep := served ++ oneMessage false ++ [.answered 1 (.ok .accept)]

theorem servedOne_orderly : router.OrderlyRun 0 servedOne := by
  have h := orderly_nil router 0
  have h := orderly_snoc (st := .sess (.peer (.attach (attachTo "in" 5 (some "q")))) true) h
    ⟨rfl, nofun, nofun, by rintro ⟨_, _, _, _, _, h⟩; exact h⟩ (by decide)
  have h := orderly_snoc (st := .sess (pass 0) true) h
    ⟨rfl, nofun, nofun, by rintro ⟨_, _, _, _, _, _, _, _, _, h, _⟩; cases h⟩ (by decide)
  have h := orderly_snoc (st := .start 0) h trivial (by decide)
  have h := orderly_snoc (st := .created 0 none) h trivial (by decide)
  have h := orderly_snoc (st := .sess (.peer (.transfer (theMessage false))) true) h
    ⟨rfl, nofun, nofun, by rintro ⟨_, _, _, _, _, h⟩; exact h⟩ (by decide)
  have h := orderly_snoc (st := .start 1) h trivial (by decide)
  have h := orderly_snoc (st := .readied 1 none) h rfl (by decide)
  exact orderly_snoc (st := .answered 1 (.ok .accept)) h trivial (by decide)

theorem servedOne_calls : (router.run servedOne).calls = [.done, .done] := rfl

theorem idle_of_done {σ : Router} (r : Ref) (h : σ.calls = [.done, .done]) : σ.IdleFor r := by
  intro c hm
  rw [h] at hm
  have : c = .done := by simpa using hm
  subst this
  exact ⟨by simp, by simp, by simp⟩

theorem creditLeft_le {r : Ref} (log : List Ev) (hb : grantedOn r log < 2 ^ 32) : (creditLeft r log).toNat ≤ grantedOn r log := by
  induction log using List.reverseRecOn with
  | nil => exact Nat.zero_le _
  | append_singleton log e ih =>
    have hgr : grantedOn r (log ++ [e]) = grantedOn r log + grantedOn r [e] := by simp [grantedOn]
    have ih := ih (by omega)
    rw [creditLeft_append, hgr]
    show (creditAfter r (creditLeft r log) e).toNat ≤ _
    have sub : ∀ c : UInt32, c ≠ 0 → (c - 1).toNat ≤ c.toNat := by
      intro c hc
      rw [UInt32.toNat_sub_of_le _ _ (UInt32.le_iff_toNat_le.mpr (by
        have : c.toNat ≠ 0 := fun h => hc (UInt32.toNat_inj.mp (by simpa using h))
        show 1 ≤ c.toNat
        omega))]
      omega
    cases e
    case granted r' n =>
      dsimp only [creditAfter]
      split
      · next h =>
        rw [hgr] at hb
        simp only [grantedOn, List.map_cons, List.map_nil, List.sum_cons, List.sum_nil, h, if_true, Nat.add_zero] at hb ⊢
        rw [UInt32.toNat_add]
        exact Nat.le_trans (Nat.mod_le _ _) (Nat.add_le_add_right ih _)
      · omega
    case received r' t =>
      dsimp only [creditAfter]
      split
      · next h => have := sub _ h.2.1; omega
      · omega
    case declined r' t =>
      dsimp only [creditAfter]
      split
      · next h => have := sub _ h.2.1; omega
      · omega
    all_goals exact Nat.le_trans ih (Nat.le_add_right _ _)

/-- It is enough that all grants together stay below 2^32. -/
theorem creditFits_of_granted {r : Ref} {log : List Ev} (hb : grantedOn r log < 2 ^ 32) : CreditFits r log := by
  rintro pre n post rfl
  have : grantedOn r (pre ++ .granted r n :: post) = grantedOn r pre + n.toNat + grantedOn r post := by
    simp [grantedOn, Nat.add_assoc]
  have := creditLeft_le pre (r := r) (by omega)
  omega

example : CreditFits 0 (router.run servedOne).sess.log := creditFits_of_granted (by decide)

example : (router.run servedOne).handlers.get 0 = some (some 0) ∧ (router.run servedOne).IdleFor 0 ∧
    (assemble (receivedOn 0 (router.run servedOne).sess.log)).done.length = 1 :=
  ⟨rfl, idle_of_done 0 servedOne_calls, rfl⟩

end Amqp.Rt
