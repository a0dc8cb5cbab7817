import Verif.Lemmas.SessionInv
/-!
# The credit of a sender link is what the history says
-/

namespace Amqp.Rt
open Session

/-- What an event does to the delivery count and the credit of sender link `r`. -/
def see (r : Ref) (m : UInt32 × UInt32) : Ev → UInt32 × UInt32
  | .took _ r' => if r' = r then (m.1 + 1, m.2 - 1) else m
  | .applied r' f =>
    if r' = r then
      match f.linkCredit with
      | some c => (m.1, f.deliveryCount.getD 0 + c - m.1)
      | none => m
    else m
  | _ => m

def track (r : Ref) (init : UInt32) (log : List Ev) : UInt32 × UInt32 := log.foldl (see r) (init, 0)

/-- Credit is only used when there is some. -/
def Guarded (r : Ref) (init : UInt32) (log : List Ev) : Prop :=
  ∀ pre t post, log = pre ++ .took t r :: post → (track r init pre).2 ≠ 0

theorem see_quiet {r : Ref} {m} {e : Ev} (h : ¬ e.Credit) : see r m e = m := by
  cases e <;> first | rfl | exact (h trivial).elim

theorem foldl_see_quiet {r : Ref} {m} {evs : List Ev} (h : ∀ e ∈ evs, ¬ e.Credit) : evs.foldl (see r) m = m := by
  induction evs with
  | nil => rfl
  | cons e evs ih =>
    rw [List.foldl_cons, see_quiet (h e (by simp)), ih fun x hx => h x (by simp [hx])]

/-- A guarded log stays guarded when events that use no credit of the link are added. -/
theorem Guarded.append {r : Ref} {init} {log evs : List Ev} (h : Guarded r init log)
    (he : ∀ t, .took t r ∉ evs) : Guarded r init (log ++ evs) := by
  intro pre t post heq
  rcases List.append_eq_append_iff.mp heq with ⟨as, h₁, h₂⟩ | ⟨bs, h₁, h₂⟩
  · exact (he t (by rw [h₂]; simp)).elim
  · rcases bs with _ | ⟨b, bs⟩
    · have h₂ : Ev.took t r :: post = evs := h₂
      exact (he t (by rw [← h₂]; simp)).elim
    · simp only [List.cons_append, List.cons.injEq] at h₂
      obtain ⟨rfl, _⟩ := h₂
      exact h pre t bs h₁

theorem Guarded.took {r : Ref} {init} {log : List Ev} (h : Guarded r init log) (t : Ref)
    (hc : (track r init log).2 ≠ 0) : Guarded r init (log ++ [.took t r]) := by
  intro pre t' post heq
  rcases List.append_eq_append_iff.mp heq with ⟨as, h₁, h₂⟩ | ⟨bs, h₁, h₂⟩
  · rcases as with _ | ⟨a, as⟩
    · rw [List.append_nil] at h₁; rw [h₁]; exact hc
    · simp at h₂
  · rcases bs with _ | ⟨b, bs⟩
    · rw [List.append_nil] at h₁; rw [← h₁]; exact hc
    · simp only [List.cons_append, List.cons.injEq] at h₂
      obtain ⟨rfl, _⟩ := h₂
      exact h pre t' bs h₁

def CreditInv (s : Session) : Prop :=
  ∀ r c, s.meter r = some c → ∃ init, track r init s.log = c ∧ Guarded r init s.log

theorem track_append (r : Ref) (init) (a b : List Ev) :
    track r init (a ++ b) = b.foldl (see r) (track r init a) := by
  simp [track]

theorem Micro.creditInv {s s' : Session} (h : Micro s s') (hr : SndRefs s) (hi : CreditInv s) : CreditInv s' := by
  intro r c hc
  cases h.credit with
  | quiet evs hl he hlen hm hn =>
    by_cases hlt : r < s.snds.length
    · rw [hm r hlt] at hc
      obtain ⟨init, h₁, h₂⟩ := hi r c hc
      refine ⟨init, ?_, ?_⟩
      · rw [hl, track_append, foldl_see_quiet he, h₁]
      · rw [hl]; exact h₂.append fun t ht => he _ ht trivial
    · have hz := hn r c (Nat.le_of_not_lt hlt) hc
      refine ⟨c.1, ?_, ?_⟩
      · have : ∀ (evs : List Ev) m, (∀ t, .took t r ∉ evs) → (∀ f, .applied r f ∉ evs) → evs.foldl (see r) m = m := by
          intro evs
          induction evs with
          | nil => intros; rfl
          | cons e evs ih =>
            intro m h₁ h₂
            have : see r m e = m := by
              cases e <;> try rfl
              · next t r' =>
                have : r' ≠ r := by rintro rfl; exact h₁ t (by simp)
                simp [see, this]
              · next r' f =>
                have : r' ≠ r := by rintro rfl; exact h₂ f (by simp)
                simp [see, this]
            rw [List.foldl_cons, this]
            exact ih m (fun t ht => h₁ t (by simp [ht])) (fun f hf => h₂ f (by simp [hf]))
        rw [hl, track_append, foldl_see_quiet he, track,
          this _ _ (fun t ht => hlt (hr.took t r ht)) (fun f hf => hlt (hr.applied r f hf)), ← hz]
      · rw [hl]
        refine Guarded.append ?_ (fun t ht => he _ ht trivial)
        intro pre t post heq
        exact (hlt (hr.took t r (by rw [heq]; simp))).elim
  | took t r' l evs hs hc' hl he hlen hm =>
    rw [hm] at hc
    have hsplit : s'.log = (s.log ++ [.took t r']) ++ evs := by rw [hl]; simp
    split at hc
    · next hrr =>
      subst hrr
      obtain ⟨init, h₁, h₂⟩ := hi r' (l.deliveryCount, l.linkCredit) (by simp [meter, hs])
      refine ⟨init, ?_, ?_⟩
      · rw [hsplit, track_append, foldl_see_quiet he, track_append, h₁]
        simpa [see] using hc
      · rw [hsplit]
        refine Guarded.append ?_ (fun t ht => he _ ht trivial)
        exact h₂.took t (by rw [h₁]; exact hc')
    · next hrr =>
      obtain ⟨init, h₁, h₂⟩ := hi r c hc
      refine ⟨init, ?_, ?_⟩
      · rw [hsplit, track_append, foldl_see_quiet he, track_append, h₁]
        simp [see, hrr]
      · rw [hsplit]
        refine Guarded.append (h₂.append ?_) (fun t ht => he _ ht trivial)
        intro t' ht'
        exact hrr (by simp at ht'; exact ht'.2.symm)
  | applied r' f ht hl hlen hm =>
    rw [hm] at hc
    split at hc
    · next hrr =>
      subst hrr
      obtain ⟨l, hs, rfl⟩ := Option.map_eq_some_iff.mp hc
      obtain ⟨init, h₁, h₂⟩ := hi r' (l.deliveryCount, l.linkCredit) (by simp [meter, hs])
      refine ⟨init, ?_, ?_⟩
      · rw [hl, track_append, h₁]
        simp only [List.foldl_cons, List.foldl_nil, see, if_true, Snd.flow]
        cases f.linkCredit <;> rfl
      · rw [hl]; exact h₂.append (by simp)
    · next hrr =>
      obtain ⟨init, h₁, h₂⟩ := hi r c hc
      refine ⟨init, ?_, ?_⟩
      · rw [hl, track_append, h₁]
        simp [see, hrr]
      · rw [hl]; exact h₂.append (by simp)

theorem Session.Reachable.creditInv {s : Session} (h : Reachable s) : CreditInv s := by
  have : SndRefs s ∧ CreditInv s := by
    refine h.invariant (P := fun s => SndRefs s ∧ CreditInv s) ?_ (fun _ _ hm hp => ⟨hm.sndRefs hp.1, hm.creditInv hp.1 hp.2⟩)
    intro s hf
    refine ⟨Reachable.sndRefs ⟨s, [], hf, rfl⟩, ?_⟩
    obtain ⟨id, b, mfs, ch, b, rfl⟩ := hf
    intro r c hc
    simp [meter, snd?, Session.new] at hc
  exact this.2

/-! ## Consequences for the log alone -/

theorem taken_append (r : Ref) (a b : List Ev) : taken r (a ++ b) = taken r a + taken r b := by
  simp [taken]

theorem track_count (r : Ref) (init) (log : List Ev) : (track r init log).1 = init + UInt32.ofNat (taken r log) := by
  have : ∀ (log : List Ev) m, (log.foldl (see r) m).1 = m.1 + UInt32.ofNat (taken r log) := by
    intro log
    induction log with
    | nil => intro m; simp [taken]
    | cons e log ih =>
      intro m
      rw [List.foldl_cons, ih]
      have hcons : taken r (e :: log) = taken r [e] + taken r log := taken_append r [e] log
      rw [hcons]
      have : (see r m e).1 = m.1 + UInt32.ofNat (taken r [e]) := by
        cases e <;> try (simp [see, taken]; done)
        · next t r' =>
          by_cases h : r' = r
          · simp [see, taken, h]
          · simp [see, taken, h]
        · next r' f =>
          simp only [see]
          split
          · split <;> simp [taken]
          · simp [taken]
      rw [this, UInt32.ofNat_add, UInt32.add_assoc]
  exact this log (init, 0)

/-- Between two grants a link uses at most the credit it had. -/
theorem Guarded.bound {r : Ref} {init} (pre mid post : List Ev) (h : Guarded r init (pre ++ mid ++ post))
    (hm : ∀ e ∈ mid, e.grantsTo r = false) :
    taken r mid ≤ (track r init pre).2.toNat ∧
      (track r init (pre ++ mid)).2.toNat = (track r init pre).2.toNat - taken r mid := by
  induction mid generalizing pre with
  | nil => simp [taken]
  | cons e mid ih =>
    have h' : Guarded r init ((pre ++ [e]) ++ mid ++ post) := by simpa using h
    have ih := ih (pre ++ [e]) h' (fun x hx => hm x (by simp [hx]))
    have hcons : taken r (e :: mid) = taken r [e] + taken r mid := taken_append r [e] mid
    rw [hcons, show pre ++ e :: mid = (pre ++ [e]) ++ mid by simp]
    have hone : (track r init (pre ++ [e])).2.toNat + taken r [e] = (track r init pre).2.toNat := by
      rw [track_append]
      simp only [List.foldl_cons, List.foldl_nil]
      have hg := hm e (by simp)
      cases e <;> try (simp [see, taken]; done)
      · next t r' =>
        by_cases hr : r' = r
        · subst hr
          have hz := h pre t (mid ++ post) (by simp)
          simp only [see, if_true, taken, List.countP_cons, List.countP_nil, beq_self_eq_true]
          have : (track r' init pre).2.toNat ≠ 0 := fun h => hz (by apply UInt32.toNat_inj.mp; simpa using h)
          rw [UInt32.toNat_sub_of_le _ _ (by rw [UInt32.le_iff_toNat_le]; simp; omega)]
          simp; omega
        · simp [see, taken, hr]
      · next r' f =>
        simp only [Ev.grantsTo, Bool.and_eq_false_iff, beq_eq_false_iff_ne] at hg
        simp only [see]
        split
        · next hr =>
          rcases hg with hg | hg
          · exact (hg hr).elim
          · have : f.linkCredit = none := by simpa using hg
            simp [this, taken]
        · simp [taken]
    omega

end Amqp.Rt
