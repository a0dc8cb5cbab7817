import Verif.Spec.Window
import Verif.Lemmas.SessionWindow
import Verif.Lemmas.Pair
import Verif.Props.Flows
import Mathlib.Data.List.Induction
/-!
# The window between two sessions
-/

namespace Amqp.Rt
open Session

theorem mem_windows {s : Session} {e : Ev} (h : e.windowing = true) : e ∈ s.log ↔ e ∈ s.windows := by
  simp [windows, List.mem_filter, h]

/-- Only flow frames that have arrived set the window. -/
theorem Session.Reachable.windowed_arrived {s : Session} (h : Reachable s) : ∀ f, .windowed f ∈ s.log → .peer (.flow f) ∈ s.log := by
  obtain ⟨s₀, steps, hf, rfl⟩ := h
  induction steps using List.reverseRecOn with
  | nil =>
    obtain ⟨id, l, mfs, ch, b, rfl⟩ := hf
    intro f hm; simp [Session.new, run] at hm
  | append_singleton steps st ih =>
    have hr : Reachable (s₀.run steps) := ⟨s₀, steps, hf, rfl⟩
    rw [show s₀.run (steps ++ [st]) = (s₀.run steps).step st by simp [run]]
    generalize s₀.run steps = s at ih hr
    obtain ⟨evs, hl⟩ := run_log s [st]
    have hl : (s.step st).log = s.log ++ evs := hl
    have keep : ∀ e, e ∈ s.log → e ∈ (s.step st).log := fun e he => by rw [hl]; simp [he]
    intro f hm
    rw [mem_windows rfl] at hm
    have old : .windowed f ∈ s.windows → .peer (.flow f) ∈ (s.step st).log :=
      fun h => keep _ (ih f ((mem_windows rfl).mpr h))
    rcases step_windows s st with h | ⟨g, h, _⟩ | ⟨g, es, h, hes, hno, hw⟩
    · rw [h] at hm; exact old hm
    · rw [h] at hm; simp at hm; exact old hm
    · rw [h] at hm
      rcases List.mem_append.mp hm with hm | hm
      · exact old hm
      · rcases List.mem_cons.mp hm with hm | hm
        · cases hm
          rcases hw with rfl | ⟨r, hr'⟩
          · have : .flow f ∈ arrived (s.step (.peer (.flow f))).log := by rw [arrived_step]; simp
            obtain ⟨e, he, h⟩ := List.mem_filterMap.mp this
            cases e <;> simp at h
            subst h; exact he
          · exact keep _ ((c54_only_peer s hr).2.2.1 r f hr')
        · exact (hno f hm).elim

/-- Without requests for an echo, every flow frame has a next-incoming-id. -/
theorem Session.Reachable.incoming_stated {s : Session} (h : Reachable s)
    (he : ∀ f, .peer (.flow f) ∈ s.log → f.echo = false) : ∀ f : Flow, .frame (.flow f) ∈ s.log → f.nextIncomingId.isSome := by
  obtain ⟨s₀, steps, hf, rfl⟩ := h
  induction steps using List.reverseRecOn with
  | nil =>
    obtain ⟨id, l, mfs, ch, b, rfl⟩ := hf
    intro f hm; simp [Session.new, run] at hm
  | append_singleton steps st ih =>
    have hr : Reachable (s₀.run steps) := ⟨s₀, steps, hf, rfl⟩
    have hr' : Reachable (s₀.run (steps ++ [st])) := ⟨s₀, _, hf, rfl⟩
    rw [show s₀.run (steps ++ [st]) = (s₀.run steps).step st by simp [run]] at *
    generalize s₀.run steps = s at ih hr hr' he
    obtain ⟨evs, hl⟩ := run_log s [st]
    have hl : (s.step st).log = s.log ++ evs := hl
    have keep : ∀ e, e ∈ s.log → e ∈ (s.step st).log := fun e he => by rw [hl]; simp [he]
    have ih := ih (fun f hf => he f (keep _ hf))
    intro f hm
    rw [mem_windows rfl] at hm
    have old : .frame (.flow f) ∈ s.windows → f.nextIncomingId.isSome := fun h => ih f ((mem_windows rfl).mpr h)
    rcases step_windows s st with h | ⟨g, h, hg⟩ | ⟨g, es, h, hes, hno, hw⟩
    · rw [h] at hm; exact old hm
    · rw [h] at hm
      rcases List.mem_append.mp hm with hm | hm
      · exact old hm
      · simp at hm; rw [hm]; exact hg
    · have hg : .windowed g ∈ (s.step st).log := (mem_windows rfl).mpr (by rw [h]; simp)
      rw [hes (he g (hr'.windowed_arrived g hg))] at h
      rw [h] at hm
      rcases List.mem_append.mp hm with hm | hm
      · exact old hm
      · simp at hm

/-- The window, when every flow frame taken into account states a count of deliveries from `S`. -/
theorem trackWindow_stated {S : Nat → Prop} (h₀ : S 0) (log : List Ev)
    (h : ∀ g : Flow, .windowed g ∈ log → ∃ d, S d ∧ g.nextIncomingId.getD 0 + g.incomingWindow = UInt32.ofNat d) :
    ∃ d, S d ∧ (trackWindow 0xffffffff log).2 = UInt32.ofNat d - (trackWindow 0xffffffff log).1 := by
  induction log using List.reverseRecOn with
  | nil => exact ⟨0, h₀, rfl⟩
  | append_singleton log e ih =>
    obtain ⟨d, hd, hw⟩ := ih (fun g hg => h g (by simp [hg]))
    rw [trackWindow_append]
    simp only [List.foldl_cons, List.foldl_nil]
    generalize trackWindow 0xffffffff log = m at hw
    cases e
    case begun t r id => exact ⟨d, hd, by simp only [seeWindow]; rw [hw]; grind⟩
    case windowed g =>
      obtain ⟨d', hd', hw'⟩ := h g (by simp)
      exact ⟨d', hd', by simp only [seeWindow]; rw [hw']⟩
    all_goals exact ⟨d, hd, hw⟩

theorem peerStated_cases (b : UInt32) (log : List Ev) : peerStated b log = b ∨ ∃ f, .windowed f ∈ log ∧ peerStated b log = f.nextOutgoingId := by
  induction log using List.reverseRecOn with
  | nil => exact .inl rfl
  | append_singleton log e ih =>
    have : peerStated b (log ++ [e]) = (match e with | .windowed f => f.nextOutgoingId | _ => peerStated b log) := by
      simp only [peerStated, List.foldl_append, List.foldl_cons, List.foldl_nil]
      cases e <;> rfl
    rw [this]
    cases e
    case windowed f => exact .inr ⟨f, by simp, rfl⟩
    all_goals
      rcases ih with h | ⟨f, hf, h⟩
      · exact .inl h
      · exact .inr ⟨f, by simp [hf], h⟩

namespace Pair

theorem run_left (σ : Pair) (steps : List PStep) : ∃ l, (σ.run steps).left = σ.left.run l := by
  induction steps using List.reverseRecOn with
  | nil => exact ⟨[], rfl⟩
  | append_singleton steps st ih =>
    obtain ⟨l, hl⟩ := ih
    rw [show σ.run (steps ++ [st]) = (σ.run steps).step st by simp [run]]
    have : (∃ st', ((σ.run steps).step st).left = (σ.run steps).left.step st') ∨
        ((σ.run steps).step st).left = (σ.run steps).left := by
      cases st <;> unfold step <;> dsimp only <;> split <;> try exact .inr rfl
      · exact .inl ⟨_, rfl⟩
      · dsimp only
        unfold deliver
        split
        · split
          · exact .inl ⟨_, rfl⟩
          · exact .inr rfl
        · exact .inl ⟨_, rfl⟩
    rcases this with ⟨st', h⟩ | h
    · exact ⟨l ++ [st'], by rw [h, hl]; simp [Session.run]⟩
    · exact ⟨l, by rw [h, hl]⟩

theorem run_right (σ : Pair) (steps : List PStep) : ∃ l, (σ.run steps).right = σ.right.run l := by
  induction steps using List.reverseRecOn with
  | nil => exact ⟨[], rfl⟩
  | append_singleton steps st ih =>
    obtain ⟨l, hl⟩ := ih
    rw [show σ.run (steps ++ [st]) = (σ.run steps).step st by simp [run]]
    have : (∃ st', ((σ.run steps).step st).right = (σ.run steps).right.step st') ∨
        ((σ.run steps).step st).right = (σ.run steps).right := by
      cases st <;> unfold step <;> dsimp only <;> split <;> try exact .inr rfl
      · exact .inl ⟨_, rfl⟩
      · dsimp only
        unfold deliver
        split
        · split
          · exact .inl ⟨_, rfl⟩
          · exact .inr rfl
        · exact .inl ⟨_, rfl⟩
    rcases this with ⟨st', h⟩ | h
    · exact ⟨l ++ [st'], by rw [h, hl]; simp [Session.run]⟩
    · exact ⟨l, by rw [h, hl]⟩

theorem FromLibrary.fresh {σ : Pair} (h : σ.FromLibrary) : σ.Fresh := by
  obtain ⟨⟨id, l, mfs, ch, b, hl, _⟩, ⟨id', l', mfs', ch', b', hr, _⟩, h₁, h₂⟩ := h
  exact ⟨⟨id, l, mfs, ch, b, hl⟩, ⟨id', l', mfs', ch', b', hr⟩, h₁, h₂⟩

end Pair

theorem flow_of_posted {a b : Session} (h : arrived b.log <+: (posted a.log).map Frame.asReceived) {f : Flow}
    (hf : .peer (.flow f) ∈ b.log) : .frame (.flow f) ∈ a.log := by
  have h₁ : .flow f ∈ arrived b.log := List.mem_filterMap.mpr ⟨_, hf, rfl⟩
  obtain ⟨g, hg, hfg⟩ := List.mem_map.mp (h.subset h₁)
  obtain ⟨e, he, hge⟩ := List.mem_filterMap.mp hg
  cases e with
  | frame x =>
    simp at hge; subst hge
    cases x <;> simp [Frame.asReceived] at hfg
    subst hfg
    exact he
  | _ => simp at hge

/-- What sets the window of one of two sessions that are connected to each other. -/
theorem windowed_states {a b : Session} {sa sb : List Step} (ha : Session.FromLibrary a) (hb : Session.FromLibrary b)
    (hab : arrived (b.run sb).log <+: (posted (a.run sa).log).map Frame.asReceived)
    (hba : arrived (a.run sa).log <+: (posted (b.run sb).log).map Frame.asReceived) (g : Flow)
    (hg : .windowed g ∈ (a.run sa).log) :
    ∃ d, StatedCount (a.run sa).log d ∧ g.nextIncomingId.getD 0 + g.incomingWindow = UInt32.ofNat d := by
  obtain ⟨id, l, mfs, ch, ba, rfl, hna, hwa⟩ := ha
  obtain ⟨id', l', mfs', ch', bb, rfl, hnb, hwb⟩ := hb
  have hra : Reachable ((Session.new id l mfs ch ba).run sa) := ⟨_, _, ⟨_, _, _, _, _, rfl⟩, rfl⟩
  have hrb : Reachable ((Session.new id' l' mfs' ch' bb).run sb) := ⟨_, _, ⟨_, _, _, _, _, rfl⟩, rfl⟩
  have fa := flowInv_run id l mfs ch ba sa
  have fb := flowInv_run id' l' mfs' ch' bb sb
  generalize (Session.new id l mfs ch ba).run sa = a at *
  generalize (Session.new id' l' mfs' ch' bb).run sb = b at *
  have hpost := flow_of_posted hba (hra.windowed_arrived g hg)
  have hnoecho : ∀ f, .peer (.flow f) ∈ b.log → f.echo = false := by
    intro f hf
    obtain ⟨pre, post, h⟩ := List.append_of_mem (flow_of_posted hab hf)
    exact (fa.told pre f post h).noEcho
  have hsome := hrb.incoming_stated hnoecho g hpost
  obtain ⟨pre, post, h⟩ := List.append_of_mem hpost
  have ht := fb.told pre g post h
  have hi : g.nextIncomingId = some (peerStated 1 pre) := by
    rcases ht.inc with h | h
    · rw [h, hnb]
    · rw [h.1] at hsome; cases hsome
  rw [hi, ht.incWindow, Option.getD_some]
  rcases peerStated_cases 1 pre with hp | ⟨f, hf, hp⟩
  · exact ⟨0, .inl rfl, by rw [hp]; rfl⟩
  · have hfa := flow_of_posted hab (hrb.windowed_arrived f (by rw [h]; simp [hf]))
    obtain ⟨pre', post', h'⟩ := List.append_of_mem hfa
    refine ⟨begun pre', .inr ⟨pre', f, post', h', rfl⟩, ?_⟩
    rw [hp, (fa.told pre' f post' h').out]
    grind

/-- A send waits for the window only if the window has been used up at some moment. -/
def UsedUp (init : UInt32) (s : Session) : Prop :=
  s.pendingTransfers ≠ [] → ∃ pre, pre <+: s.log ∧ (trackWindow init pre).2 = 0

theorem Micro.usedUp {init : UInt32} {s s' : Session} (h : Micro s s') (hw : WinInv init s) (hu : UsedUp init s) :
    UsedUp init s' := by
  obtain ⟨evs, hl⟩ := h.log_grows
  have keep : s.pendingTransfers ≠ [] → ∃ pre, pre <+: s'.log ∧ (trackWindow init pre).2 = 0 := by
    intro hp
    obtain ⟨pre, h₁, h₂⟩ := hu hp
    exact ⟨pre, by rw [hl]; exact h₁.trans (List.prefix_append _ _), h₂⟩
  have now : s.remoteIncomingWindow = 0 → ∃ pre, pre <+: s'.log ∧ (trackWindow init pre).2 = 0 := by
    intro h₀
    exact ⟨s.log, by rw [hl]; exact List.prefix_append _ _, by rw [hw.1]; exact h₀⟩
  intro hp
  by_cases hq : s.pendingTransfers = []
  · cases h with
    | parkWindow t req tag l ht hl h hp' hw => exact now hw
    | reparkWindow t req tag l ht hl hw => exact now hw
    | drainWindow p m => exact (hp (by simp [hq])).elim
    | _ => exfalso; first | exact hp hq | (apply hp; simp [hq]; done)
  · exact keep hq

theorem usedUp_run (id isLocal mfs ch b) (steps : List Step) :
    UsedUp b.incomingWindow ((Session.new id isLocal mfs ch b).run steps) := by
  have := (run_micros (Session.new id isLocal mfs ch b) steps).invariant
    (P := fun s => WinInv b.incomingWindow s ∧ UsedUp b.incomingWindow s)
    (fun _ _ h hi => ⟨h.winInv hi.1, h.usedUp hi.1 hi.2⟩)
    ⟨⟨rfl, by intro pre t r id post h; simp [Session.new] at h⟩, fun h => (h rfl).elim⟩
  exact this.2

end Amqp.Rt
