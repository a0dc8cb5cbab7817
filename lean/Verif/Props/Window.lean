import Verif.Lemmas.PairWindow
import Verif.Lemmas.SessionBlocked
import Verif.Props.Blocked
import Verif.Props.Pair
import Verif.Model.Connection
/-!
# The window between two endpoints of the library: C80
-/

namespace Amqp.Rt
open Session Examples

/-- **C80** The `Begin` frames of the library, asked for or in answer, are those `FromLibrary` speaks of. -/
theorem c80_begins (remote : Option UInt16) (window : UInt32) (off des : Option (Multiple Symbol))
    (props : Option (HMap Symbol Variant)) : ∃ b, Conn.beginFrame remote window off des props = .begin_ b ∧
      b.nextOutgoingId = 1 ∧ b.incomingWindow = 0xffffffff := ⟨_, rfl, rfl, rfl⟩

theorem window_of_run {a b : Session} {sa sb : List Step} (ha : Session.FromLibrary a) (hb : Session.FromLibrary b)
    (hab : arrived (b.run sb).log <+: (posted (a.run sa).log).map Frame.asReceived)
    (hba : arrived (a.run sa).log <+: (posted (b.run sb).log).map Frame.asReceived) :
    ∃ d, StatedCount (a.run sa).log d ∧ d ≤ begun (a.run sa).log ∧
      (a.run sa).remoteIncomingWindow = 0xffffffff - UInt32.ofNat (begun (a.run sa).log - d) := by
  obtain ⟨d, hd, hw⟩ := trackWindow_stated (S := StatedCount (a.run sa).log) (.inl rfl) (a.run sa).log
    (windowed_states ha hb hab hba)
  have hle : d ≤ begun (a.run sa).log := by
    rcases hd with rfl | ⟨pre, f, post, h, rfl⟩
    · exact Nat.zero_le _
    · rw [h, begun_append]; exact Nat.le_add_right _ _
  refine ⟨d, hd, hle, ?_⟩
  obtain ⟨id, l, mfs, ch, ba, rfl, hna, hwa⟩ := ha
  have hi := (winInv_run id l mfs ch ba sa).1
  rw [hwa] at hi
  rw [trackWindow_next] at hw
  rw [hi] at hw
  dsimp only at hw
  rw [hw]
  have : UInt32.ofNat (begun ((Session.new id l mfs ch ba).run sa).log) =
      UInt32.ofNat (begun ((Session.new id l mfs ch ba).run sa).log - d) + UInt32.ofNat d := by
    rw [← UInt32.ofNat_add, Nat.sub_add_cancel hle]
  rw [this]
  grind

/-- **C80** Two sessions of the library, in every execution and in both directions: the window a session has for its
deliveries is 2³²-1 less the deliveries it made after some flow frame of its own (or since the beginning).  What arrives at
the other end does not open it; only flow frames from the sending end do. -/
theorem c80_window {σ₀ : Pair} (hf : σ₀.FromLibrary) (steps : List PStep) {σ : Pair} (hσ : σ = σ₀.run steps) :
    (∃ d, StatedCount σ.left.log d ∧ d ≤ begun σ.left.log ∧
      σ.left.remoteIncomingWindow = 0xffffffff - UInt32.ofNat (begun σ.left.log - d)) ∧
    ∃ d, StatedCount σ.right.log d ∧ d ≤ begun σ.right.log ∧
      σ.right.remoteIncomingWindow = 0xffffffff - UInt32.ofNat (begun σ.right.log - d) := by
  subst hσ
  obtain ⟨h₁, h₂⟩ := c62_frames_in_order hf.fresh steps
  obtain ⟨sa, ha⟩ := σ₀.run_left steps
  obtain ⟨sb, hb⟩ := σ₀.run_right steps
  rw [ha, hb] at h₁ h₂ ⊢
  exact ⟨window_of_run hf.left hf.right h₁ h₂, window_of_run hf.right hf.left h₂ h₁⟩

theorem oneWay_prefix {log : List Ev} (hg : WinGuarded 0xffffffff log)
    (h : ∀ g : Flow, .windowed g ∈ log → g.nextIncomingId.getD 0 + g.incomingWindow = 0) (pre : List Ev) (hp : pre <+: log) :
    (trackWindow 0xffffffff pre).2.toNat + begun pre = 2 ^ 32 - 1 := by
  induction pre using List.reverseRecOn with
  | nil => rfl
  | append_singleton pre e ih =>
    have hp' : pre <+: log := (List.prefix_append pre [e]).trans hp
    have ih := ih hp'
    have hn := trackWindow_next 0xffffffff pre
    rw [trackWindow_append, begun_append]
    simp only [List.foldl_cons, List.foldl_nil]
    cases e
    case begun t r id =>
      obtain ⟨post, hpost⟩ := hp
      have hz := hg pre t r id post (by rw [← hpost]; simp)
      have h0 : (trackWindow 0xffffffff pre).2.toNat ≠ 0 := fun h => hz (by apply UInt32.toNat_inj.mp; simpa using h)
      simp only [seeWindow, begun, List.countP_cons, List.countP_nil] at *
      rw [UInt32.toNat_sub_of_le _ _ (by rw [UInt32.le_iff_toNat_le]; simp; omega)]
      simp; omega
    case windowed g =>
      have hg' := h g (hp.subset (by simp))
      simp only [seeWindow]
      rw [hg', hn]
      have : begun [Ev.windowed g] = 0 := rfl
      rw [this, UInt32.toNat_sub, UInt32.toNat_add, UInt32.toNat_ofNat']
      have h1 : (1 : UInt32).toNat = 1 := rfl
      have h2 : (0 : UInt32).toNat = 0 := rfl
      rw [h1, h2]
      omega
    all_goals exact ih

/-- Every state of a session whose end has posted no flow frame, connected to another one. -/
theorem oneWay_states {σ₀ : Pair} (hf : σ₀.FromLibrary) (steps : List PStep)
    (hn : ∀ f, .frame (.flow f) ∉ (σ₀.run steps).left.log) :
    ∃ id l mfs ch b sa, (σ₀.run steps).left = (Session.new id l mfs ch b).run sa ∧ b.incomingWindow = 0xffffffff ∧
      ∀ pre, pre <+: (σ₀.run steps).left.log → (trackWindow 0xffffffff pre).2.toNat + begun pre = 2 ^ 32 - 1 := by
  obtain ⟨h₁, h₂⟩ := c62_frames_in_order hf.fresh steps
  obtain ⟨sa, ha⟩ := σ₀.run_left steps
  obtain ⟨sb, hb⟩ := σ₀.run_right steps
  rw [ha, hb] at h₁ h₂
  rw [ha] at hn ⊢
  have hs := windowed_states hf.left hf.right h₁ h₂
  obtain ⟨id, l, mfs, ch, b, hl, hnb, hwb⟩ := hf.left
  rw [hl] at hs hn ⊢
  have hg := (winInv_run id l mfs ch b sa).2
  rw [hwb] at hg
  refine ⟨id, l, mfs, ch, b, sa, rfl, hwb, fun pre hp => oneWay_prefix hg (fun g hm => ?_) pre hp⟩
  obtain ⟨d, hd, h⟩ := hs g hm
  rcases hd with rfl | ⟨pre, f, post, h', _⟩
  · rw [h]; rfl
  · exact (hn f (by rw [h']; simp)).elim

/-- **C80** As long as the sending end has posted no flow frame of its own (its application has granted no credit: messages
go one way), the deliveries it has made and the window it has left add up to 2³²-1. -/
theorem c80_one_way {σ₀ : Pair} (hf : σ₀.FromLibrary) (steps : List PStep) {σ : Pair} (hσ : σ = σ₀.run steps)
    (hn : ∀ f, .frame (.flow f) ∉ σ.left.log) : σ.left.remoteIncomingWindow.toNat + begun σ.left.log = 2 ^ 32 - 1 := by
  subst hσ
  obtain ⟨id, l, mfs, ch, b, sa, hl, hwb, h⟩ := oneWay_states hf steps hn
  have hw := h _ (List.prefix_refl _)
  have hi := (winInv_run id l mfs ch b sa).1
  rw [hwb, ← hl] at hi
  rw [hi] at hw
  exact hw

/-- **C80** Before that many deliveries, no send waits for the window. -/
theorem c80_no_waiting {σ₀ : Pair} (hf : σ₀.FromLibrary) (steps : List PStep) {σ : Pair} (hσ : σ = σ₀.run steps)
    (hn : ∀ f, .frame (.flow f) ∉ σ.left.log) (hb : begun σ.left.log < 2 ^ 32 - 1) (t : Ref) (req : SendReq) (tag : Bytes) :
    σ.left.sends[t]? ≠ some ⟨req, .window tag none⟩ := by
  subst hσ
  obtain ⟨id, l, mfs, ch, b, sa, hl, hwb, h⟩ := oneWay_states hf steps hn
  have hu := usedUp_run id l mfs ch b sa
  rw [← hl, hwb] at hu
  refine none_on_window (hf.fresh.sound.run steps).left ?_ t req tag
  by_contra hp
  obtain ⟨pre, hpre, hz⟩ := hu hp
  have := h pre hpre
  rw [hz] at this
  obtain ⟨post, hpost⟩ := hpre
  rw [← hpost, begun_append] at hb
  simp at this
  omega

/-! ## 2³²-1 deliveries -/

/-- Sender link 0 can make `n` deliveries. -/
structure Ready (s : Session) (n : Nat) : Prop where
  link : ∃ l, s.snd? 0 = some l ∧ l.linkCredit.toNat = n ∧ l.pending = [] ∧ l.error = none ∧ l.closed = false ∧
    l.maxMessageSize = none
  window : s.remoteIncomingWindow.toNat = n

theorem Ready.send {s : Session} {n : Nat} (h : Ready s (n + 1)) (b : UInt8) :
    Ready (s.step (.send (aSend 0 [b] true))) n ∧ begun (s.step (.send (aSend 0 [b] true))).log = begun s.log + 1 ∧
      (s.step (.send (aSend 0 [b] true))).error = s.error ∧
      ∀ f, .frame (.flow f) ∈ (s.step (.send (aSend 0 [b] true))).log → .frame (.flow f) ∈ s.log := by
  obtain ⟨⟨l, hl, hc, hp, he, hcl, hm⟩, hw⟩ := h
  have hc0 : l.linkCredit ≠ 0 := by intro h; rw [h] at hc; simp at hc
  have hw0 : s.remoteIncomingWindow ≠ 0 := by intro h; rw [h] at hw; simp at hw
  generalize hs₁ : ({ s with sends := s.sends ++ [(⟨aSend 0 [b] true, .credit [1] (some (.ok ()))⟩ : SendTask)] } : Session) = s₁
  have hl₁ : s₁.snd? 0 = some l := by rw [← hs₁]; exact hl
  have hl₂ : (s₁.takeCredit s.sends.length 0).snd? 0 =
      some { l with linkCredit := l.linkCredit - 1, deliveryCount := l.deliveryCount + 1 } := by
    rw [takeCredit_snd?, if_pos rfl, hl₁]; rfl
  have hw₂ : (s₁.takeCredit s.sends.length 0).remoteIncomingWindow = s.remoteIncomingWindow := by rw [← hs₁]; rfl
  have he₂ : (s₁.takeCredit s.sends.length 0).error = s.error := by rw [← hs₁]; rfl
  have hstep : s.step (.send (aSend 0 [b] true)) =
      (s₁.takeCredit s.sends.length 0).emit s.sends.length (aSend 0 [b] true) (UInt32.ofNat l.id) [1] := by
    have h₁ : s.step (.send (aSend 0 [b] true)) = s₁.creditLoop s.sends.length (aSend 0 [b] true) [1] := by
      rw [← hs₁]
      show sendStart s (aSend 0 [b] true) = _
      unfold sendStart
      rw [show (aSend 0 [b] true).link = 0 from rfl, hl]
      dsimp only
      rw [he]
      dsimp only
      rw [if_neg (by rw [hcl]; decide), hm]
      rfl
    rw [h₁]
    unfold creditLoop
    rw [show (aSend 0 [b] true).link = 0 from rfl, hl₁]
    dsimp only
    rw [if_neg (by simp [hc0, hp])]
    unfold windowLoop
    rw [show (aSend 0 [b] true).link = 0 from rfl]
    rw [hl₂]
    dsimp only
    rw [if_neg (by rw [hw₂]; exact hw0)]
  have hlog : (s.step (.send (aSend 0 [b] true))).log = s.log ++ [.took s.sends.length 0] ++
      .begun s.sends.length 0 (s₁.takeCredit s.sends.length 0).nextOutgoingId ::
        (transferFrames (s₁.takeCredit s.sends.length 0).maxFrameSize (UInt32.ofNat l.id)
          (s₁.takeCredit s.sends.length 0).nextOutgoingId [1] (aSend 0 [b] true).body true none).map .frame := by
    rw [hstep, emit_log, takeCredit_log]
    rw [← hs₁]
    rfl
  obtain ⟨ts, hts⟩ := transferFrames_transfers (s₁.takeCredit s.sends.length 0).maxFrameSize (UInt32.ofNat l.id)
    (s₁.takeCredit s.sends.length 0).nextOutgoingId [1] (aSend 0 [b] true).body true none
  refine ⟨⟨⟨{ l with linkCredit := l.linkCredit - 1, deliveryCount := l.deliveryCount + 1 }, ?_, ?_, hp, he, hcl, hm⟩, ?_⟩, ?_, ?_, ?_⟩
  · rw [hstep]
    unfold snd?
    rw [emit_snds]
    exact hl₂
  · show (l.linkCredit - 1).toNat = n
    rw [UInt32.toNat_sub_of_le _ _ (by rw [UInt32.le_iff_toNat_le]; simp; omega)]
    simp; omega
  · rw [hstep, emit_remoteIncomingWindow, hw₂]
    rw [UInt32.toNat_sub_of_le _ _ (by rw [UInt32.le_iff_toNat_le]; simp; omega)]
    simp; omega
  · rw [hlog, hts]
    have : begun ((ts.map Frame.transfer).map Ev.frame) = 0 := by
      unfold begun
      rw [List.countP_eq_zero]
      intro e he
      obtain ⟨f, _, rfl⟩ := List.mem_map.mp he
      simp
    rw [begun_append, begun_append, ← List.singleton_append (x := Ev.begun _ _ _), begun_append, this]
    rfl
  · rw [hstep, emit_error, he₂]
  · intro f hf
    rw [hlog, hts] at hf
    simp at hf
    exact hf

theorem Ready.sends {s : Session} {n : Nat} (h : Ready s n) (b : UInt8) :
    begun (s.run (List.replicate n (.send (aSend 0 [b] true)))).log = begun s.log + n ∧
    (s.run (List.replicate n (.send (aSend 0 [b] true)))).error = s.error ∧
      ∀ f, .frame (.flow f) ∈ (s.run (List.replicate n (.send (aSend 0 [b] true)))).log → .frame (.flow f) ∈ s.log := by
  induction n generalizing s with
  | zero => exact ⟨rfl, rfl, fun f hf => hf⟩
  | succ n ih =>
    obtain ⟨h₁, h₂, h₃, h₄⟩ := h.send b
    obtain ⟨i₁, i₂, i₃⟩ := ih h₁
    rw [List.replicate_succ]
    refine ⟨?_, ?_, fun f hf => h₄ f (i₃ f hf)⟩
    · show begun ((s.step _).run _).log = _
      rw [i₁, h₂]; omega
    · show ((s.step _).run _).error = _
      rw [i₂, h₃]

/-- Two sessions of the library. -/
def libPair : Pair := { left := start 0xffffffff, right := start 0xffffffff, toRight := 0, toLeft := 0 }

theorem libPair_begun : libPair.FromLibrary :=
  ⟨⟨0, true, 65535, 0, aBegin 0xffffffff, rfl, rfl, rfl⟩, ⟨0, true, 65535, 0, aBegin 0xffffffff, rfl, rfl, rfl⟩, rfl, rfl⟩

/-- The right end attaches a receiver, gives it all the credit there is, and the left end sends until it is used up. -/
def exhaust : List PStep := joinOne ++ given 0xffffffff ++ List.replicate (2 ^ 32 - 1) (sendOne 1)

theorem run_sends (σ : Pair) (n : Nat) (b : UInt8) :
    (σ.run (List.replicate n (sendOne b))).left = σ.left.run (List.replicate n (.send (aSend 0 [b] true))) := by
  induction n generalizing σ with
  | zero => rfl
  | succ n ih =>
    rw [List.replicate_succ, List.replicate_succ]
    show ((σ.step (sendOne b)).run _).left = (σ.left.step _).run _
    rw [ih]
    rfl

theorem exhausted : (libPair.run exhaust).left.error = none ∧ begun (libPair.run exhaust).left.log = 2 ^ 32 - 1 ∧
    ∀ f, .frame (.flow f) ∉ (libPair.run exhaust).left.log := by
  have hr : Ready (libPair.run (joinOne ++ given 0xffffffff)).left (2 ^ 32 - 1) :=
    ⟨⟨_, rfl, rfl, rfl, rfl, rfl, rfl⟩, rfl⟩
  have h := hr.sends 1
  have he : (libPair.run exhaust).left =
      (libPair.run (joinOne ++ given 0xffffffff)).left.run (List.replicate (2 ^ 32 - 1) (.send (aSend 0 [1] true))) := by
    rw [← run_sends]
    unfold exhaust
    rw [show libPair.run (joinOne ++ given 0xffffffff ++ List.replicate (2 ^ 32 - 1) (sendOne 1)) =
      (libPair.run (joinOne ++ given 0xffffffff)).run (List.replicate (2 ^ 32 - 1) (sendOne 1)) from by
        unfold Pair.run; rw [List.foldl_append]]
  rw [he]
  refine ⟨h.2.1.trans rfl, ?_, fun f hf => ?_⟩
  · rw [h.1]
    have : begun (libPair.run (joinOne ++ given 0xffffffff)).left.log = 0 := rfl
    rw [this, Nat.zero_add]
  · have := h.2.2 f hf
    have hm : .flow f ∈ posted (libPair.run (joinOne ++ given 0xffffffff)).left.log := List.mem_filterMap.mpr ⟨_, this, rfl⟩
    have hq : (posted (libPair.run (joinOne ++ given 0xffffffff)).left.log).all
        (fun f => match f with | .flow _ => false | _ => true) = true := by decide +kernel
    exact absurd (List.all_eq_true.mp hq _ hm) Bool.false_ne_true

/-- **C80** Violated: a session in which messages go one way stops for good after 2³²-1 deliveries.  The receiving end takes
everything in and keeps granting credit, but the next-incoming-id in its flow frames stays what it was at the beginning
(session.rs:847, 1153-1158, 1180), and the sending end computes a window of 0 from it, whatever happens later on either side. -/
theorem c80_stops : ∃ (σ₀ : Pair) (steps : List PStep), σ₀.FromLibrary ∧ (σ₀.run steps).left.error = none ∧
    begun (σ₀.run steps).left.log = 2 ^ 32 - 1 ∧ (∀ f, .frame (.flow f) ∉ (σ₀.run steps).left.log) ∧
    ∀ more, (∀ f, .frame (.flow f) ∉ (σ₀.run (steps ++ more)).left.log) →
      begun (σ₀.run (steps ++ more)).left.log = 2 ^ 32 - 1 ∧ (σ₀.run (steps ++ more)).left.remoteIncomingWindow = 0 := by
  refine ⟨libPair, exhaust, libPair_begun, exhausted.1, exhausted.2.1, exhausted.2.2, fun more hm => ?_⟩
  have h := c80_one_way libPair_begun _ rfl hm
  have hle : begun (libPair.run exhaust).left.log ≤ begun (libPair.run (exhaust ++ more)).left.log := by
    rw [show libPair.run (exhaust ++ more) = (libPair.run exhaust).run more by unfold Pair.run; rw [List.foldl_append]]
    obtain ⟨l, hl⟩ := (libPair.run exhaust).run_left more
    rw [hl]
    obtain ⟨evs, he⟩ := run_log (libPair.run exhaust).left l
    rw [he, begun_append]
    exact Nat.le_add_right _ _
  rw [exhausted.2.1] at hle
  refine ⟨by omega, UInt32.toNat_inj.mp ?_⟩
  show _ = 0
  omega

-- After three deliveries with a flow frame arriving in between, the window is three less.
example : libPair.FromLibrary ∧
    let σ := libPair.run (joinOne ++ given 5 ++ [sendOne 1, sendOne 2] ++ given 7 ++ [sendOne 3])
    begun σ.left.log = 3 ∧ σ.left.remoteIncomingWindow = 0xffffffff - 3 ∧
      (posted σ.left.log).all (fun f => match f with | .flow _ => false | _ => true) = true :=
  ⟨libPair_begun, by decide +kernel⟩

end Amqp.Rt
