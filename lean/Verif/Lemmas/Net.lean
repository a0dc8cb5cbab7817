import Verif.Lemmas.NetSide
/-!
# Two connections: sessions joined to each other run as pairs
-/

namespace Amqp.Rt
open Conn

/-! ## Runs of pairs -/

/-- Some run of two sessions connected to each other ends like this. -/
def Runs (x y : Session) (n m : Nat) : Prop := ∃ (π₀ : Pair) (ps : List PStep), π₀.Fresh ∧ π₀.run ps = ⟨x, y, n, m⟩

/-- A session that has not heard from its peer yet. -/
def Alone (x : Session) : Prop :=
  ∃ (x₀ : Session) (sts : List Step), x₀.Fresh ∧ (∀ st ∈ sts, st.own = true) ∧ x = x₀.run sts

namespace Pair

def swap (σ : Pair) : Pair := ⟨σ.right, σ.left, σ.toLeft, σ.toRight⟩

def _root_.Amqp.Rt.PStep.swap : PStep → PStep
  | .left st => .right st
  | .right st => .left st
  | .arriveRight => .arriveLeft
  | .arriveLeft => .arriveRight

theorem step_swap (σ : Pair) (st : PStep) : (σ.step st).swap = σ.swap.step st.swap := by
  cases st
  case left st => show (if st.own then _ else _ : Pair).swap = if st.own then _ else _; split <;> rfl
  case right st => show (if st.own then _ else _ : Pair).swap = if st.own then _ else _; split <;> rfl
  case arriveRight =>
    show (match σ.nextRight with | some f => _ | none => σ : Pair).swap = match σ.nextRight with | some f => _ | none => _
    cases σ.nextRight <;> rfl
  case arriveLeft =>
    show (match σ.nextLeft with | some f => _ | none => σ : Pair).swap = match σ.nextLeft with | some f => _ | none => _
    cases σ.nextLeft <;> rfl

theorem run_swap (σ : Pair) (ps : List PStep) : (σ.run ps).swap = σ.swap.run (ps.map PStep.swap) := by
  induction ps generalizing σ with
  | nil => rfl
  | cons p ps ih => exact (ih _).trans (by rw [step_swap]; rfl)

theorem run_append (σ : Pair) (ps qs : List PStep) : σ.run (ps ++ qs) = (σ.run ps).run qs := List.foldl_append

end Pair

theorem Runs.swap {x y : Session} {n m : Nat} (h : Runs x y n m) : Runs y x m n := by
  obtain ⟨π₀, ps, ⟨h1, h2, h3, h4⟩, hr⟩ := h
  exact ⟨π₀.swap, ps.map PStep.swap, ⟨h2, h1, h4, h3⟩, by rw [← Pair.run_swap, hr]; rfl⟩

theorem Runs.right {x y : Session} {n m : Nat} (h : Runs x y n m) (st : Step) (hst : st.own = true) : Runs x (y.step st) n m := by
  obtain ⟨π₀, ps, hf, hr⟩ := h
  refine ⟨π₀, ps ++ [.right st], hf, ?_⟩
  rw [Pair.run_append, hr]
  show (if st.own then _ else _ : Pair) = _
  rw [if_pos hst]

theorem Runs.arrive {x y : Session} {n m : Nat} (h : Runs x y n m) {f : Frame} (hf : (posted x.log)[n]? = some f)
    (he : y.ending = false) : Runs x (y.step (.peer f.asReceived)) (n + 1) m := by
  obtain ⟨π₀, ps, hfr, hr⟩ := h
  refine ⟨π₀, ps ++ [.arriveRight], hfr, ?_⟩
  rw [Pair.run_append, hr]
  show (match (posted x.log)[n]?.map Frame.asReceived with
    | some f => _
    | none => _ : Pair) = _
  rw [hf]
  show (⟨x, y.deliver f.asReceived, n + 1, m⟩ : Pair) = _
  unfold Session.deliver
  rw [he]
  rfl

theorem Alone.step {x : Session} (h : Alone x) (st : Step) (hst : st.own = true) : Alone (x.step st) := by
  obtain ⟨x₀, sts, hf, ho, rfl⟩ := h
  refine ⟨x₀, sts ++ [st], hf, ?_, ?_⟩
  · intro s hs
    rcases List.mem_append.1 hs with hs | hs
    · exact ho s hs
    · rw [List.mem_singleton.1 hs]; exact hst
  · show _ = (sts ++ [st]).foldl Session.step x₀
    rw [List.foldl_append]; rfl

theorem Alone.new {x : Session} (h : x.Fresh) : Alone x := ⟨x, [], h, by simp, rfl⟩

theorem Alone.runs {x y : Session} (h : Alone x) (hy : y.Fresh) : Runs x y 0 0 := by
  obtain ⟨x₀, sts, hf, ho, rfl⟩ := h
  refine ⟨⟨x₀, y, 0, 0⟩, sts.map .left, ⟨hf, hy, rfl, rfl⟩, ?_⟩
  clear hf
  induction sts generalizing x₀ with
  | nil => rfl
  | cons st sts ih =>
    have h1 := ho st (by simp)
    refine Eq.trans ?_ (ih (x₀.step st) fun s hs => ho s (by simp [hs]))
    show Pair.run (if st.own then _ else _ : Pair) _ = _
    rw [if_pos h1]

/-! ## What has arrived -/

/-- The connection `d` has seen the first `n` frames of `c`. -/
structure Cross (c d : Conn) (n : Nat) : Prop where
  le : n ≤ c.wire.length
  unbegun : ∀ ch, d.sessionsMap.get ch = none → onChan ch (c.wire.take n) = []
  begun : ∀ j y, d.obj? j = some y → ∃ (b : Begin) (fs : List Frame),
    onChan y.remoteChannelId (c.wire.take n) = .begin_ b :: fs ∧
      b.remoteChannel = if y.isLocal then some (UInt16.ofNat y.id) else none

theorem Cross.src {c c' d : Conn} {n : Nat} (h : Cross c d n) (hw : c.wire <+: c'.wire) : Cross c' d n := by
  have ht := take_prefix_eq hw h.le
  constructor
  · exact Nat.le_trans h.le hw.length_le
  · rw [ht]; exact h.unbegun
  · rw [ht]; exact h.begun

theorem Cross.dst {c d d' : Conn} {n : Nat} (h : Cross c d n) (hm : d'.sessionsMap = d.sessionsMap)
    (ho : ∀ j y', d'.obj? j = some y' → ∃ y, d.obj? j = some y ∧ y'.id = y.id ∧ y'.remoteChannelId = y.remoteChannelId ∧
      y'.isLocal = y.isLocal) : Cross c d' n := by
  constructor
  · exact h.le
  · rw [hm]; exact h.unbegun
  · intro j y' hy'
    obtain ⟨y, hy, e1, e2, e3⟩ := ho j y' hy'
    rw [e1, e2, e3]
    exact h.begun j y hy

theorem Cross.next {c d : Conn} {n : Nat} (h : Cross c d n) {ch : UInt16} {f : Frame} (hw : c.wire[n]? = some (ch, f))
    (hn : f.speaks = true → d.sessionsMap.get ch ≠ none) : Cross c d (n + 1) := by
  constructor
  · exact (List.getElem?_eq_some_iff.1 hw).1
  · intro ch' hc'
    rw [onChan_next hw, h.unbegun ch' hc', if_neg]
    · rfl
    · rintro ⟨rfl, hs⟩
      exact hn hs hc'
  · intro j y hy
    obtain ⟨b, fs, h1, h2⟩ := h.begun j y hy
    rw [onChan_next hw, h1]
    exact ⟨b, _, rfl, h2⟩

/-- How many frames of the session on channel `ch` have arrived. -/
def seen (c : Conn) (n : Nat) (ch : UInt16) : Nat := (onChan ch (c.wire.take n)).tail.length

structure Inv (c d : Conn) (n m : Nat) : Prop where
  left : Side c
  right : Side d
  toRight : Cross c d n
  toLeft : Cross d c m
  pair : ∀ i j x y, c.obj? i = some x → d.obj? j = some y → Joined x y →
    Runs x y (seen c n (UInt16.ofNat x.id)) (seen d m (UInt16.ofNat y.id))
  loneL : ∀ i x, c.obj? i = some x → (∀ j y, d.obj? j = some y → y.remoteChannelId ≠ UInt16.ofNat x.id) → Alone x
  loneR : ∀ j y, d.obj? j = some y → (∀ i x, c.obj? i = some x → x.remoteChannelId ≠ UInt16.ofNat y.id) → Alone y

theorem Inv.swap {c d : Conn} {n m : Nat} (h : Inv c d n m) : Inv d c m n :=
  ⟨h.right, h.left, h.toLeft, h.toRight, fun i j x y hx hy hj => (h.pair j i y x hy hx ⟨hj.2, hj.1⟩).swap, h.loneR, h.loneL⟩

theorem head_eq {a b : Begin} {fs gs : List Frame} (h : Frame.begin_ a :: fs <+: .begin_ b :: gs) : a = b := by
  have := (List.cons_prefix_cons.1 h).1
  cases this; rfl

/-- The session a session addresses addresses it. -/
theorem Inv.joined {c d : Conn} {n m : Nat} (h : Inv c d n m) {i j : Ref} {x y : Session} (hx : c.obj? i = some x)
    (hy : d.obj? j = some y) (hc : y.remoteChannelId = UInt16.ofNat x.id) : Joined x y := by
  refine ⟨?_, hc⟩
  obtain ⟨b, fs, h1, h2⟩ := h.toRight.begun j y hy
  obtain ⟨b', h3, h4⟩ := h.left.est i x hx
  obtain rfl : b = b' := by
    have := onChan_take y.remoteChannelId c.wire n
    rw [h1, hc, h4] at this
    exact head_eq this
  rw [h2] at h3
  cases hy' : y.isLocal with
  | true =>
    rw [hy', if_pos rfl] at h3
    cases hx' : x.isLocal with
    | true => rw [hx'] at h3; cases h3
    | false => rw [hx'] at h3; exact (Option.some.inj h3).symm
  | false =>
    rw [hy'] at h3
    cases hx' : x.isLocal with
    | false => rw [hx'] at h3; cases h3
    | true =>
      obtain ⟨b'', gs, g1, g2⟩ := h.toLeft.begun i x hx
      rw [hx', if_pos rfl] at g2
      have hp := onChan_take x.remoteChannelId d.wire m
      rw [g1] at hp
      have hne : onChan x.remoteChannelId d.wire ≠ [] := by
        intro he; rw [he] at hp; cases List.prefix_nil.1 hp
      rcases h.right.chan hne with ⟨_, b₁, _, k1, k2⟩ | ⟨j', y', b₁, k0, k1, k2, k3⟩
      · rw [k2] at hp
        rw [head_eq hp, k1] at g2
        cases g2
      · rw [k3] at hp
        rw [head_eq hp, k2] at g2
        cases hl : y'.isLocal with
        | true => rw [hl] at g2; cases g2
        | false =>
          rw [hl] at g2
          have hr : y'.remoteChannelId = y.remoteChannelId := by rw [hc]; exact Option.some.inj g2
          have e1 := h.right.map j y hy
          have e2 := h.right.map j' y' k0
          rw [hr, e1] at e2
          rw [Option.some.inj e2, k1, UInt16.ofNat_toNat]

/-- Notes and control frames on the right. -/
theorem Inv.quiet {c d d' : Conn} {n m : Nat} (h : Inv c d n m) (hs : Side d') (ho : d'.objs = d.objs)
    (hm : d'.sessionsMap = d.sessionsMap) (hw : d.wire <+: d'.wire) : Inv c d' n m := by
  have hobj : ∀ j, d'.obj? j = d.obj? j := fun j => by unfold obj?; rw [ho]
  constructor
  · exact h.left
  · exact hs
  · exact h.toRight.dst hm fun j y hy => ⟨y, by rw [← hobj]; exact hy, rfl, rfl, rfl⟩
  · exact h.toLeft.src hw
  · intro i j x y hx hy hj
    rw [hobj] at hy
    unfold seen
    rw [take_prefix_eq hw h.toLeft.le]
    exact h.pair i j x y hx hy hj
  · intro i x hx hn
    exact h.loneL i x hx fun j y hy => hn j y (by rw [hobj]; exact hy)
  · intro j y hy
    rw [hobj] at hy
    exact h.loneR j y hy

/-- A session on the right acts. -/
theorem Inv.session {c d : Conn} {n m : Nat} (h : Inv c d n m) {j : Ref} {y : Session} (hy : d.obj? j = some y) (st : Step)
    (hst : st.ends = false) (ho : st.own = true) (hE : ∀ ch e, (ch, Frame.end_ e) ∉ (d.onSession j st).wire) :
    Inv c (d.onSession j st) n m := by
  obtain ⟨s1, s2, s3, s4⟩ := h.right.session hy st hst hE
  have hobj := obj?_set hy s2
  obtain ⟨f1, f2, _, f4⟩ := Session.step_fixed y st
  constructor
  · exact h.left
  · exact s1
  · refine h.toRight.dst s3 fun k z hz => ?_
    rw [hobj] at hz
    split at hz
    · next hk => cases hz; exact ⟨y, by rw [hk]; exact hy, f1, f2, f4⟩
    · exact ⟨z, hz, rfl, rfl, rfl⟩
  · exact h.toLeft.src s4
  · intro i k x z hx hz hj
    rw [hobj] at hz
    unfold seen
    rw [take_prefix_eq s4 h.toLeft.le]
    split at hz
    · cases hz
      unfold Joined at hj
      rw [f1, f2] at hj
      rw [f1]
      exact (h.pair i j x y hx hy hj).right st ho
    · exact h.pair i k x z hx hz hj
  · intro i x hx hn
    refine h.loneL i x hx fun k z hz => ?_
    by_cases hk : k = j
    · subst hk
      have := hn k (y.step st) (by rw [hobj, if_pos rfl])
      rw [f2] at this
      rw [hy] at hz; cases hz
      exact this
    · exact hn k z (by rw [hobj, if_neg hk]; exact hz)
  · intro k z hz hn
    rw [hobj] at hz
    split at hz
    · cases hz
      rw [f1] at hn
      exact (h.loneR j y hy hn).step st ho
    · exact h.loneR k z hz hn

/-- The channel of the next frame. -/
theorem Inv.next_chan {c d : Conn} {n m : Nat} (h : Inv c d n m) {ch : UInt16} {f : Frame} (hw : c.wire[n]? = some (ch, f))
    (hs : f.speaks = true) : onChan ch (c.wire.take n) ++ [f] <+: onChan ch c.wire := by
  have := onChan_take ch c.wire (n + 1)
  rwa [onChan_next hw, if_pos ⟨rfl, hs⟩] at this

/-- A `Begin` comes first. -/
theorem Inv.next_begin {c d : Conn} {n m : Nat} (h : Inv c d n m) {ch : UInt16} {b : Begin}
    (hw : c.wire[n]? = some (ch, .begin_ b)) :
    onChan ch (c.wire.take n) = [] ∧ ∃ fs, onChan ch c.wire = .begin_ b :: fs := by
  have hp := h.next_chan hw rfl
  rcases h.left.stream ch with he | ⟨b', fs, he, hf⟩
  · rw [he] at hp
    have := List.prefix_nil.1 hp
    simp at this
  · rw [he] at hp ⊢
    cases ht : onChan ch (c.wire.take n) with
    | nil =>
      rw [ht] at hp
      exact ⟨rfl, fs, by rw [head_eq hp]⟩
    | cons g gs =>
      rw [ht, List.cons_append] at hp
      obtain ⟨_, hp⟩ := List.cons_prefix_cons.1 hp
      have : Frame.begin_ b ∈ fs := hp.subset (by simp)
      cases hf _ this

/-- Another frame comes after the `Begin`. -/
theorem Inv.next_frame {c d : Conn} {n m : Nat} (h : Inv c d n m) {ch : UInt16} {f : Frame} (hw : c.wire[n]? = some (ch, f))
    (hf : f.forSession = true) : ∃ i x, ∃ b : Begin, ∃ gs, c.obj? i = some x ∧ UInt16.ofNat x.id = ch ∧
      onChan ch (c.wire.take n) = .begin_ b :: gs ∧ (posted x.log)[gs.length]? = some f := by
  have hs : f.speaks = true := by cases f <;> first | rfl | cases hf
  have hp := h.next_chan hw hs
  have hne : onChan ch c.wire ≠ [] := by
    intro he; rw [he] at hp
    have := List.prefix_nil.1 hp
    simp at this
  have key : ∀ (b : Begin) (fs : List Frame), onChan ch c.wire = .begin_ b :: fs →
      ∃ b' gs, onChan ch (c.wire.take n) = .begin_ b' :: gs ∧ fs[gs.length]? = some f := by
    intro b fs he
    rw [he] at hp
    cases ht : onChan ch (c.wire.take n) with
    | nil =>
      rw [ht] at hp
      have := (List.cons_prefix_cons.1 hp).1
      subst this; cases hf
    | cons g gs =>
      rw [ht, List.cons_append] at hp
      obtain ⟨rfl, hp'⟩ := List.cons_prefix_cons.1 hp
      refine ⟨b, gs, rfl, ?_⟩
      obtain ⟨r, hr⟩ := hp'
      rw [← hr, List.append_assoc, List.getElem?_append_right (Nat.le_refl _)]
      simp
  rcases h.left.chan hne with ⟨_, b, _, _, he⟩ | ⟨i, x, b, hx, hid, _, he⟩
  · obtain ⟨_, _, _, h'⟩ := key b [] he
    simp at h'
  · obtain ⟨b', gs, h1, h2⟩ := key b _ he
    exact ⟨i, x, b', gs, hx, by rw [hid, UInt16.ofNat_toNat], h1, h2⟩

/-- Sessions of one side differ in their channels. -/
theorem Conn.Side.uniq {c : Conn} (h : Side c) {i k : Ref} {x z : Session} (hx : c.obj? i = some x) (hz : c.obj? k = some z)
    (he : UInt16.ofNat x.id = UInt16.ofNat z.id) : i = k := by
  have e := chan_inj (h.id_lt hx) (h.id_lt hz) he
  have h1 := h.obj i x hx
  have h2 := h.obj k z hz
  rw [e, h2] at h1
  cases h1; rfl

/-- A frame for a session arrives on the right. -/
theorem Inv.frame {c d : Conn} {n m : Nat} (h : Inv c d n m) {ch : UInt16} {f : Frame} (hw : c.wire[n]? = some (ch, f))
    (hf : f.forSession = true) (hne : ∀ e, f ≠ .end_ e) {j : Ref} {y : Session} (hy : d.obj? j = some y)
    (hc : y.remoteChannelId = ch)
    (hE : ∀ ch e, (ch, Frame.end_ e) ∉ (d.onSession j (.peer f.asReceived)).wire) :
    Inv c (d.onSession j (.peer f.asReceived)) (n + 1) m := by
  have hst : Step.ends (.peer f.asReceived) = false := by
    cases f <;> first | rfl | exact absurd rfl (hne _)
  have hs : f.speaks = true := by cases f <;> first | rfl | cases hf
  obtain ⟨s1, s2, s3, s4⟩ := h.right.session hy _ hst hE
  have hobj := obj?_set hy s2
  obtain ⟨f1, f2, _, f4⟩ := Session.step_fixed y (.peer f.asReceived)
  obtain ⟨i₀, x₀, b, gs, hx₀, hid₀, hon, hnth⟩ := h.next_frame hw hf
  have hj₀ : Joined x₀ y := h.joined hx₀ hy (hc.trans hid₀.symm)
  have hmap : d.sessionsMap.get ch ≠ none := by
    rw [← hc, h.right.map j y hy]; exact Option.some_ne_none _
  constructor
  · exact h.left
  · exact s1
  · refine (h.toRight.next hw fun _ => hmap).dst s3 fun k z hz => ?_
    rw [hobj] at hz
    split at hz
    · next hk => cases hz; exact ⟨y, by rw [hk]; exact hy, f1, f2, f4⟩
    · exact ⟨z, hz, rfl, rfl, rfl⟩
  · exact h.toLeft.src s4
  · intro i k x z hx hz hj
    rw [hobj] at hz
    unfold seen
    rw [take_prefix_eq s4 h.toLeft.le, onChan_next hw]
    split at hz
    · cases hz
      unfold Joined at hj
      rw [f1, f2] at hj
      rw [f1]
      have hix : UInt16.ofNat x.id = ch := hj.2.symm.trans hc
      have hi := h.left.uniq hx hx₀ (hix.trans hid₀.symm)
      rw [← hi] at hx₀
      obtain rfl : x = x₀ := Option.some.inj (hx.symm.trans hx₀)
      have hr := h.pair i j x y hx hy hj
      unfold seen at hr
      rw [hix, hon] at hr ⊢
      rw [if_pos ⟨rfl, hs⟩]
      have hr' := hr.arrive hnth (h.right.calm j y hy).1
      simpa using hr'
    · next hk =>
      rw [if_neg, List.append_nil]
      · exact h.pair i k x z hx hz hj
      · rintro ⟨he, _⟩
        have e1 := h.right.map j y hy
        have e2 := h.right.map k z hz
        rw [hj.2, ← he, ← hc, e1] at e2
        exact hk (h.right.uniq hz hy (by rw [Option.some.inj e2]))
  · intro i x hx hn
    refine h.loneL i x hx fun k z hz => ?_
    by_cases hk : k = j
    · subst hk
      have := hn k (y.step (.peer f.asReceived)) (by rw [hobj, if_pos rfl])
      rw [f2] at this
      rw [hy] at hz; cases hz
      exact this
    · exact hn k z (by rw [hobj, if_neg hk]; exact hz)
  · intro k z hz hn
    rw [hobj] at hz
    split at hz
    · cases hz
      rw [f1] at hn
      exact absurd hj₀.1 (hn i₀ x₀ hx₀)
    · exact h.loneR k z hz hn

end Amqp.Rt
