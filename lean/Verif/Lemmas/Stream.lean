import Verif.Lemmas.ConnectionFit
import Verif.Lemmas.Frame
import Verif.Lemmas.Io
import Verif.Lemmas.NetStep
import Verif.Lemmas.SessionSent
import Verif.Spec.Stream
/-!
# Bytes between two connections

`Reads` says where in the other side's bytes a reader is; the byte-level steps keep it, and each is a step of `Net` or none.
-/

namespace Amqp.Rt

/-! ## Reading -/

/-- `k` of the frames have been read, `got` bytes have been carried over, and the rest of these, except for the length of
the next frame if the codec has taken it already, is in the buffer. -/
structure Reads (fs : List AmqpFrame) (k got : Nat) (r : Reader) : Prop where
  few : k ≤ fs.length
  here : ∃ eaten, (r.state = .frameHeader ∧ eaten = [] ∨
      ∃ f, fs[k]? = some f ∧ eaten = f.encode.take 4 ∧ r.state = .frame (f.encode.length - 4)) ∧
    (fs.take k).flatMap AmqpFrame.encode ++ (eaten ++ r.buf) = (fs.flatMap AmqpFrame.encode).take got
  carried : got ≤ (fs.flatMap AmqpFrame.encode).length
  fine : r.failed = none

theorem Reads.new (max : Nat) : Reads [] 0 0 { max } := ⟨Nat.le_refl _, ⟨[], .inl ⟨rfl, rfl⟩, rfl⟩, Nat.le_refl _, rfl⟩

theorem Reads.grow {fs gs : List AmqpFrame} {k got : Nat} {r : Reader} (h : Reads fs k got r) (hp : fs <+: gs) :
    Reads gs k got r := by
  obtain ⟨more, rfl⟩ := hp
  obtain ⟨h1, ⟨eaten, h2, h3⟩, h4, h5⟩ := h
  refine ⟨by rw [List.length_append]; omega, ⟨eaten, ?_, ?_⟩, ?_, h5⟩
  · rcases h2 with h2 | ⟨f, hf, h2⟩
    · exact .inl h2
    · refine .inr ⟨f, ?_, h2⟩
      rw [List.getElem?_append_left (List.getElem?_eq_some_iff.1 hf).1]
      exact hf
  · rw [List.take_append_of_le_length h1, h3, List.flatMap_append, List.take_append_of_le_length h4]
  · rw [List.flatMap_append, List.length_append]; omega

theorem Reads.fill {fs : List AmqpFrame} {k got : Nat} {r : Reader} (h : Reads fs k got r) (n : Nat) :
    Reads fs k (got + (((fs.flatMap AmqpFrame.encode).drop got).take n).length)
      (r.fill (((fs.flatMap AmqpFrame.encode).drop got).take n)) := by
  obtain ⟨h1, ⟨eaten, h2, h3⟩, h4, h5⟩ := h
  refine ⟨h1, ⟨eaten, h2, ?_⟩, ?_, h5⟩
  · show _ ++ (eaten ++ (r.buf ++ _)) = _
    rw [← List.append_assoc eaten, ← List.append_assoc, h3, List.length_take, List.length_drop]
    rw [List.take_add]
    congr 1
    rw [List.take_eq_take_iff, List.length_drop]
    omega
  · rw [List.length_take, List.length_drop]; omega

/-- What the codec makes of the buffer: a part of the next frame, or the next frame. -/
theorem Reads.decode {fs : List AmqpFrame} {k got : Nat} {r : Reader} (h : Reads fs k got r)
    (hw : ∀ f ∈ fs, wf f ∧ admits r.max f.encode.length) :
    (∃ st buf, codecDecode AmqpFrame.decode r.max r.state r.buf = (.pending, st, buf) ∧
      Reads fs k got { r with state := st, buf := buf } ∧
      (got = (fs.flatMap AmqpFrame.encode).length → k = fs.length)) ∨
    ∃ f buf, fs[k]? = some f ∧ codecDecode AmqpFrame.decode r.max r.state r.buf = (.ready f.asReceived, .frameHeader, buf) ∧
      Reads fs (k + 1) got { r with state := .frameHeader, buf := buf } := by
  obtain ⟨h1, ⟨eaten, h2, h3⟩, h4, h5⟩ := h
  have hsplit : fs.flatMap AmqpFrame.encode =
      (fs.take k).flatMap AmqpFrame.encode ++ (fs.drop k).flatMap AmqpFrame.encode := by
    rw [← List.flatMap_append, List.take_append_drop]
  -- what is eaten, in the buffer and still to come
  obtain ⟨more, hmore, hlast⟩ : ∃ more, eaten ++ r.buf ++ more = (fs.drop k).flatMap AmqpFrame.encode ∧
      (got = (fs.flatMap AmqpFrame.encode).length → more = []) := by
    refine ⟨(fs.flatMap AmqpFrame.encode).drop got, ?_, fun hg => by rw [hg, List.drop_length]⟩
    apply List.append_cancel_left (as := (fs.take k).flatMap AmqpFrame.encode)
    rw [← List.append_assoc, h3, List.take_append_drop, hsplit]
  -- the next frame is read
  have next : ∀ f buf, fs[k]? = some f → f.encode ++ buf = eaten ++ r.buf →
      Reads fs (k + 1) got { r with state := .frameHeader, buf := buf } := by
    intro f buf hf hb
    have hk := (List.getElem?_eq_some_iff.1 hf).1
    refine ⟨hk, ⟨[], .inl ⟨rfl, rfl⟩, ?_⟩, h4, h5⟩
    rw [← h3, ← hb, List.take_add_one, hf, List.flatMap_append]
    simp
  have drop : ∀ f, fs[k]? = some f → (fs.drop k).flatMap AmqpFrame.encode =
      f.encode ++ (fs.drop (k + 1)).flatMap AmqpFrame.encode := by
    intro f hf
    obtain ⟨hk, rfl⟩ := List.getElem?_eq_some_iff.1 hf
    rw [List.drop_eq_getElem_cons hk, List.flatMap_cons]
  rcases h2 with ⟨hst, rfl⟩ | ⟨f, hf, rfl, hst⟩
  · rw [List.nil_append] at hmore
    rw [hst]
    by_cases h8 : r.buf.length < 8
    · left
      refine ⟨.frameHeader, r.buf, by simp only [codecDecode, if_pos h8], ⟨h1, ⟨[], .inl ⟨rfl, rfl⟩, h3⟩, h4, h5⟩, ?_⟩
      intro hg
      have := hlast hg
      subst this
      by_contra hne
      have hk : k < fs.length := by omega
      have hf : fs[k]? = some fs[k] := List.getElem?_eq_getElem hk
      have hraw := (AmqpFrame.raw (hw _ (List.mem_of_getElem? hf)).1).1
      rw [drop _ hf, List.append_nil] at hmore
      rw [hmore, List.length_append] at h8
      omega
    · have hk : k < fs.length := by
        by_contra hne
        rw [List.drop_eq_nil_of_le (by omega), List.flatMap_nil] at hmore
        have := (List.append_eq_nil_iff.1 hmore).1
        rw [this] at h8
        simp at h8
      have hf : fs[k]? = some fs[k] := List.getElem?_eq_getElem hk
      generalize fs[k] = f at hf
      obtain ⟨hwf, hadm⟩ := hw f (List.mem_of_getElem? hf)
      obtain ⟨hraw, hsz⟩ := AmqpFrame.raw hwf
      rw [drop _ hf] at hmore
      by_cases hlen : r.buf.length < f.encode.length
      · left
        have h4' : r.buf.take 4 = f.encode.take 4 := by
          have := congrArg (List.take 4) hmore
          rwa [List.take_append_of_le_length (by omega), List.take_append_of_le_length (by omega)] at this
        refine ⟨.frame (f.encode.length - 4), r.buf.drop 4, ?_, ⟨h1, ⟨f.encode.take 4, .inr ⟨f, hf, rfl, rfl⟩, ?_⟩, h4, h5⟩, ?_⟩
        · simp only [codecDecode]
          rw [if_neg h8, h4', hsz, if_neg, if_neg (by omega), if_pos hlen]
          rcases hadm with h | h <;> omega
        · rw [← h4', List.take_append_drop]; exact h3
        · intro hg
          have := hlast hg
          subst this
          have := congrArg List.length hmore
          rw [List.length_append, List.length_append] at this
          simp at this
          omega
      · right
        have hb : r.buf = f.encode ++ r.buf.drop f.encode.length := by
          have := congrArg (List.take f.encode.length) hmore
          rw [List.take_append_of_le_length (by omega), List.take_left] at this
          conv_lhs => rw [← List.take_append_drop f.encode.length r.buf, this]
        refine ⟨f, r.buf.drop f.encode.length, hf, ?_, next f _ hf hb.symm⟩
        conv_lhs => rw [hb]
        exact codecDecode_enc hraw hsz hadm (AmqpFrame.decode_encode hwf)
  · obtain ⟨hwf, hadm⟩ := hw f (List.mem_of_getElem? hf)
    obtain ⟨hraw, hsz⟩ := AmqpFrame.raw hwf
    rw [drop _ hf] at hmore
    have hmore' : r.buf ++ more = f.encode.drop 4 ++ (fs.drop (k + 1)).flatMap AmqpFrame.encode := by
      apply List.append_cancel_left (as := f.encode.take 4)
      rw [← List.append_assoc, hmore, ← List.append_assoc, List.take_append_drop]
    rw [hst]
    by_cases hlen : r.buf.length < f.encode.length - 4
    · left
      refine ⟨.frame (f.encode.length - 4), r.buf, by simp only [codecDecode, codecFrame, if_pos hlen],
        ⟨h1, ⟨_, .inr ⟨f, hf, rfl, rfl⟩, h3⟩, h4, h5⟩, ?_⟩
      intro hg
      have := hlast hg
      subst this
      have := congrArg List.length hmore'
      simp only [List.length_append, List.length_drop, List.length_nil] at this
      omega
    · right
      have ht : r.buf.take (f.encode.length - 4) = f.encode.drop 4 := by
        have := congrArg (List.take (f.encode.length - 4)) hmore'
        rwa [List.take_append_of_le_length (by omega), List.take_left' (by simp)] at this
      refine ⟨f, r.buf.drop (f.encode.length - 4), hf, ?_, next f _ hf ?_⟩
      · simp only [codecDecode, codecFrame]
        rw [if_neg hlen, ht, AmqpFrame.decode_encode hwf]
        simp
      · conv_rhs => rw [← List.take_append_drop (f.encode.length - 4) r.buf, ht, ← List.append_assoc, List.take_append_drop]

/-! ## The connections -/

namespace Conn

theorem bytes_eq (c : Conn) : c.bytes = c.out.flatMap AmqpFrame.encode := by
  have : ∀ (l : List AmqpFrame) (dst : Bytes), l.foldl (fun dst f => codecEncode AmqpFrame.encode f dst) dst =
      dst ++ l.flatMap AmqpFrame.encode := by
    intro l
    induction l with
    | nil => intro dst; simp
    | cons f l ih => intro dst; rw [List.foldl_cons, ih]; simp [codecEncode, List.append_assoc]
  exact (this c.out []).trans (List.nil_append _)

/-- The sends of a connection are kept, with what was asked of them. -/
def Keeps (c d : Conn) : Prop := d.maxFrameSize = c.maxFrameSize ∧ (d.Honest → c.Honest)

theorem honest_back {s s' : Session} (h : Micros s s') (hh : s'.Honest) : s.Honest := by
  induction h with
  | refl => exact hh
  | tail _ m ih =>
    refine ih fun x hx => ?_
    obtain ⟨t, ht⟩ := List.getElem?_of_mem hx
    obtain ⟨x', hx', he⟩ := Micro.send_kept m t x ht
    rw [← he]
    exact hh x' (List.mem_of_getElem? hx')

theorem _root_.Amqp.Rt.CMicro.keeps {c d : Conn} (m : CMicro c d) : c.Keeps d := by
  cases m
  case session s x st hx =>
    obtain ⟨evs, _, h1, _, _, _, h5, _⟩ := onSession_eq st hx
    refine ⟨h5, fun hh y hy => ?_⟩
    obtain ⟨i, hi⟩ := List.getElem?_of_mem hy
    have ho := obj?_set hx h1 i
    split at ho
    · next he =>
      subst he
      have : y = x := Option.some.inj (hi.symm.trans hx)
      subst this
      exact honest_back (Session.step_micros y st) (hh _ (obj?_mem ho))
    · exact hh y (obj?_mem (ho.trans hi))
  case register ch b => exact ⟨rfl, fun hh x hx => hh x (List.mem_append_left _ hx)⟩
  case complete tok op ch b hs =>
    unfold completeLocal
    rw [hs]
    exact ⟨rfl, fun hh x hx => hh x (List.mem_append_left _ hx)⟩
  case unregister ch => unfold unregister; split <;> exact ⟨rfl, id⟩
  all_goals exact ⟨rfl, id⟩

theorem step_keeps (c : Conn) (st : CStep) : c.Keeps (c.step st) :=
  (step_micros c st).invariant (P := c.Keeps) (fun _ _ m h => ⟨m.keeps.1.trans h.1, h.2 ∘ m.keeps.2⟩) ⟨rfl, id⟩

theorem step_out {c : Conn} (h : Reachable c) (st : CStep) : c.out <+: (c.step st).out := by
  obtain ⟨l, hl⟩ := step_wire h st
  exact ⟨l.map fun p => ⟨p.1, p.2⟩, by unfold out; rw [← hl, List.map_append]⟩

theorem Legible.back {c : Conn} (h : Reachable c) {st : CStep} {max : Nat} (hl : (c.step st).Legible max) : c.Legible max where
  honest := (step_keeps c st).2 hl.honest
  some := by rw [← (step_keeps c st).1]; exact hl.some
  short := fun f hf => hl.short f ((step_out h st).subset hf)

theorem Legible.frames {c : Conn} {max : Nat} (hl : c.Legible max) (hf : c.Fits) (ho : c.ObjsOk) :
    ∀ f ∈ c.out, wf f ∧ admits max f.encode.length := by
  intro f hm
  refine ⟨?_, hl.short f hm⟩
  obtain ⟨⟨ch, p⟩, hp, rfl⟩ := List.mem_map.1 hm
  exact (hf.all ho hl.some hl.honest hp).wf ch

end Conn

/-! ## The network -/

namespace BNet

theorem run_snoc (β : BNet) (steps : List BStep) (st : BStep) : β.run (steps ++ [st]) = (β.run steps).step st := by
  unfold run; rw [List.foldl_append]; rfl

theorem _root_.Amqp.Rt.Reader.read_cases (r : Reader) (c : Conn) :
    (r.read c).1.max = r.max ∧ ((r.read c).2 = c ∨ ∃ st, (r.read c).2 = c.step st) := by
  unfold Reader.read
  split
  · exact ⟨rfl, .inl rfl⟩
  · split
    · exact ⟨rfl, .inl rfl⟩
    · next f _ _ _ => exact ⟨rfl, .inr ⟨.recv f.channel f.performative, rfl⟩⟩
    · next e _ _ _ => exact ⟨rfl, .inr ⟨.stop (some (.codec e)), rfl⟩⟩

theorem _root_.Amqp.Rt.Reader.read_pending {r : Reader} (hr : r.failed = none) {st : DecodeState} {buf : Bytes}
    (h : codecDecode AmqpFrame.decode r.max r.state r.buf = (.pending, st, buf)) (c : Conn) :
    r.read c = ({ r with state := st, buf := buf }, c) := by
  unfold Reader.read; rw [hr]; dsimp only; rw [h]

theorem _root_.Amqp.Rt.Reader.read_ready {r : Reader} (hr : r.failed = none) {f : AmqpFrame} {st : DecodeState} {buf : Bytes}
    (h : codecDecode AmqpFrame.decode r.max r.state r.buf = (.ready f, st, buf)) (c : Conn) :
    r.read c = ({ r with state := st, buf := buf }, c.step (.recv f.channel f.performative)) := by
  unfold Reader.read; rw [hr]; dsimp only; rw [h]

theorem step_max (β : BNet) (st : BStep) :
    (β.step st).atRight.max = β.atRight.max ∧ (β.step st).atLeft.max = β.atLeft.max := by
  cases st <;> unfold step <;> dsimp only
  case left => split <;> exact ⟨rfl, rfl⟩
  case right => split <;> exact ⟨rfl, rfl⟩
  case readRight => exact ⟨(Reader.read_cases _ _).1, rfl⟩
  case readLeft => exact ⟨rfl, (Reader.read_cases _ _).1⟩
  all_goals exact ⟨rfl, rfl⟩

theorem step_conns (β : BNet) (st : BStep) :
    ((β.step st).left = β.left ∨ ∃ a, (β.step st).left = β.left.step a) ∧
    ((β.step st).right = β.right ∨ ∃ a, (β.step st).right = β.right.step a) := by
  cases st <;> unfold step <;> dsimp only
  case left => split <;> [exact ⟨.inr ⟨_, rfl⟩, .inl rfl⟩; exact ⟨.inl rfl, .inl rfl⟩]
  case right => split <;> [exact ⟨.inl rfl, .inr ⟨_, rfl⟩⟩; exact ⟨.inl rfl, .inl rfl⟩]
  case readRight => exact ⟨.inl rfl, (Reader.read_cases _ _).2⟩
  case readLeft => exact ⟨(Reader.read_cases _ _).2, .inl rfl⟩
  all_goals exact ⟨.inl rfl, .inl rfl⟩

theorem reachable_step {c d : Conn} (h : Conn.Reachable c) (hd : d = c ∨ ∃ a, d = c.step a) : Conn.Reachable d := by
  rcases hd with rfl | ⟨a, rfl⟩
  · exact h
  · obtain ⟨cfg, steps, rfl⟩ := h
    exact ⟨cfg, steps ++ [a], by simp [Conn.run]⟩

theorem Fresh.reachable {β₀ : BNet} (hf : β₀.Fresh) (steps : List BStep) :
    Conn.Reachable (β₀.run steps).left ∧ Conn.Reachable (β₀.run steps).right := by
  induction steps using List.reverseRecOn with
  | nil => obtain ⟨cfg, cfg', _, _, rfl⟩ := hf; exact ⟨⟨cfg, [], rfl⟩, ⟨cfg', [], rfl⟩⟩
  | append_singleton l st ih =>
    rw [run_snoc]
    exact ⟨reachable_step ih.1 (step_conns _ st).1, reachable_step ih.2 (step_conns _ st).2⟩

theorem Legible.back {β : BNet} (hl : Conn.Reachable β.left) (hr : Conn.Reachable β.right) {st : BStep}
    (h : (β.step st).Legible) : β.Legible := by
  unfold Legible at h
  rw [(step_max β st).1, (step_max β st).2] at h
  have key : ∀ {c d : Conn} {m : Nat}, Conn.Reachable c → (d = c ∨ ∃ a, d = c.step a) → d.Legible m → c.Legible m := by
    intro c d m hc hd h
    rcases hd with rfl | ⟨a, rfl⟩
    · exact h
    · exact h.back hc
  exact ⟨key hl (step_conns β st).1 h.1, key hr (step_conns β st).2 h.2⟩

/-- The two connections are those of a network of frames, and the readers are where that is. -/
structure Tracks (β : BNet) (σ : Net) : Prop where
  left : σ.left = β.left
  right : σ.right = β.right
  toRight : Reads β.left.out σ.toRight β.toRight β.atRight
  toLeft : Reads β.right.out σ.toLeft β.toLeft β.atLeft

theorem out_get {c : Conn} {k : Nat} {f : AmqpFrame} (h : c.out[k]? = some f) : c.wire[k]? = some (f.channel, f.performative) := by
  unfold Conn.out at h
  rw [List.getElem?_map] at h
  cases hw : c.wire[k]? with
  | none => rw [hw] at h; cases h
  | some p => rw [hw] at h; cases h; rfl

theorem arrive_right {σ : Net} {ch : UInt16} {f : Frame} (h : σ.left.wire[σ.toRight]? = some (ch, f)) :
    σ.step .arriveRight = { σ with right := σ.right.step (.recv ch f.asReceived), toRight := σ.toRight + 1 } := by
  unfold Net.step; dsimp only; rw [h]

theorem arrive_left {σ : Net} {ch : UInt16} {f : Frame} (h : σ.right.wire[σ.toLeft]? = some (ch, f)) :
    σ.step .arriveLeft = { σ with left := σ.left.step (.recv ch f.asReceived), toLeft := σ.toLeft + 1 } := by
  unfold Net.step; dsimp only; rw [h]

theorem Tracks.step {β : BNet} {σ₀ : Net} (hf : σ₀.Fresh) {ns : List NStep} (hn : ∀ st ∈ ns, st.Fit)
    (h : β.Tracks (σ₀.run ns)) (hl : β.Legible) {st : BStep} (hst : st.Fit) :
    ∃ ns, (∀ st ∈ ns, NStep.Fit st) ∧ (β.step st).Tracks (σ₀.run ns) := by
  obtain ⟨kl, kr⟩ := (hf.inv ns).1
  obtain ⟨fl, fr⟩ := Net.run_fits hf ns hn
  rw [h.left] at kl fl
  rw [h.right] at kr fr
  have wl := hl.1.frames fl kl.objsOk
  have wr := hl.2.frames fr kr.objsOk
  have snoc : ∀ {a : NStep}, a.Fit → ∀ st ∈ ns ++ [a], NStep.Fit st := by
    intro a ha st hm
    rcases List.mem_append.1 hm with hm | hm
    · exact hn st hm
    · cases List.mem_singleton.1 hm; exact ha
  cases st <;> unfold BNet.step <;> dsimp only
  case left st =>
    by_cases ho : st.own = true
    · refine ⟨ns ++ [.left st], snoc (a := .left st) hst, ?_⟩
      rw [if_pos ho, Net.run_snoc, Net.step, if_pos ho]
      exact ⟨by rw [h.left], h.right, h.toRight.grow (Conn.step_out kl st), h.toLeft⟩
    · rw [if_neg ho]; exact ⟨ns, hn, h⟩
  case right st =>
    by_cases ho : st.own = true
    · refine ⟨ns ++ [.right st], snoc (a := .right st) hst, ?_⟩
      rw [if_pos ho, Net.run_snoc, Net.step, if_pos ho]
      exact ⟨h.left, by rw [h.right], h.toRight, h.toLeft.grow (Conn.step_out kr st)⟩
    · rw [if_neg ho]; exact ⟨ns, hn, h⟩
  case carryRight n =>
    refine ⟨ns, hn, h.left, h.right, ?_, h.toLeft⟩
    rw [Conn.bytes_eq]
    exact h.toRight.fill n
  case carryLeft n =>
    refine ⟨ns, hn, h.left, h.right, h.toRight, ?_⟩
    rw [Conn.bytes_eq]
    exact h.toLeft.fill n
  case readRight =>
    rcases h.toRight.decode wl with ⟨st, buf, hd, hr, _⟩ | ⟨f, buf, hg, hd, hr⟩
    · refine ⟨ns, hn, ?_⟩
      rw [Reader.read_pending h.toRight.fine hd]
      exact ⟨h.left, h.right, hr, h.toLeft⟩
    · refine ⟨ns ++ [.arriveRight], snoc (a := .arriveRight) True.intro, ?_⟩
      rw [Reader.read_ready h.toRight.fine hd, Net.run_snoc, arrive_right (by rw [h.left]; exact out_get hg)]
      exact ⟨h.left, by rw [h.right]; rfl, hr, h.toLeft.grow (Conn.step_out kr _)⟩
  case readLeft =>
    rcases h.toLeft.decode wr with ⟨st, buf, hd, hr, _⟩ | ⟨f, buf, hg, hd, hr⟩
    · refine ⟨ns, hn, ?_⟩
      rw [Reader.read_pending h.toLeft.fine hd]
      exact ⟨h.left, h.right, h.toRight, hr⟩
    · refine ⟨ns ++ [.arriveLeft], snoc (a := .arriveLeft) True.intro, ?_⟩
      rw [Reader.read_ready h.toLeft.fine hd, Net.run_snoc, arrive_left (by rw [h.right]; exact out_get hg)]
      exact ⟨by rw [h.left]; rfl, h.right, h.toRight.grow (Conn.step_out kl _), hr⟩

theorem Fresh.frames {β₀ : BNet} (hf : β₀.Fresh) : β₀.frames.Fresh := by
  obtain ⟨cfg, cfg', _, _, rfl⟩ := hf
  exact ⟨cfg, cfg', rfl⟩

theorem Fresh.tracks {β₀ : BNet} (hf : β₀.Fresh) (steps : List BStep) (h : ∀ st ∈ steps, st.Fit)
    (hl : (β₀.run steps).Legible) : ∃ ns, (∀ st ∈ ns, NStep.Fit st) ∧ (β₀.run steps).Tracks (β₀.frames.run ns) := by
  induction steps using List.reverseRecOn with
  | nil =>
    refine ⟨[], by simp, ?_⟩
    obtain ⟨cfg, cfg', max, max', rfl⟩ := hf
    exact ⟨rfl, rfl, Reads.new max, Reads.new max'⟩
  | append_singleton l st ih =>
    rw [run_snoc] at hl ⊢
    have hb := hl.back (hf.reachable l).1 (hf.reachable l).2
    obtain ⟨ns, hn, ht⟩ := ih (fun a ha => h a (List.mem_append_left _ ha)) hb
    exact ht.step hf.frames hn hb (h st (by simp))

end BNet
end Amqp.Rt
