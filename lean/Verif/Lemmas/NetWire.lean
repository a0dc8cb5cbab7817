import Verif.Lemmas.ConnectionLog
import Verif.Lemmas.Pair
import Verif.Lemmas.SessionEnding
import Verif.Spec.Net
/-!
# What a connection puts on the wire
-/

namespace Amqp.Rt

theorem wireOf_append (ids) (a b : List CEv) : wireOf ids (a ++ b) = wireOf ids a ++ wireOf ids b := List.filterMap_append

theorem wireOf_congr {ids ids' : Ref → Option UInt16} {l : List CEv} (h : ∀ s e, CEv.ses s e ∈ l → ids s = ids' s) :
    wireOf ids l = wireOf ids' l := by
  apply List.filterMap_congr
  intro e he
  cases e with
  | ses s e => cases e <;> first | rfl | (simp only [h s _ he])
  | _ => rfl

theorem wireOf_ses {ids : Ref → Option UInt16} {s : Ref} {ch : UInt16} (h : ids s = some ch) (evs : List Ev) :
    wireOf ids (evs.map (.ses s)) = (posted evs).map (ch, ·) := by
  unfold wireOf posted
  rw [List.filterMap_map, List.map_filterMap]
  apply List.filterMap_congr
  intro e _
  cases e <;> first | rfl | simp [h]

theorem wireOf_silent {ids : Ref → Option UInt16} {l : List CEv} (h : ∀ e ∈ l, (∀ ch f, e ≠ .frame ch f) ∧ ∀ s f, e ≠ .ses s f) :
    wireOf ids l = [] := by
  apply List.filterMap_eq_nil_iff.2
  intro e he
  obtain ⟨h1, h2⟩ := h e he
  cases e <;> first | rfl | exact absurd rfl (h1 _ _) | exact absurd rfl (h2 _ _)

namespace Conn

/-- Events of sessions are events of sessions that exist. -/
def Refs (c : Conn) : Prop := ∀ s e, CEv.ses s e ∈ c.log → s < c.objs.length

theorem wire_grow {c d : Conn} (hr : c.Refs) (hid : ∀ s, s < c.objs.length → d.chanOf s = c.chanOf s) {l : List CEv}
    (hl : d.log = c.log ++ l) : d.wire = c.wire ++ wireOf d.chanOf l := by
  unfold wire
  rw [hl, wireOf_append, wireOf_congr (ids' := c.chanOf)]
  intro s e he
  exact hid s (hr s e he)

theorem chanOf_set {c d : Conn} {s : Ref} {x : Session} {st : Step} (hx : c.obj? s = some x)
    (ho : d.objs = c.objs.set s (x.step st)) (t : Ref) : d.chanOf t = c.chanOf t := by
  unfold chanOf
  rw [obj?_set hx ho]
  split
  · next h => subst h; rw [hx]; simp [(Session.step_fixed x st).1]
  · rfl

theorem chanOf_append {c d : Conn} {y : Session} (h : d.objs = c.objs ++ [y]) (s : Ref) (hs : s < c.objs.length) :
    d.chanOf s = c.chanOf s := by
  unfold chanOf
  rw [obj?_append h, if_neg (Nat.ne_of_lt hs)]

/-- A small change keeps references sound and what is on the wire. -/
theorem _root_.Amqp.Rt.CMicro.wire {c d : Conn} (m : CMicro c d) (h : c.Refs) : d.Refs ∧ c.wire <+: d.wire := by
  have same : ∀ {d : Conn} (l : List CEv), d.objs = c.objs → d.log = c.log ++ l → (∀ s e, CEv.ses s e ∉ l) →
      d.Refs ∧ c.wire <+: d.wire := by
    intro d l ho hl hn
    constructor
    · intro s e he
      rw [hl] at he
      rw [ho]
      rcases List.mem_append.1 he with he | he
      · exact h s e he
      · exact absurd he (hn s e)
    · rw [wire_grow h (fun s _ => by unfold chanOf obj?; rw [ho]) hl]
      exact List.prefix_append _ _
  cases m
  case note e he => exact same [e] rfl rfl (by intro s e' h'; cases List.mem_singleton.1 h'; exact he)
  case calls l hl => exact same l rfl rfl (by intro s e' h'; obtain ⟨_, _, h⟩ := hl _ h'; cases h)
  case session s x st hx =>
    obtain ⟨evs, _, h1, _, _, _, _, _, _, h8, _, _⟩ := onSession_eq st hx
    constructor
    · intro t e he
      rw [h8] at he
      rw [h1, List.length_set]
      rcases List.mem_append.1 he with he | he
      · exact h t e he
      · obtain ⟨_, _, he⟩ := List.mem_map.1 he
        cases he
        exact obj?_lt hx
    · rw [wire_grow h (fun t _ => chanOf_set hx h1 t) h8]
      exact List.prefix_append _ _
  case register ch b =>
    have hl : (c.registerRemote ch b).log = c.log ++ [.begun ch c.objs.length,
        .frame (UInt16.ofNat c.sessions.vacantKey) (beginFrame (some ch) b.incomingWindow none none none)] := by
      simp [registerRemote, post, note]
    constructor
    · intro s e he
      rw [hl] at he
      show s < (c.objs ++ [_]).length
      rw [List.length_append]
      simp at he
      exact Nat.lt_succ_of_lt (h s e he)
    · rw [wire_grow h (fun s hs => chanOf_append rfl s hs) hl]
      exact List.prefix_append _ _
  case complete tok op ch b hg =>
    obtain ⟨ho, hl⟩ : (c.completeLocal tok ch b).objs = c.objs ++ [Session.new tok true c.maxFrameSize ch b] ∧
        (c.completeLocal tok ch b).log = c.log ++ [.begun ch c.objs.length, .opened op c.objs.length] := by
      unfold completeLocal; rw [hg]; exact ⟨rfl, by simp [note]⟩
    constructor
    · intro s e he
      rw [hl] at he
      rw [ho, List.length_append]
      simp at he
      exact Nat.lt_succ_of_lt (h s e he)
    · rw [wire_grow h (fun s hs => chanOf_append ho s hs) hl]
      exact List.prefix_append _ _
  case unregister ch =>
    refine same [] ?_ ?_ (by simp) <;> (unfold unregister; split <;> simp)
  case clear => exact same [] rfl (by simp) (by simp)
  case setErr => exact same [] rfl (by simp) (by simp)
  case newOp => exact same [] rfl (by simp) (by simp)
  case opening => exact same [_] rfl rfl (by simp)
  case poll => exact same _ rfl rfl (by simp)
  case state => exact same [] rfl (by simp) (by simp)

theorem Reachable.refs {c : Conn} (h : Reachable c) : c.Refs :=
  h.invariant (P := Refs) (fun _ => by intro s e he; simp [Conn.new] at he) (fun _ _ m h => (m.wire h).1)

theorem step_wire {c : Conn} (h : Reachable c) (st : CStep) : c.wire <+: (c.step st).wire := by
  have := (step_micros c st).invariant (P := fun d => d.Refs ∧ c.wire <+: d.wire)
    (fun a b m hm => ⟨(m.wire hm.1).1, hm.2.trans (m.wire hm.1).2⟩) ⟨h.refs, List.prefix_rfl⟩
  exact this.2

theorem step_noError {c : Conn} (h : Reachable c) (st : CStep) (he : (c.step st).error = none) : c.error = none := by
  cases step_shape h.reg st with
  | quiet l h _ _ => rw [← h.2.2.2]; exact he
  | session _ _ _ _ _ _ _ _ he' => rw [← he']; exact he
  | ended => assumption
  | begun _ _ _ _ _ _ _ _ _ _ he' => rw [← he']; exact he
  | opening _ _ _ _ _ he' => rw [← he']; exact he
  | failed e _ _ _ he' => rw [he'] at he; cases he

end Conn

/-! ## What is said on a channel -/

/-- The frames on a channel, but for those that concern the connection as a whole. -/
def _root_.Amqp.Frame.speaks : Frame → Bool
  | .close _ | .empty => false
  | _ => true

def onChan (ch : UInt16) (w : List (UInt16 × Frame)) : List Frame :=
  w.filterMap fun p => if p.1 = ch ∧ p.2.speaks = true then some p.2 else none

theorem onChan_append (ch a b) : onChan ch (a ++ b) = onChan ch a ++ onChan ch b := List.filterMap_append

theorem onChan_prefix {ch : UInt16} {a b : List (UInt16 × Frame)} (h : a <+: b) : onChan ch a <+: onChan ch b := by
  obtain ⟨c, rfl⟩ := h
  rw [onChan_append]; exact List.prefix_append _ _

theorem onChan_map (ch ch' : UInt16) (fs : List Frame) (h : ∀ f ∈ fs, f.speaks = true) :
    onChan ch (fs.map (ch', ·)) = if ch' = ch then fs else [] := by
  induction fs with
  | nil => split <;> rfl
  | cons f fs ih =>
    have ih := ih fun g hg => h g (by simp [hg])
    have hf := h f (by simp)
    rw [List.map_cons]
    unfold onChan at ih ⊢
    rw [List.filterMap_cons]
    by_cases he : ch' = ch <;> simp only [he, hf, if_true, if_false, true_and, false_and] at ih ⊢ <;> rw [ih]

theorem onChan_one (ch ch' : UInt16) (f : Frame) : onChan ch [(ch', f)] = if ch' = ch ∧ f.speaks = true then [f] else [] := by
  unfold onChan; by_cases h : ch' = ch ∧ f.speaks = true <;> simp [h]

/-- One frame more. -/
theorem onChan_next {ch ch' : UInt16} {w : List (UInt16 × Frame)} {n : Nat} {f : Frame} (h : w[n]? = some (ch', f)) :
    onChan ch (w.take (n + 1)) = onChan ch (w.take n) ++ if ch' = ch ∧ f.speaks = true then [f] else [] := by
  rw [List.take_add_one, h, Option.toList_some, onChan_append, onChan_one]

theorem onChan_take (ch : UInt16) (w : List (UInt16 × Frame)) (n : Nat) : onChan ch (w.take n) <+: onChan ch w :=
  onChan_prefix (List.take_prefix _ _)

theorem take_prefix_eq {α} {a b : List α} (h : a <+: b) {n : Nat} (hn : n ≤ a.length) : b.take n = a.take n := by
  obtain ⟨c, rfl⟩ := h
  rw [List.take_append_of_le_length hn]

theorem chan_inj {a b : Nat} (ha : a < 65536) (hb : b < 65536) (h : UInt16.ofNat a = UInt16.ofNat b) : a = b := by
  have := congrArg UInt16.toNat h
  rwa [UInt16.toNat_ofNat_of_lt' ha, UInt16.toNat_ofNat_of_lt' hb] at this

end Amqp.Rt
