import Verif.Lemmas.SessionLive
import Verif.Props.Closing
/-!
# Frames about a link are sent while the link is attached
-/

namespace Amqp.Rt
open Session Examples

/-! ## Deciding `AttachedHere` -/

def attachedNow (h : UInt32) (log : List Ev) : Bool := log.foldl (fun b e => match e with
  | .frame (.attach a) => b || a.handle == h
  | .frame (.detach d) => b && d.handle != h
  | _ => b) false

theorem attachedHere_snoc (h : UInt32) (log : List Ev) (e : Ev) : AttachedHere h (log ++ [e]) ↔
    (∃ a : Attach, e = .frame (.attach a) ∧ a.handle = h) ∨
      AttachedHere h log ∧ ∀ d : Detach, e = .frame (.detach d) → d.handle ≠ h := by
  constructor
  · rintro ⟨l₁, a, l₂, he, ha, hd⟩
    rcases List.eq_nil_or_concat l₂ with rfl | ⟨l₂, x, rfl⟩
    · obtain ⟨_, h'⟩ := List.append_inj' he rfl
      exact .inl ⟨a, by simpa using h', ha⟩
    · have : log ++ [e] = (l₁ ++ .frame (.attach a) :: l₂) ++ [x] := by rw [he]; simp
      obtain ⟨rfl, h'⟩ := List.append_inj' this rfl
      cases h'
      exact .inr ⟨⟨l₁, a, l₂, rfl, ha, fun d hm => hd d (by simp [hm])⟩, fun d hx => hd d (by simp [hx])⟩
  · rintro (⟨a, rfl, ha⟩ | ⟨⟨l₁, a, l₂, rfl, ha, hd⟩, hn⟩)
    · exact ⟨log, a, [], rfl, ha, by simp⟩
    · refine ⟨l₁, a, l₂ ++ [e], by simp, ha, fun d hm => ?_⟩
      rcases List.mem_append.mp hm with hm | hm
      · exact hd d hm
      · exact hn d (List.mem_singleton.mp hm).symm

theorem attachedHere_iff (h : UInt32) (log : List Ev) : AttachedHere h log ↔ attachedNow h log = true := by
  induction log using List.reverseRecOn with
  | nil => simp [attachedNow, AttachedHere]
  | append_singleton log e ih =>
    rw [attachedHere_snoc, ih]
    unfold attachedNow
    rw [List.foldl_append]
    cases e <;> try (simp; done)
    next f => cases f <;> simp [or_comm]

instance (h : UInt32) (log : List Ev) : Decidable (AttachedHere h log) := decidable_of_iff' _ (attachedHere_iff h log)

/-! ## The property -/

/-- **C66** A detach is sent only for a link this side has attached and not detached yet. -/
theorem c66_detach (s₀ : Session) (hf : Fresh s₀) (steps : List Step) (hk : ∀ st ∈ steps, st.KeepsHandle)
    (hb : ∀ p, p <+: steps → (s₀.run p).Fits) (l₁ l₂ : List Ev) (d : Detach)
    (he : (s₀.run steps).log = l₁ ++ .frame (.detach d) :: l₂) : AttachedHere d.handle l₁ :=
  (run_lifeOk hf steps hk hb).1.clean.here he

/-- **C66** A link that has been established, or that this side has asked for, is attached under the number of its slot. -/
theorem c66_slot (s₀ : Session) (hf : Fresh s₀) (steps : List Step) (hk : ∀ st ∈ steps, st.KeepsHandle)
    (hb : ∀ p, p <+: steps → (s₀.run p).Fits) (k : Nat) (x : Link) (hx : (s₀.run steps).links.get k = some x)
    (hu : (∃ op, x = .snd (.opening op)) ∨ (∃ r, x = .snd (.established r)) ∨ (∃ i, x = .rcv (.openingLocal i)) ∨
      ∃ r, x = .rcv (.established r)) : AttachedHere (UInt32.ofNat k) (s₀.run steps).log := by
  refine ((run_lifeOk hf steps hk hb).1.up k x hx ?_).here
  rcases hu with ⟨_, rfl⟩ | ⟨_, rfl⟩ | ⟨_, rfl⟩ | ⟨_, rfl⟩ <;> trivial

/-- **C66** Every transfer frame goes out for a send on some link, under the handle of the link; unless the link has been closed,
the handle is attached at that time.

Missing for the full property: the link may have been closed, by either side, while the send waited for the session window; see
`c66_transfer_after_close` and `c66_transfer_after_detach`. -/
theorem c66_transfer_partial (s₀ : Session) (hf : Fresh s₀) (steps : List Step) (hk : ∀ st ∈ steps, st.KeepsHandle)
    (hb : ∀ p, p <+: steps → (s₀.run p).Fits) (st : Step) (evs : List Ev) (t : Transfer)
    (he : ((s₀.run steps).step st).log = (s₀.run steps).log ++ evs) (ht : .frame (.transfer t) ∈ evs) :
    ∃ r l, (s₀.run steps).snd? r = some l ∧ t.head.handle = UInt32.ofNat l.id ∧
      ((∃ req, st = .send req ∧ req.link = r ∧ l.closed = false) ∨
        ∃ i y, st = .resumeSend i ∧ (s₀.run steps).sends[i]? = some y ∧ y.req.link = r) ∧
      (l.closed = false → AttachedHere t.head.handle (s₀.run steps).log) := by
  have hr : (s₀.run steps).Reachable := ⟨s₀, steps, hf, rfl⟩
  have hg : ((s₀.run steps).step st).shipped = (s₀.run steps).shipped ++ sentTransfers evs := by
    unfold shipped; rw [he, sentTransfers_append]
  have ht : t ∈ sentTransfers evs := List.mem_filterMap.mpr ⟨_, ht, rfl⟩
  rcases step_transfer hr st with h | ⟨r, l, hl, ⟨ts, hts, hh⟩, hst, hlive⟩
  · rw [List.append_cancel_left ((hg.symm.trans h).trans (List.append_nil _).symm)] at ht
    cases ht
  obtain rfl := List.append_cancel_left (hg.symm.trans hts)
  have hh := hh t ht
  refine ⟨r, l, hl, hh, hst, fun hc => ?_⟩
  rw [hh]
  exact c66_slot s₀ hf steps hk hb l.id _ (hlive hc) (.inr (.inl ⟨r, rfl⟩))

/-! ## Concrete executions -/

/-- A send that has taken its credit and waits for the session window. -/
def blocked : List Step := attachOne ++ flow (aFlow (some 7) (some 0) (some 5) (some 1) 0) ++ [.send (aSend 0 [1] false)]

/-- The window opens, and the send goes on. -/
def opened : List Step := [.peer (.flow (aFlow none none none (some 1) 5)), .resumeSend 0]

/-- A frame goes out that breaks the rule: the log splits at a frame about handle `h`, and the handle was not attached. -/
def Stray (about : Frame → Option UInt32) (log : List Ev) : Prop :=
  ∃ l₁ f l₂ h, log = l₁ ++ .frame f :: l₂ ∧ about f = some h ∧ ¬ AttachedHere h l₁

def transferHandle : Frame → Option UInt32
  | .transfer t => some t.head.handle
  | _ => none

def flowHandle : Frame → Option UInt32
  | .flow f => f.handle
  | _ => none

theorem stray_last {about : Frame → Option UInt32} {log : List Ev} {f : Frame} {h : UInt32} (hl : log.getLast? = some (.frame f))
    (ha : about f = some h) (hn : attachedNow h log.dropLast = false) : Stray about log := by
  obtain ⟨l, rfl⟩ := List.getLast?_eq_some_iff.mp hl
  exact ⟨l, f, [], h, rfl, ha, by rw [attachedHere_iff]; simpa using hn⟩

/-- **C66** Violated: the application closes a link on which a send waits for the session window; when the window opens, the transfer
goes out under the handle that has been detached. -/
theorem c66_transfer_after_close : Stray transferHandle ((start 0).run (blocked ++ [.closeSender 0 none] ++ opened)).log :=
  stray_last rfl rfl rfl

/-- **C66** Violated: the same when the peer detaches the link and the session has answered. -/
theorem c66_transfer_after_detach :
    Stray transferHandle ((start 0).run (blocked ++ [.peer (.detach { handle := 7, closed := true, error := none })] ++ opened)).log :=
  stray_last rfl rfl rfl

/-- **C66** Violated: credit granted on a link that has been closed is announced under the detached handle. -/
theorem c66_flow_after_close : Stray flowHandle ((start 0).run (attachRcv ++ [.closeReceiver 0 none, .grant 0 5])).log :=
  stray_last rfl rfl rfl

/-- **C66** Violated: credit granted while the control service considers the peer's attach is announced before the link is
attached. -/
theorem c66_flow_before_attach : Stray flowHandle ((start 0).run [.peer (.attach (anAttach "x" 0 .sender)), .grant 0 5]).log :=
  stray_last rfl rfl rfl

/-- **C66** Violated: two attaches under one handle, with no detach between them: the peer withdraws the attach of a receiver before the
control service has answered, its slot goes to another link, and the late answer attaches the withdrawn link there. -/
theorem c66_attached_twice :
    ∃ l a, ((start 0).run [.peer (.attach (anAttach "x" 0 .receiver)), aDetach 0,
        .peer (.attach (anAttach "p" 6 .sender)), pass 1, pass 1, pass 0]).log = l ++ [.frame (.attach a)] ∧
      AttachedHere a.handle l := by
  have go : ∀ {log : List Ev} {a : Attach}, log.getLast? = some (.frame (.attach a)) → attachedNow a.handle log.dropLast = true →
      ∃ l a, log = l ++ [.frame (.attach a)] ∧ AttachedHere a.handle l := by
    intro log a hl hn
    obtain ⟨l, rfl⟩ := List.getLast?_eq_some_iff.mp hl
    exact ⟨l, a, rfl, by rw [attachedHere_iff]; simpa using hn⟩
  exact go rfl rfl

/-! The hypotheses of the theorems hold along a run in which a link is attached, used and closed, and the run sends a transfer
and a detach. -/

theorem fits_of_small {s : Session} (hl : s.links.slots.length < 2 ^ 32) (h : ∀ l ∈ s.snds, l.id < 2 ^ 32) : s.Fits where
  slots k x hx := by
    by_contra hk
    have : s.links.slots[k]? = none := List.getElem?_eq_none (by omega)
    rw [Slab.get, this] at hx
    cases hx
  ids r l hr := h l (List.mem_of_getElem? hr)

/-- A link is attached, carries a message and is closed. -/
def useOnce : List Step :=
  attachOne ++ flow (aFlow (some 7) (some 0) (some 5) (some 1) 10) ++ [.send (aSend 0 [1] false), .closeSender 0 none]

theorem useOnce_fits : ∀ p, p <+: useOnce → ((start 10).run p).Fits := by
  intro p hp
  obtain ⟨n, hn, rfl⟩ : ∃ n, n ≤ 6 ∧ p = useOnce.take n :=
    ⟨p.length, hp.length_le, (List.prefix_iff_eq_take.mp hp)⟩
  apply fits_of_small
  · interval_cases n <;> decide
  · intro l hl
    have : ∀ l ∈ ((start 10).run (useOnce.take n)).snds, l.id = 0 := by
      interval_cases n <;> intro l hl <;> first | (cases hl; done) | (rcases List.mem_singleton.mp hl with rfl; rfl)
    rw [this l hl]; decide

theorem useOnce_keeps : ∀ st ∈ useOnce, st.KeepsHandle := by
  intro st hst
  simp only [useOnce, attachOne, flow, pass, List.cons_append, List.nil_append, List.mem_cons, List.not_mem_nil, or_false] at hst
  rcases hst with rfl | rfl | rfl | rfl | rfl | rfl <;> first | trivial | exact fun _ => rfl

example : Fresh (start 10) := ⟨0, true, _, 0, aBegin 10, rfl⟩

theorem useOnce_detach : ∃ l₁ d l₂, ((start 10).run useOnce).log = l₁ ++ .frame (.detach d) :: l₂ :=
  ⟨((start 10).run useOnce).log.take 9, _, _, rfl⟩

/-- `c66_detach` applies to the detach of the run. -/
example : ∃ (l₁ : List Ev) (d : Detach), AttachedHere d.handle l₁ :=
  let ⟨l₁, d, l₂, he⟩ := useOnce_detach
  ⟨l₁, d, c66_detach _ ⟨0, true, _, 0, aBegin 10, rfl⟩ useOnce useOnce_keeps useOnce_fits l₁ l₂ d he⟩

/-- The send of the run posts a transfer, on a link that is attached under handle 0. -/
example : let s := (start 10).run (useOnce.take 4)
    ∃ evs t, (s.step (.send (aSend 0 [1] false))).log = s.log ++ evs ∧ .frame (.transfer t) ∈ evs ∧ t.head.handle = 0 ∧
      s.links.get 0 = some (.snd (.established 0)) :=
  ⟨_, _, rfl, List.mem_of_getElem? (i := 2) rfl, rfl, rfl⟩

end Amqp.Rt
