import Verif.Lemmas.SessionBlocked
import Verif.Spec.Examples
/-! Sends that have to wait: C26, C48. -/

namespace Amqp.Rt
open Session Examples

/-! ## C26 -/

/-- **C26** A send that waits for credit is queued at its link, one that waits for the window is queued at the session. -/
theorem c26_blocked_is_queued (s : Session) (hs : Reachable s) (t : Ref) (req : SendReq) (tag : Bytes) :
    (s.sends[t]? = some ⟨req, .credit tag none⟩ → ∃ l, s.snd? req.link = some l ∧ t ∈ l.pending) ∧
    (s.sends[t]? = some ⟨req, .window tag none⟩ →
      ∃ l, s.snd? req.link = some l ∧ (t, UInt32.ofNat l.id) ∈ s.pendingTransfers) :=
  ⟨fun h => hs.creditQueued t _ tag h rfl, fun h => hs.windowQueued t _ tag h rfl⟩

/-- Where a send can be: queued; woken, and about to look again; told of a failure or failed, because the session failed or
the peer detached a link; refused at once, because the link is closed or the message too large; gone out; or given up by
the application. -/
def Accounted (s : Session) (t : Ref) (req : SendReq) : SendState → Prop
  | .credit _ none => ∃ l, s.snd? req.link = some l ∧ t ∈ l.pending
  | .window _ none => ∃ l, s.snd? req.link = some l ∧ (t, UInt32.ofNat l.id) ∈ s.pendingTransfers
  | .credit _ (some (.ok ())) | .window _ (some (.ok ())) => True
  | .credit _ (some (.error e)) | .window _ (some (.error e)) =>
    s.error.isSome ∨ ∃ f : Detach, .peer (.detach f) ∈ s.log ∧ e = .linkDetached f.error
  | .done (.error e) => e = .disconnected ∨ e = .bodyTooLarge ∨ s.error.isSome ∨
    ∃ f : Detach, .peer (.detach f) ∈ s.log ∧ e = .linkDetached f.error
  | .done (.ok _) => ∃ id, .begun t req.link id ∈ s.log
  | .cancelled => True

/-- **C26** Every send ever made is accounted for; none is lost. -/
theorem c26_every_send_accounted (s : Session) (hs : Reachable s) (t : Ref) (req : SendReq) (st : SendState)
    (h : s.sends[t]? = some ⟨req, st⟩) : Accounted s t req st := by
  match st, h with
  | .credit tag none, h => exact hs.creditQueued t _ tag h rfl
  | .window tag none, h => exact hs.windowQueued t _ tag h rfl
  | .credit _ (some (.ok ())), _ => trivial
  | .window _ (some (.ok ())), _ => trivial
  | .credit _ (some (.error e)), h =>
    rcases hs.sendsFailed.2 t _ e h rfl with h | ⟨h, _⟩
    · exact h
    · simp at h
  | .window _ (some (.error e)), h =>
    rcases hs.sendsFailed.2 t _ e h rfl with h | ⟨h, _⟩
    · exact h
    · simp at h
  | .done (.error e), h =>
    rcases hs.sendsFailed.2 t _ e h rfl with h | ⟨_, h | h⟩
    · exact .inr (.inr h)
    · exact .inl h
    · exact .inr (.inl h)
  | .done (.ok d), h => exact hs.doneBegun t _ d h rfl
  | .cancelled, _ => trivial

theorem reachable_step {s : Session} (h : Reachable s) (a : Step) : Reachable (s.step a) := by
  obtain ⟨s₀, pre, hf, rfl⟩ := h
  exact ⟨s₀, pre ++ [a], hf, by simp [run]⟩

theorem none_on_window {s : Session} (hs : Reachable s) (h : s.pendingTransfers = []) (t : Ref) (req : SendReq) (tag : Bytes) :
    s.sends[t]? ≠ some ⟨req, .window tag none⟩ := by
  intro hx
  obtain ⟨l, _, hm⟩ := hs.windowQueued t _ tag hx rfl
  rw [h] at hm; simp at hm

theorem none_on_credit {s : Session} (hs : Reachable s) {r : Ref} (h : ∀ l, s.snd? r = some l → l.pending = [])
    (t : Ref) (req : SendReq) (tag : Bytes) (hr : req.link = r) : s.sends[t]? ≠ some ⟨req, .credit tag none⟩ := by
  intro hx
  obtain ⟨l, hl, hm⟩ := hs.creditQueued t _ tag hx rfl
  rw [h l (by rw [← hr]; exact hl)] at hm; simp at hm

theorem handleFlow_pendingTransfers (s : Session) (f : Flow) (l : Option Ref) : (s.handleFlow f l).pendingTransfers = [] := by
  unfold handleFlow
  dsimp only
  split <;> split <;> simp [drainPending]

/-- **C26** A flow frame that is not for a sender link wakes every send that waits for the window. -/
theorem c26_flow_wakes_window (s : Session) (hs : Reachable s) (he : s.error = none) (f : Flow)
    (hf : ∀ r, (f.handle.bind s.remoteHandles.get).bind s.links.get ≠ some (.snd (.established r)))
    (t : Ref) (req : SendReq) (tag : Bytes) :
    (s.step (.peer (.flow f))).sends[t]? ≠ some ⟨req, .window tag none⟩ := by
  refine none_on_window (reachable_step hs _) ?_ t req tag
  have : s.step (.peer (.flow f)) = (s.note (.peer (.flow f))).handleFlow f none := by
    show finishFrame ((s.note _).handleFrame (.flow f)) = _
    unfold handleFrame
    rw [if_neg (by simp [note, he])]
    dsimp only
    split
    · next r h => exact absurd h (hf r)
    · rfl
  rw [this]
  exact handleFlow_pendingTransfers _ _ _

/-- **C26** A flow frame for a sender link, once the control service lets it pass, wakes every send that waits for the
window and, if it carries credit, every send that waits for credit on that link. -/
theorem c26_flow_wakes_link (s : Session) (hs : Reachable s) (i : Nat) (edit : Attach → Attach) (r : Ref) (f : Flow)
    (hi : s.todo[i]? = some (.ctl (.flow r f))) (t : Ref) (req : SendReq) (tag : Bytes) :
    (s.step (.complete i edit none)).sends[t]? ≠ some ⟨req, .window tag none⟩ ∧
    (f.linkCredit.isSome → req.link = r → (s.step (.complete i edit none)).sends[t]? ≠ some ⟨req, .credit tag none⟩) := by
  have hr := reachable_step hs (.complete i edit none)
  have hstep : s.step (.complete i edit none) = { s.handleFlow f (some r) with todo := (s.handleFlow f (some r)).todo.eraseIdx i } := by
    simp only [step, hi, onComplete]
  refine ⟨none_on_window hr ?_ t req tag, fun hc => none_on_credit hr (fun l hl => ?_) t req tag⟩
  · rw [hstep]; exact handleFlow_pendingTransfers _ _ _
  · rw [hstep] at hl
    have hl : (s.handleFlow f (some r)).snd? r = some l := hl
    unfold handleFlow at hl
    dsimp only at hl
    rw [applyFlow_snd?, if_pos rfl] at hl
    obtain ⟨l', _, rfl⟩ := Option.map_eq_some_iff.mp hl
    obtain ⟨c, hc⟩ := Option.isSome_iff_exists.mp hc
    simp [Snd.flow, hc]

/-- **C26** When the peer detaches a sender link, every send that waits for credit on it is told. -/
theorem c26_detach_releases (s : Session) (hs : Reachable s) (he : s.error = none) (f : Detach) (idx : Nat) (r : Ref)
    (hidx : s.remoteHandles.get f.handle = some idx) (hl : s.links.get idx = some (.snd (.established r)))
    (t : Ref) (req : SendReq) (tag : Bytes) (hr : req.link = r) :
    (s.step (.peer (.detach f))).sends[t]? ≠ some ⟨req, .credit tag none⟩ := by
  refine none_on_credit (reachable_step hs _) (fun l hl' => ?_) t req tag hr
  have hpre : (s.step (.peer (.detach f))).snd? r = ((s.note (.peer (.detach f))).handleDetach f).1.snd? r := by
    simp only [step, onPeer, handleFrame, note, he, Option.isSome_none, Bool.false_eq_true, if_false, finishFrame]
    unfold enqueue
    split <;> rfl
  rw [hpre] at hl'
  unfold handleDetach at hl'
  simp only [note, hidx, hl] at hl'
  cases hs' : s.snd? r with
  | none =>
    have : ({ s with log := s.log ++ [.peer (.detach f)] } : Session).snd? r = none := hs'
    simp only [this] at hl'
    simp at hl'
  | some l₀ =>
    have : ({ s with log := s.log ++ [.peer (.detach f)] } : Session).snd? r = some l₀ := hs'
    simp only [this] at hl'
    rw [modSnd_snd?, if_pos rfl] at hl'
    obtain ⟨l₁, hl₁, rfl⟩ := Option.map_eq_some_iff.mp hl'
    have hl₁ : (sndRemoteDetached _ r _).snd? r = some l₁ := hl₁
    rw [sndRemoteDetached_snd?, if_pos rfl] at hl₁
    obtain ⟨l₂, _, rfl⟩ := Option.map_eq_some_iff.mp hl₁
    rfl

theorem failLink_snd?_pending (e : PErr) (s : Session) (x : Link) (r : Ref)
    (h : x = .snd (.established r) ∨ ∀ l, s.snd? r = some l → l.pending = []) :
    ∀ l, (failLink e s x).snd? r = some l → l.pending = [] := by
  intro l hl
  unfold failLink at hl
  split at hl
  · next r' =>
    rw [sndRemoteDetached_snd?] at hl
    split at hl
    · obtain ⟨y, _, rfl⟩ := Option.map_eq_some_iff.mp hl; rfl
    · next hne =>
      rcases h with h | h
      · simp only [Link.snd.injEq, SndState.established.injEq] at h; exact absurd h hne
      · exact h l hl
  · exact (h.resolve_left (by simp)) l hl
  · exact (h.resolve_left (by simp)) l hl
  · next h₁ _ _ => exact (h.resolve_left (fun h' => h₁ r h')) l hl

theorem clearLink_snd?_pending (s : Session) (x : Link) (r : Ref) (h : ∀ l, s.snd? r = some l → l.pending = []) :
    ∀ l, (clearLink s x).snd? r = some l → l.pending = [] := by
  intro l hl
  unfold clearLink at hl
  split at hl
  · exact h l hl
  · unfold dropLink at hl
    split at hl
    · rw [modSnd_snd?] at hl
      split at hl
      · obtain ⟨y, hy, rfl⟩ := Option.map_eq_some_iff.mp hl
        exact h y hy
      · exact h l hl
    all_goals exact h l hl

theorem Slab.mem_values {α : Type} {m : Slab α} {k : Nat} {a : α} (h : m.get k = some a) : a ∈ m.values := by
  have := List.mem_of_getElem? (Slab.get_eq_some.mp h)
  simp only [Slab.values, List.mem_filterMap]
  exact ⟨_, this, rfl⟩

theorem setError_pending (s : Session) (e : PErr) (r : Ref) (h : s.Sends r) (l : Snd) (hl : (s.setError e).snd? r = some l) :
    l.pending = [] := by
  have clear : ∀ (xs : List Link) (s : Session), (∀ l, s.snd? r = some l → l.pending = []) →
      ∀ l, (xs.foldl clearLink s).snd? r = some l → l.pending = [] := by
    intro xs
    induction xs with
    | nil => intro s h; exact h
    | cons x xs ih => intro s h; exact ih _ (clearLink_snd?_pending s x r h)
  have fail : ∀ (xs : List Link) (s : Session),
      (.snd (.established r) ∈ xs ∨ ∀ l, s.snd? r = some l → l.pending = []) →
      ∀ l, (xs.foldl (failLink e) s).snd? r = some l → l.pending = [] := by
    intro xs
    induction xs with
    | nil => intro s h; exact h.resolve_left (by simp)
    | cons x xs ih =>
      intro s h
      refine ih _ ?_
      rcases h with h | h
      · rcases List.mem_cons.mp h with h | h
        · exact .inr (failLink_snd?_pending e s x r (.inl h.symm))
        · exact .inl h
      · exact .inr (failLink_snd?_pending e s x r (.inr h))
  obtain ⟨k, hk⟩ := h
  unfold setError clearLinks at hl
  refine clear _ _ (fun l hl => ?_) l hl
  have hl : (failLinks _ e).snd? r = some l := hl
  unfold failLinks at hl
  refine fail _ _ (.inl (Slab.mem_values (k := k) ?_)) l hl
  simpa [drainPending] using hk

/-- **C26** The failure of the session or the connection releases every send that waits for the window, and every send that
waits for credit on a link the session still has.

Missing for the full property: links being closed by this side are not among those; see `c26_close_strands_senders`. -/
theorem c26_failure_releases_partial (s : Session) (hs : Reachable s) (e : PErr) (t : Ref) (req : SendReq) (tag : Bytes) :
    (s.step (.fail e)).sends[t]? ≠ some ⟨req, .window tag none⟩ ∧
    ((∃ k, s.links.get k = some (.snd (.established req.link))) →
      (s.step (.fail e)).sends[t]? ≠ some ⟨req, .credit tag none⟩) := by
  have hr := reachable_step hs (.fail e)
  refine ⟨none_on_window hr ?_ t req tag, fun hk => none_on_credit hr (r := req.link) (fun l hl => ?_) t req tag rfl⟩
  · show (s.setError e).pendingTransfers = []
    unfold setError clearLinks failLinks
    refine (foldl_field Session.pendingTransfers ?_ _ _).trans ((foldl_field Session.pendingTransfers ?_ _ _).trans ?_)
    · intro s x; unfold clearLink dropLink; (repeat' split) <;> simp
    · intro s x; unfold failLink; split <;> simp
    · simp [drainPending]
  · exact setError_pending s e req.link hk l hl

/-- **C26** A woken send looks again: with no credit, or others before it, it is back in the queue and nothing was sent. -/
theorem c26_rechecks_credit (s : Session) (t : Ref) (req : SendReq) (tag : Bytes) (l : Snd)
    (ht : s.sends[t]? = some ⟨req, .credit tag (some (.ok ()))⟩) (hl : s.snd? req.link = some l)
    (h : l.linkCredit = 0 ∨ l.pending ≠ []) :
    (s.step (.resumeSend t)).log = s.log ∧ (s.step (.resumeSend t)).sends[t]? = some ⟨req, .credit tag none⟩ ∧
      (s.step (.resumeSend t)).snd? req.link = some { l with pending := l.pending ++ [t] } := by
  have : s.step (.resumeSend t) = (s.modSend t fun x => { x with st := .credit tag none }).modSnd req.link fun l =>
      { l with pending := l.pending ++ [t] } := by
    simp only [step, sendResume, ht, creditLoop, hl, if_pos h]
  rw [this]
  refine ⟨rfl, ?_, ?_⟩
  · rw [modSnd_sends, modSend_get, if_pos rfl, ht]; rfl
  · rw [modSnd_snd?, if_pos rfl]
    show (s.snd? req.link).map _ = _
    rw [hl]; rfl

/-- **C26** With the window closed, it is back in the session's queue and nothing was sent. -/
theorem c26_rechecks_window (s : Session) (t : Ref) (req : SendReq) (tag : Bytes) (l : Snd)
    (ht : s.sends[t]? = some ⟨req, .window tag (some (.ok ()))⟩) (hl : s.snd? req.link = some l)
    (h : s.remoteIncomingWindow = 0) :
    (s.step (.resumeSend t)).log = s.log ∧ (s.step (.resumeSend t)).sends[t]? = some ⟨req, .window tag none⟩ ∧
      (s.step (.resumeSend t)).pendingTransfers = s.pendingTransfers ++ [(t, UInt32.ofNat l.id)] := by
  have : s.step (.resumeSend t) = { s.modSend t fun x => { x with st := .window tag none } with
      pendingTransfers := s.pendingTransfers ++ [(t, UInt32.ofNat l.id)] } := by
    simp only [step, sendResume, ht, windowLoop, hl, if_pos h]
  rw [this]
  refine ⟨rfl, ?_, rfl⟩
  exact (modSend_get _ _ _ _).trans (by rw [if_pos rfl, ht]; rfl)

/-- A send waits for credit, another (on a second link, with credit) for the window. -/
def blockedDemo : Session := (start 0).run (attachOne ++ [.attachSender (anAttach "b" 0 .sender),
  .peer (.attach (anAttach "b" 8 .receiver))] ++ flow (aFlow (some 8) (some 0) (some 5) (some 1) 0) ++
  [.send (aSend 0 [1] false), .send (aSend 1 [2] false)])

example : blockedDemo.sends.map (·.st) = [.credit [1] none, .window [1] none] := rfl
example : (blockedDemo.run (flow (aFlow (some 7) (some 0) (some 1) (some 1) 5))).sends.map (·.st) =
    [.credit [1] (some (.ok ())), .window [1] (some (.ok ()))] := rfl
example : (blockedDemo.run [.peer (.detach { handle := 7, closed := true, error := none })]).sends.map (·.st) =
    [.credit [1] (some (.error (.linkDetached none))), .window [1] none] := rfl
example : (blockedDemo.run [.fail .disconnected]).sends.map (·.st) =
    [.credit [1] (some (.error .disconnected)), .window [1] (some (.error .disconnected))] := rfl

/-- The application closes a link on which a send waits for credit; the peer confirms; the connection fails. -/
def strandedDemo : Session := (start 10).run (attachOne ++ [.send (aSend 0 [1] false), .closeSender 0 none,
  .peer (.detach { handle := 7, closed := true, error := none }), .fail .disconnected])

/-- **C26** is violated when a link is closed by this side: sends waiting for credit on it are neither woken nor failed, by
anything that happens later; their futures never complete. -/
theorem c26_close_strands_senders : ∃ s : Session, Reachable s ∧ ∃ (t : Ref) (x : SendTask) (tag : Bytes),
    s.sends[t]? = some x ∧ x.st = .credit tag none ∧
    ∀ steps, ∃ x' : SendTask, (s.run steps).sends[t]? = some x' ∧ ((∃ tag, x'.st = .credit tag none) ∨ x'.st = .cancelled) := by
  refine ⟨strandedDemo, reachable _ _ _, 0, _, [1], rfl, rfl, fun steps => ?_⟩
  have h : Stranded strandedDemo 0 0 := by
    refine ⟨⟨_, rfl, rfl, .inl ⟨_, rfl⟩⟩, ?_, ?_, ?_, by decide, ?_, ?_⟩
    · rintro ⟨k, hk⟩
      have : strandedDemo.links = .empty := rfl
      rw [this, Slab.get_empty] at hk; simp at hk
    · intro f hf; have : strandedDemo.todo = [] := rfl
      rw [this] at hf; simp at hf
    · intro a g hf; have : strandedDemo.todo = [] := rfl
      rw [this] at hf; simp at hf
    · intro r' l hl _
      have h' := snd?_lt hl
      have : strandedDemo.snds.length = 1 := rfl
      exact Nat.lt_one_iff.mp (this ▸ h')
    · intro p hp; have : strandedDemo.pendingTransfers = [] := rfl
      rw [this] at hp; simp at hp
  obtain ⟨x, hx, _, hst⟩ := (h.run steps).live
  exact ⟨x, hx, hst⟩

/-- **C26** is violated when the peer detaches a link some of whose sends wait for the window: they are looked for under
the peer's handle but queued under our own, so they are not failed; once the window opens they send on the detached link. -/
theorem c26_detach_misses_window : ∃ s : Session, Reachable s ∧ (s.snd? 0).map Snd.error = some (some (.linkDetached none)) ∧
    s.sends.map (·.st) = [.window [1] none] ∧
    (s.run [.peer (.flow (aFlow none none none (some 1) 5)), .resumeSend 0]).log.getLast?.map
      (fun e => e matches .frame (.transfer _)) = some true :=
  ⟨(start 0).run (attachOne ++ flow (aFlow (some 7) (some 0) (some 5) (some 1) 0) ++ [.send (aSend 0 [1] false),
    .peer (.detach { handle := 7, closed := true, error := none })]), reachable _ _ _, rfl, rfl, by decide⟩

/-! ## C48 -/

/-- **C48** A new send does not overtake the sends queued for credit on its link: it queues behind them.

Missing for the full property: sends that have been woken but not polled yet are not in the queue; see
`c48_new_send_overtakes`. -/
theorem c48_queues_behind_partial (s : Session) (req : SendReq) (l : Snd) (hl : s.snd? req.link = some l) (he : l.error = none)
    (hc : l.closed = false) (hm : l.maxMessageSize = none) (hp : l.pending ≠ []) :
    (s.step (.send req)).log = s.log ∧
      ((s.step (.send req)).snd? req.link).map Snd.pending = some (l.pending ++ [s.sends.length]) := by
  have h₀ : s.step (.send req) = sendStart.go req s s.sends.length l := by
    simp only [step, sendStart, hl, he, hc, hm, Bool.false_eq_true, if_false]
  rw [h₀]
  unfold sendStart.go
  cases ht : req.tag with
  | some tag =>
    dsimp only
    unfold creditLoop
    have : ({ s with sends := s.sends ++ [(⟨req, .credit tag (some (.ok ()))⟩ : SendTask)] } : Session).snd? req.link = some l := hl
    rw [this]
    dsimp only
    rw [if_pos (.inr hp)]
    refine ⟨rfl, ?_⟩
    rw [modSnd_snd?, if_pos rfl]
    show Option.map _ ((s.snd? req.link).map _) = _
    rw [hl]; rfl
  | none =>
    dsimp only
    unfold creditLoop
    have : (({ s with sends := s.sends ++ [(⟨req, .credit (be 4 l.deliveryTag.toNat) (some (.ok ()))⟩ : SendTask)] } : Session).modSnd
        req.link fun l => { l with deliveryTag := l.deliveryTag + 1 }).snd? req.link = some { l with deliveryTag := l.deliveryTag + 1 } := by
      rw [modSnd_snd?, if_pos rfl]
      show (s.snd? req.link).map _ = _
      rw [hl]; rfl
    rw [this]
    dsimp only
    rw [if_pos (.inr hp)]
    refine ⟨rfl, ?_⟩
    rw [modSnd_snd?, if_pos rfl]
    show Option.map _ (Option.map _ ((modSnd _ _ _).snd? req.link)) = _
    rw [modSnd_snd?, if_pos rfl]
    show Option.map _ (Option.map _ ((s.snd? req.link).map _)) = _
    rw [hl]; rfl

/-- The sends that went out, in order. -/
def wentOut (log : List Ev) : List Ref := log.filterMap fun
  | .begun t _ _ => some t
  | _ => none

/-- **C48** is violated: the first send waits for credit; credit for both arrives and wakes it; a second send made before it
is polled goes out first. -/
theorem c48_new_send_overtakes : ∃ s : Session, Reachable s ∧ s.sends.map (fun t => (t.req.link, t.st)) =
    [(0, .done (.ok 1)), (0, .done (.ok 0))] ∧ wentOut s.log = [1, 0] :=
  ⟨(start 10).run (attachOne ++ [.send (aSend 0 [1] false)] ++ flow (aFlow (some 7) (some 0) (some 2) (some 1) 10) ++
    [.send (aSend 0 [2] false), .resumeSend 0]), reachable _ _ _, rfl, by decide⟩

end Amqp.Rt
