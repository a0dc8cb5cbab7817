import Mathlib.Tactic.IntervalCases
import Verif.Props.Attach
import Verif.Props.Detaching
/-!
# Closing and detaching links: C65
-/

namespace Amqp.Rt
open Session Examples

/-- Sender link `r` is established in its slot, below 2³² (handles have 32 bits). -/
def SenderUp (s : Session) (r : Ref) (l : Snd) : Prop :=
  s.snd? r = some l ∧ s.links.get l.id = some (.snd (.established r)) ∧ l.id < 2 ^ 32

def ReceiverUp (s : Session) (r : Ref) (l : Rcv) : Prop :=
  s.rcv? r = some l ∧ s.links.get l.handle.toNat = some (.rcv (.established r))

theorem ofNat_toNat {k : Nat} (h : k < 2 ^ 32) : (UInt32.ofNat k).toNat = k := by
  simpa using Nat.mod_eq_of_lt h

/-- What `detach_sender_link` does to an established link. -/
theorem detachSender_up {s : Session} {k : UInt32} {r : Ref} (hk : s.links.get k.toNat = some (.snd (.established r)))
    (c : Bool) (e : Option Error) :
    s.detachSender k c e = { s with
      ops := s.ops + 1
      links := s.links.set k.toNat (.snd (.closing (some s.ops)))
      snds := s.snds.modify r fun l => { l with closed := true }
      log := s.log ++ [.frame (.detach { handle := k, closed := c, error := e }),
        .control (.localDetachSender { handle := k, closed := c, error := e } r)] } := by
  unfold detachSender
  dsimp only
  rw [show s.newOp.links.get k.toNat = some (.snd (.established r)) from hk]
  simp [setLink, newOp, hk, dropLink, post, note, modSnd]

theorem detachReceiver_up {s : Session} {k : UInt32} {r : Ref} (hk : s.links.get k.toNat = some (.rcv (.established r)))
    (c : Bool) (e : Option Error) :
    s.detachReceiver k c e = { s with
      ops := s.ops + 1
      links := s.links.set k.toNat (.rcv (.closing (some s.ops)))
      rcvs := s.rcvs.modify r fun l => { l with closed := true }
      log := s.log ++ [.frame (.detach { handle := k, closed := c, error := e }),
        .control (.localDetachReceiver { handle := k, closed := c, error := e } r)] } := by
  unfold detachReceiver
  dsimp only
  rw [show s.newOp.links.get k.toNat = some (.rcv (.established r)) from hk]
  simp [setLink, newOp, hk, dropLink, post, note, modRcv]

/-- **C65** Closing a sender link sends one detach under its handle, closing and with the given error, and tells the control
service; the link is closed and waits for the peer's detach.  No other link changes. -/
theorem c65_close_sender {s : Session} {r : Ref} {l : Snd} (h : SenderUp s r l) (hc : l.closed = false) (e : Option Error) :
    let s' := s.step (.closeSender r e)
    let d : Detach := { handle := UInt32.ofNat l.id, closed := true, error := e }
    s'.log = s.log ++ [.frame (.detach d), .control (.localDetachSender d r)] ∧
    s'.links.get l.id = some (.snd (.closing (some s.ops))) ∧ (∀ j, j ≠ l.id → s'.links.get j = s.links.get j) ∧
    s'.snd? r = some { l with closed := true } ∧ (∀ q, q ≠ r → s'.snd? q = s.snd? q) := by
  obtain ⟨hl, hk, hlt⟩ := h
  have ht := ofNat_toNat hlt
  dsimp only
  have h₁ : s.step (.closeSender r e) =
      (s.modSnd r fun l => { l with closed := true }).detachSender (UInt32.ofNat l.id) true e := by
    simp only [step, closeSender, hl, hc]
    rfl
  rw [h₁, detachSender_up (r := r) (by rw [ht]; exact hk), ht]
  refine ⟨rfl, get_set_self hk, fun j hj => ?_, ?_, fun q hq => ?_⟩
  · exact (Slab.get_set _ _ _ _ (by simp [Slab.contains, modSnd, hk])).trans (if_neg hj.symm)
  · simp [snd?, modSnd] at hl ⊢
    exact ⟨l, hl, by simp⟩
  · simp [snd?, modSnd, List.getElem?_modify, Ne.symm hq]

/-- **C65** Detaching a sender link through the session sends one detach that does not close. -/
theorem c65_detach_sender {s : Session} {r : Ref} {l : Snd} (h : SenderUp s r l) (e : Option Error) :
    let s' := s.step (.detachSender (UInt32.ofNat l.id) e)
    let d : Detach := { handle := UInt32.ofNat l.id, closed := false, error := e }
    s'.log = s.log ++ [.frame (.detach d), .control (.localDetachSender d r)] ∧
    s'.links.get l.id = some (.snd (.closing (some s.ops))) ∧ (∀ j, j ≠ l.id → s'.links.get j = s.links.get j) ∧
    s'.snd? r = some { l with closed := true } ∧ (∀ q, q ≠ r → s'.snd? q = s.snd? q) := by
  obtain ⟨hl, hk, hlt⟩ := h
  have ht := ofNat_toNat hlt
  dsimp only
  show (s.detachSender _ _ _).log = _ ∧ (s.detachSender _ _ _).links.get _ = _ ∧ (∀ j, _ → (s.detachSender _ _ _).links.get _ = _) ∧
    (s.detachSender _ _ _).snd? _ = _ ∧ (∀ q, _ → (s.detachSender _ _ _).snd? _ = _)
  rw [detachSender_up (r := r) (by rw [ht]; exact hk), ht]
  refine ⟨rfl, get_set_self hk, fun j hj => ?_, ?_, fun q hq => ?_⟩
  · exact (Slab.get_set _ _ _ _ (by simp [Slab.contains, hk])).trans (if_neg hj.symm)
  · simp [snd?] at hl ⊢
    exact ⟨l, hl, by simp⟩
  · simp [snd?, List.getElem?_modify, Ne.symm hq]

/-- **C65** The same for closing a receiver link. -/
theorem c65_close_receiver {s : Session} {r : Ref} {l : Rcv} (h : ReceiverUp s r l) (hc : l.closed = false)
    (e : Option Error) :
    let s' := s.step (.closeReceiver r e)
    let d : Detach := { handle := l.handle, closed := true, error := e }
    s'.log = s.log ++ [.frame (.detach d), .control (.localDetachReceiver d r)] ∧
    s'.links.get l.handle.toNat = some (.rcv (.closing (some s.ops))) ∧
    (∀ j, j ≠ l.handle.toNat → s'.links.get j = s.links.get j) ∧
    s'.rcv? r = some { l with closed := true } ∧ (∀ q, q ≠ r → s'.rcv? q = s.rcv? q) := by
  obtain ⟨hl, hk⟩ := h
  dsimp only
  have h₁ : s.step (.closeReceiver r e) = (s.detachReceiver l.handle true e).modRcv r fun l => { l with closed := true } := by
    simp only [step, closeReceiver, hl, hc]
    rfl
  rw [h₁, detachReceiver_up hk]
  refine ⟨rfl, get_set_self hk, fun j hj => ?_, ?_, fun q hq => ?_⟩
  · exact (Slab.get_set _ _ _ _ (by simp [Slab.contains, hk])).trans (if_neg hj.symm)
  · simp [rcv?, modRcv] at hl ⊢
    exact ⟨l, hl, by simp⟩
  · simp [rcv?, modRcv, List.getElem?_modify, Ne.symm hq]

/-- **C65** … and for detaching one. -/
theorem c65_detach_receiver {s : Session} {r : Ref} {l : Rcv} (h : ReceiverUp s r l) (e : Option Error) :
    let s' := s.step (.detachReceiver l.handle e)
    let d : Detach := { handle := l.handle, closed := false, error := e }
    s'.log = s.log ++ [.frame (.detach d), .control (.localDetachReceiver d r)] ∧
    s'.links.get l.handle.toNat = some (.rcv (.closing (some s.ops))) ∧
    (∀ j, j ≠ l.handle.toNat → s'.links.get j = s.links.get j) ∧
    s'.rcv? r = some { l with closed := true } ∧ (∀ q, q ≠ r → s'.rcv? q = s.rcv? q) := by
  obtain ⟨hl, hk⟩ := h
  dsimp only
  show (s.detachReceiver _ _ _).log = _ ∧ (s.detachReceiver _ _ _).links.get _ = _ ∧
    (∀ j, _ → (s.detachReceiver _ _ _).links.get _ = _) ∧
    (s.detachReceiver _ _ _).rcv? _ = _ ∧ (∀ q, _ → (s.detachReceiver _ _ _).rcv? _ = _)
  rw [detachReceiver_up hk]
  refine ⟨rfl, get_set_self hk, fun j hj => ?_, ?_, fun q hq => ?_⟩
  · exact (Slab.get_set _ _ _ _ (by simp [Slab.contains, hk])).trans (if_neg hj.symm)
  · simp [rcv?] at hl ⊢
    exact ⟨l, hl, by simp⟩
  · simp [rcv?, List.getElem?_modify, Ne.symm hq]

/-- **C65** Closing a link that is closed succeeds at once and sends nothing. -/
theorem c65_close_twice {s : Session} {r : Ref} (e : Option Error) :
    (∀ l, s.snd? r = some l → l.closed = true →
      (s.step (.closeSender r e)).log = s.log ++ [.detached s.ops (.ok ())] ∧
      (s.step (.closeSender r e)).links = s.links ∧ (s.step (.closeSender r e)).snds = s.snds) ∧
    (∀ l, s.rcv? r = some l → l.closed = true →
      (s.step (.closeReceiver r e)).log = s.log ++ [.detached s.ops (.ok ())] ∧
      (s.step (.closeReceiver r e)).links = s.links ∧ (s.step (.closeReceiver r e)).rcvs = s.rcvs) := by
  refine ⟨fun l hl hc => ?_, fun l hl hc => ?_⟩
  · simp only [step, closeSender, hl, hc]
    exact ⟨rfl, rfl, rfl⟩
  · simp only [step, closeReceiver, hl, hc]
    refine ⟨rfl, rfl, ?_⟩
    simp only [modRcv, newOp, note, if_true]
    apply List.ext_getElem?
    intro i
    rw [List.getElem?_modify]
    by_cases hi : r = i
    · subst hi
      rw [show s.rcvs[r]? = some l from hl]
      cases l
      simp only at hc
      subst hc
      simp
    · simp [hi]

/-- **C65** The peer's detach completes the closing of the link it names: with its error if it has one.  The slot and the
handle are free again, nothing is sent and no service called. -/
theorem c65_confirmed {s : Session} {f : Detach} {k : Nat} {op : Ref} (he : s.error = none)
    (hh : s.remoteHandles.get f.handle = some k)
    (hk : s.links.get k = some (.snd (.closing (some op))) ∨ s.links.get k = some (.rcv (.closing (some op)))) :
    let s' := s.step (.peer (.detach f))
    s'.log = s.log ++ [.peer (.detach f), .detached op (match f.error with
      | some e => .error (.linkDetached (some e))
      | none => .ok ())] ∧
    s'.links.get k = none ∧ (∀ j, j ≠ k → s'.links.get j = s.links.get j) ∧ s'.remoteHandles.get f.handle = none ∧
    s'.todo = s.todo := by
  have h₁ : s.step (.peer (.detach f)) = { s with
      links := s.links.remove k
      remoteHandles := s.remoteHandles.erase f.handle
      log := s.log ++ [.peer (.detach f), .detached op (match f.error with
        | some e => .error (.linkDetached (some e))
        | none => .ok ())] } := by
    rw [peer_detach_eq he]
    unfold handleDetach
    rw [show (s.note (.peer (.detach f))).remoteHandles.get f.handle = some k from hh]
    dsimp only
    rw [show (s.note (.peer (.detach f))).links = s.links from rfl]
    rcases hk with hk | hk <;> rw [hk] <;> simp [enqueue, forget, note] <;> cases f.error <;> rfl
  dsimp only
  rw [h₁]
  refine ⟨rfl, ?_, fun j hj => ?_, ?_, rfl⟩
  · exact (Slab.get_remove _ _ _).trans (if_pos rfl)
  · exact (Slab.get_remove _ _ _).trans (if_neg hj.symm)
  · exact (Map.get_erase _ _ _).trans (if_pos rfl)

/-- **C65** The peer's detach of an established sender link is answered with one detach, under our handle and with its error;
the link is closed with that error, its slot and the handle are free again. -/
theorem c65_peer_detaches_sender {s : Session} {f : Detach} {r : Ref} {l : Snd} {k : Nat} (he : s.error = none)
    (hl : s.snd? r = some l) (hh : s.remoteHandles.get f.handle = some k) (hk : s.links.get k = some (.snd (.established r))) :
    let s' := s.step (.peer (.detach f))
    s'.log = s.log ++ [.peer (.detach f),
      .frame (.detach { handle := UInt32.ofNat l.id, closed := true, error := f.error })] ∧
    s'.links.get k = none ∧ s'.remoteHandles.get f.handle = none ∧
    ∃ l', s'.snd? r = some l' ∧ l'.closed = true ∧ l'.error = some (.linkDetached f.error) ∧ l'.pending = [] := by
  have hd : (s.note (.peer (.detach f))).handleDetach f =
      ((((s.note (.peer (.detach f))).detachEstablishedSender r l f).forget k f.handle).modSnd r
        (fun l => { l with closed := true }), .detachSender r f) := by
    unfold handleDetach
    rw [show (s.note (.peer (.detach f))).remoteHandles.get f.handle = some k from hh]
    dsimp only
    rw [show (s.note (.peer (.detach f))).links.get k = some (.snd (.established r)) from hk]
    dsimp only
    rw [show (s.note (.peer (.detach f))).snd? r = some l from hl]
  dsimp only
  rw [peer_detach_eq he, hd]
  dsimp only [enqueue]
  refine ⟨?_, ?_, ?_, ?_⟩
  · simp [modSnd, forget, detachEstablishedSender, failPending, post, note]
  · show ((detachEstablishedSender _ r l f).forget k f.handle).links.get k = none
    exact (Slab.get_remove _ _ _).trans (if_pos rfl)
  · show ((detachEstablishedSender _ r l f).forget k f.handle).remoteHandles.get f.handle = none
    exact (Map.get_erase _ _ _).trans (if_pos rfl)
  · let s₁ := failDeliveries (failPending { s.note (.peer (.detach f)) with linksByName := s.linksByName.erase l.name }
      l.remoteHandle (.linkDetached f.error)) true (UInt32.ofNat l.id) (.linkDetached f.error)
    have hs₁ : s₁.snd? r = some l := by
      rw [snd?, show s₁.snds = s.snds by simp [s₁, failPending, note]]
      exact hl
    refine ⟨{ l with pending := [], closed := true, error := some (.linkDetached f.error) }, ?_, rfl, rfl, rfl⟩
    show (modSnd _ r _).snd? r = _
    rw [modSnd_snd?, if_pos rfl]
    show ((sndRemoteDetached s₁ r (.linkDetached f.error)).snd? r).map _ = _
    unfold sndRemoteDetached
    rw [hs₁]
    dsimp only
    rw [modSnd_snd?, if_pos rfl, snd?, wakeAll_snds, ← snd?, hs₁]
    rfl

/-- **C65** The same for a receiver link; the answer carries no error. -/
theorem c65_peer_detaches_receiver {s : Session} {f : Detach} {r : Ref} {l : Rcv} {k : Nat} (he : s.error = none)
    (hl : s.rcv? r = some l) (hh : s.remoteHandles.get f.handle = some k) (hk : s.links.get k = some (.rcv (.established r))) :
    let s' := s.step (.peer (.detach f))
    s'.log = s.log ++ [.peer (.detach f), .frame (.detach { handle := l.handle, closed := true, error := none })] ∧
    s'.links.get k = none ∧ s'.remoteHandles.get f.handle = none ∧
    s'.rcv? r = some { l with closed := true, error := f.error } := by
  have hd : (s.note (.peer (.detach f))).handleDetach f =
      ((((s.note (.peer (.detach f))).detachEstablishedReceiver r l f).forget k f.handle).modRcv r
        (fun l => { l with closed := true }), .detachReceiver r { f with error := none }) := by
    unfold handleDetach
    rw [show (s.note (.peer (.detach f))).remoteHandles.get f.handle = some k from hh]
    dsimp only
    rw [show (s.note (.peer (.detach f))).links.get k = some (.rcv (.established r)) from hk]
    dsimp only
    rw [show (s.note (.peer (.detach f))).rcv? r = some l from hl]
  dsimp only
  rw [peer_detach_eq he, hd]
  dsimp only [enqueue]
  refine ⟨?_, ?_, ?_, ?_⟩
  · simp [modRcv, forget, detachEstablishedReceiver, post, note, rcvRemoteDetached]
  · show ((detachEstablishedReceiver _ r l f).forget k f.handle).links.get k = none
    exact (Slab.get_remove _ _ _).trans (if_pos rfl)
  · show ((detachEstablishedReceiver _ r l f).forget k f.handle).remoteHandles.get f.handle = none
    exact (Map.get_erase _ _ _).trans (if_pos rfl)
  · show (modRcv _ r _).rcv? r = _
    rw [rcv?_modRcv, if_pos rfl]
    show ((rcvRemoteDetached _ r f.error).rcv? r).map _ = _
    unfold rcvRemoteDetached
    rw [rcv?_modRcv, if_pos rfl, rcv?, show (post (failDeliveries (s.note (.peer (.detach f))) false l.handle
      (.linkDetached f.error)) _).rcvs = s.rcvs by simp [post, note], ← rcv?, hl]
    rfl

/-! ## Concrete executions -/

/-- Link 0, and a receiver link 0 the peer attached in slot 1 under its handle 5. -/
def twoLinks : List Step := attachOne ++ attachRcv

example : ∃ l, Reachable ((start 100).run twoLinks) ∧ SenderUp ((start 100).run twoLinks) 0 l ∧ l.closed = false :=
  ⟨_, reachable _ _ _, ⟨rfl, rfl, by decide⟩, rfl⟩

example : ∃ l, Reachable ((start 100).run twoLinks) ∧ ReceiverUp ((start 100).run twoLinks) 0 l ∧ l.closed = false :=
  ⟨_, reachable _ _ _, ⟨rfl, rfl⟩, rfl⟩

/-- Closed and confirmed. -/
example : let s := (start 100).run (twoLinks ++ [.closeSender 0 none, .closeReceiver 0 none])
    Reachable s ∧ s.remoteHandles.get 7 = some 0 ∧ s.links.get 0 = some (.snd (.closing (some 1))) ∧
    s.remoteHandles.get 5 = some 1 ∧ s.links.get 1 = some (.rcv (.closing (some 2))) ∧ s.error = none :=
  ⟨reachable _ _ _, rfl, rfl, rfl, rfl, rfl⟩

/-- The peer detaches its handle `h` without closing the link. -/
def suspend (h : UInt32) : Detach := { handle := h, closed := false, error := none }

/-- **C65** Violated: a detach that leaves the link in being is answered with one that closes it, so the peer has to attach
again to close (AMQP 1.0 §2.6.5, §2.6.6). -/
theorem c65_always_closes : ∃ s : Session, Reachable s ∧ s.links.get 0 = some (.snd (.established 0)) ∧
    (s.step (.peer (.detach (suspend 7)))).log =
      s.log ++ [.peer (.detach (suspend 7)), .frame (.detach { handle := 0, closed := true, error := none })] :=
  ⟨(start 100).run attachOne, reachable _ _ _, rfl, rfl⟩

/-- **C65** Violated: closing a link the peer has not answered yet never completes.  The peer's attach is ignored, so its detach
names no link; the handle stays taken. -/
theorem c65_opening_never_closed : ∃ s : Session, Reachable s ∧ s.log = [.frame (.attach (anAttach "a" 0 .sender)),
      .opDropped 0, .frame (.detach { handle := 0, closed := false, error := none }),
      .peer (.attach (anAttach "a" 7 .receiver)), .peer (.detach { handle := 7, closed := true, error := none })] ∧
    s.links.get 0 = some (.snd (.closing (some 1))) :=
  ⟨(start 100).run [.attachSender (anAttach "a" 0 .sender), .detachSender 0 none, .peer (.attach (anAttach "a" 7 .receiver)),
    .peer (.detach { handle := 7, closed := true, error := none })], reachable _ _ _, rfl, rfl⟩

/-- **C65** Violated: the peer's detach of a link still being offered to the services is not answered.  A receiver link is even
established after that, and credit granted for it. -/
theorem c65_detach_unanswered : ∃ s : Session, Reachable s ∧
    .peer (.detach { handle := 5, closed := true, error := none }) ∈ s.log ∧
    (∀ d, .frame (.detach d) ∉ s.log) ∧ s.links.get 0 = some (.rcv (.established 0)) ∧ .granted 0 50 ∈ s.log := by
  refine ⟨(start 100).run [.peer (.attach (anAttach "q" 5 .sender)),
    .peer (.detach { handle := 5, closed := true, error := none }), pass 0, pass 0], reachable _ _ _, ?_, ?_, rfl, ?_⟩
  · exact List.mem_of_getElem? (i := 1) rfl
  · intro d hd
    obtain ⟨i, hi, he⟩ := List.mem_iff_getElem.mp hd
    replace hi : i < 5 := hi
    interval_cases i <;> cases he
  · exact List.mem_of_getElem? (i := 3) rfl

end Amqp.Rt
