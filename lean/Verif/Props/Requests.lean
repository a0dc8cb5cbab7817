import Verif.Lemmas.ConnectionOps
import Verif.Spec.Examples
/-!
# Requests are answered once: C79
-/

namespace Amqp.Rt
open Session Examples

/-- **C79** In every reachable state of a session, a request (`attach`, `close`, `detach_sender_link`,
`detach_receiver_link`) is either answered, exactly once, and its channel is gone, or not answered, and its channel is held by
exactly one link, unless the session has panicked. -/
theorem c79_each_once (s : Session) (hs : Reachable s) (hp : .panic ∉ s.log) (op : Nat) (ho : op < s.ops) :
    s.answered op = 1 ∧ s.awaiting op = 0 ∨ s.answered op = 0 ∧ s.awaiting op = 1 := by
  have hn : none ∉ s.replied := by
    intro h
    obtain ⟨e, he, hr⟩ := List.mem_filterMap.mp h
    cases e <;> simp [Ev.reply?] at hr
    exact hp he
  have h := hs.opsInv.eq hn op
  rw [if_pos ho] at h
  rw [answered_replied]
  unfold bal at h
  omega

/-- **C79** Whatever happened, no request is answered twice, none is answered while its channel is still held, and nothing
is answered or held that was not requested. -/
theorem c79_at_most_once (s : Session) (hs : Reachable s) (op : Nat) :
    s.answered op + s.awaiting op ≤ 1 ∧ (s.ops ≤ op → s.answered op = 0 ∧ s.awaiting op = 0) := by
  have h := hs.opsInv.le op
  rw [answered_replied]
  unfold bal at h
  split at h <;> omega

/-- **C79** `attach`, `detach_sender_link` and `detach_receiver_link` each make one request; `close` does if the link
exists. -/
theorem c79_numbered (s : Session) :
    (∀ a, (s.step (.attachSender a)).ops = s.ops + 1) ∧ (∀ a, (s.step (.attachReceiver a)).ops = s.ops + 1) ∧
    (∀ h e, (s.step (.detachSender h e)).ops = s.ops + 1) ∧ (∀ h e, (s.step (.detachReceiver h e)).ops = s.ops + 1) ∧
    (∀ r l e, s.snd? r = some l → (s.step (.closeSender r e)).ops = s.ops + 1) ∧
    (∀ r l e, s.rcv? r = some l → (s.step (.closeReceiver r e)).ops = s.ops + 1) := by
  have hd : ∀ (s : Session) h c e, (s.detachSender h c e).ops = s.ops + 1 := by
    intro s h c e
    unfold Session.detachSender
    dsimp only
    split <;> simp [newOp]
  have hr : ∀ (s : Session) h c e, (s.detachReceiver h c e).ops = s.ops + 1 := by
    intro s h c e
    unfold Session.detachReceiver
    dsimp only
    (repeat' split) <;> simp [newOp]
  refine ⟨fun _ => rfl, fun _ => rfl, fun h e => hd s h _ e, fun h e => hr s h _ e, fun r l e hl => ?_, fun r l e hl => ?_⟩
  · show (s.closeSender r e).ops = _
    unfold Session.closeSender
    rw [hl]
    dsimp only
    split
    · rfl
    · exact hd _ _ _ _
  · show (s.closeReceiver r e).ops = _
    unfold Session.closeReceiver
    rw [hl]
    dsimp only
    split
    · rfl
    · exact hr _ _ _ _

/-- **C79** When the session fails, or the peer ends it, every request made so far has its answer. -/
theorem c79_failure_answers (s : Session) (hs : Reachable s) (he : s.error = none) (st : Step)
    (h : (∃ e, st = .fail e) ∨ (∃ e, st = .peer (.end_ e)) ∨ ∃ e, st = .endConfirmed e)
    (hp : .panic ∉ (s.step st).log) (op : Nat) (ho : op < s.ops) : (s.step st).answered op = 1 := by
  have key : (s.step st).awaiting op = 0 ∧ (s.step st).ops = s.ops := by
    rcases h with ⟨e, rfl⟩ | ⟨e, rfl⟩ | ⟨e, rfl⟩
    · exact ⟨setError_awaiting s e op, setError_ops s e⟩
    · show (s.onPeer (.end_ e)).awaiting op = 0 ∧ (s.onPeer (.end_ e)).ops = s.ops
      unfold onPeer
      dsimp only
      rw [if_neg (by simp [he])]
      refine ⟨?_, ?_⟩
      · unfold awaiting
        simp only [post_links, enqueue_links, remoteEnd_links]
        rfl
      · simp only [post_ops, enqueue_ops]
        exact setError_ops (s.note (.peer (.end_ e))) _
    · show (if s.error.isSome then s else (s.remoteEnd e.error).1 : Session).awaiting op = 0 ∧
        (if s.error.isSome then s else (s.remoteEnd e.error).1 : Session).ops = s.ops
      rw [if_neg (by simp [he])]
      exact ⟨setError_awaiting s _ op, setError_ops s _⟩
  have hr : Reachable (s.step st) := by
    obtain ⟨s₀, l, hf, rfl⟩ := hs
    exact ⟨s₀, l ++ [st], hf, by simp [run]⟩
  rcases c79_each_once _ hr hp op (by rw [key.2]; exact ho) with h | h
  · exact h.1
  · omega

/-- Two links are being attached and one is being closed when the session fails. -/
def threeRequests : List Step :=
  attachOne ++ [.closeSender 0 none, .attachSender (anAttach "b" 0 .sender), .attachReceiver (anAttach "c" 0 .receiver)]

example : ∃ s : Session, Reachable s ∧ s.error = none ∧ s.ops = 4 ∧ s.answered 0 = 1 ∧
    (∀ op : Nat, 0 < op → op < 4 → s.answered op = 0 ∧ s.awaiting op = 1) ∧ .panic ∉ s.log ∧
    ∀ op : Nat, op < 4 → (s.step (.fail .disconnected)).answered op = 1 := by
  refine ⟨(start 5).run threeRequests, reachable _ _ _, rfl, rfl, rfl, ?_, ?_, ?_⟩
  · intro op h₁ h₂
    obtain rfl | rfl | rfl : op = 1 ∨ op = 2 ∨ op = 3 := by omega
    all_goals exact ⟨rfl, rfl⟩
  · intro h
    have : (((start 5).run threeRequests).log.any fun | .panic => true | _ => false) = true :=
      List.any_eq_true.mpr ⟨_, h, rfl⟩
    exact absurd this (by decide +kernel)
  · intro op h
    obtain rfl | rfl | rfl | rfl : op = 0 ∨ op = 1 ∨ op = 2 ∨ op = 3 := by omega
    all_goals rfl

/-- **C79** The same for `open_session`, in every reachable state of a connection: answered exactly once with its channel
gone, or not answered with its channel in exactly one entry. -/
theorem c79_open_session (c : Conn) (hc : c.Reachable) (op : Nat) :
    (op < c.ops → c.answered op = 1 ∧ c.awaiting op = 0 ∨ c.answered op = 0 ∧ c.awaiting op = 1) ∧
    (c.ops ≤ op → c.answered op = 0 ∧ c.awaiting op = 0) := by
  have h := hc.bal op
  unfold Conn.bal at h
  split at h <;> omega

/-- **C79** When the connection fails, every `open_session` made so far has its answer. -/
theorem c79_open_failure_answers (c : Conn) (hc : c.Reachable) (e : PErr) (op : Nat) (ho : op < c.ops) :
    (c.step (.fail e)).answered op = 1 := by
  show (c.setError e).answered op = 1
  rw [(Conn.setError_answers c e op).1, hc.bal, if_pos ho]

example : ∃ c : Conn, c.Reachable ∧ c.ops = 2 ∧ c.answered 0 = 0 ∧ c.awaiting 0 = 1 ∧ c.answered 1 = 1 ∧
    (c.step (.fail .disconnected)).answered 0 = 1 :=
  ⟨(Conn.new ⟨1, 1, 512⟩).run [.openSession none none none, .openSession none none none], ⟨_, _, rfl⟩, rfl, rfl, rfl, rfl, rfl⟩

theorem peer_after_error {s : Session} (he : s.error.isSome = true) (f : Frame) : s.step (.peer f) = s.note (.peer f) := by
  show s.onPeer f = _
  unfold onPeer
  cases f
  case attach a => dsimp only; rw [if_pos (by exact he)]
  case end_ e => dsimp only; rw [if_pos (by exact he)]
  all_goals
    dsimp only
    unfold handleFrame
    rw [if_pos (by exact he)]
    rfl

/-- **C79** Violated: a link attached on a session that is over is never answered.  `attach_local_sender_link` and
`attach_local_receiver_link` (session.rs:438-458, 648-673) do not look at the session's error, and `set_error` has already
run; whatever the peer sends, `attach()` waits for ever. -/
theorem c79_attach_after_end (s : Session) (hs : Reachable s) (he : s.error.isSome = true) (a : Attach) (st : Step)
    (h : st = .attachSender a ∨ st = .attachReceiver a) (fs : List Frame) :
    ((s.step st).run (fs.map .peer)).answered s.ops = 0 ∧ ((s.step st).run (fs.map .peer)).awaiting s.ops = 1 := by
  have hz := (c79_at_most_once s hs s.ops).2 (Nat.le_refl _)
  have h₀ : (s.step st).error.isSome = true ∧ (s.step st).answered s.ops = 0 ∧ (s.step st).awaiting s.ops = 1 := by
    have hb : ∀ s' : Session, s'.replied = s.replied → ∀ x : Link, x.req? = some s.ops → s'.links = s.links.insert x →
        s'.answered s.ops = 0 ∧ s'.awaiting s.ops = 1 := by
      intro s' h₁ x hx h₂
      rw [answered_replied, h₁, ← answered_replied]
      refine ⟨hz.1, ?_⟩
      have := Slab.countP_insert (Link.awaits s.ops) hs.linksWf x
      have hz := hz.2
      unfold awaiting at *
      rw [h₂, this, hz, Link.awaits_iff, hx]
      simp
    rcases h with rfl | rfl
    · exact ⟨he, hb _ (by show (s.attachLocalSender a).replied = _; unfold attachLocalSender; dsimp only; rw [post_replied]; rfl)
        (.snd (.opening (some s.ops))) rfl rfl⟩
    · exact ⟨he, hb _ (by show (s.attachLocalReceiver a).replied = _; unfold attachLocalReceiver; dsimp only; rw [post_replied]; rfl)
        (.rcv (.openingLocal (some (s.rcvs.length, s.ops)))) rfl rfl⟩
  generalize s.step st = t at h₀
  have key : ∀ (fs : List Frame) (t : Session), t.error.isSome = true → t.answered s.ops = 0 → t.awaiting s.ops = 1 →
      (t.run (fs.map .peer)).answered s.ops = 0 ∧ (t.run (fs.map .peer)).awaiting s.ops = 1 := by
    intro fs
    induction fs with
    | nil => exact fun t _ h₁ h₂ => ⟨h₁, h₂⟩
    | cons f fs ih =>
      intro t h₀ h₁ h₂
      show ((t.step (.peer f)).run (fs.map .peer)).answered s.ops = 0 ∧ _
      rw [List.map_cons, show t.run (.peer f :: fs.map .peer) = (t.step (.peer f)).run (fs.map .peer) from rfl,
        peer_after_error h₀]
      refine ih _ h₀ ?_ h₂
      rw [answered_replied, note_peer_replied, ← answered_replied]
      exact h₁
  exact key fs t h₀.1 h₀.2.1 h₀.2.2

example : ∃ s : Session, Reachable s ∧ s.error.isSome = true :=
  ⟨(start 5).run [.peer (.end_ ⟨none⟩)], reachable _ _ _, rfl⟩

/-- **C79** Violated: the answer may be about another link.  The peer offers a link and takes it back, the application
attaches its own link, which gets the same slot, and then the control service accepts the peer's link: the channel of the
application's request is dropped, so `attach()` reports a disconnected peer on a session that is well, and the peer's answer
to it is ignored. -/
theorem c79_attach_displaced : ∃ s : Session, Reachable s ∧ s.error = none ∧ s.awaiting 0 = 1 ∧
    (s.step (pass 0)).error = none ∧ (.opDropped 0) ∈ (s.step (pass 0)).log ∧
    (((s.step (pass 0)).step (.peer (.attach (anAttach "a" 7 .receiver)))).snds.length = 1) :=
  ⟨(start 5).run [.peer (.attach (anAttach "p" 0 .receiver)), .peer (.detach { handle := 0, closed := true, error := none }),
    .attachSender (anAttach "a" 0 .sender)], reachable _ _ _, rfl, rfl, rfl, by
      refine List.mem_of_getElem? (i := 3) ?_
      rfl, rfl⟩

end Amqp.Rt
