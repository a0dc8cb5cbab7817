import Verif.Lemmas.EndSession
import Verif.Props.ConnectionWitnesses
/-!
# C86: what `Session::end` reports, and when

The application ends a session and waits for the answer of the peer.
-/

namespace Amqp.Rt
open Session Examples Conn

/-- **C86** A session is over exactly when it has an error: the future of `end` is woken by what sets the error, and finds
it. -/
theorem c86_over_iff_error {s : Session} (h : s.Reachable) : s.endPoll.isSome ↔ s.error.isSome := by
  rw [← h.ended_error]
  unfold endPoll
  split <;> simp_all

theorem ended_step {x : Session} (hx : x.error = none) (f : End) {st : Step} (hst : st = .peer (.end_ f) ∨ st = .endConfirmed f) :
    (x.step st).error = some (.sessionEnded f.error) := by
  have key : ∀ y : Session, (y.remoteEnd f.error).1.error = some (.sessionEnded f.error) :=
    fun y => step_fail_error y (.sessionEnded f.error)
  rcases hst with rfl | rfl
  · show (x.onPeer (.end_ f)).error = _
    unfold onPeer
    dsimp only
    rw [if_neg]
    · rw [post_error, enqueue_error']; exact key _
    · rw [note_error, hx]; simp
  · show (if x.error.isSome then x else (x.remoteEnd f.error).1 : Session).error = _
    rw [if_neg (by rw [hx]; simp)]
    exact key x

/-- **C86** The peer's `End` completes it, whether it answers ours or came first: with the peer's error if there is one, and
with success if there is none. -/
theorem c86_answered {c : Conn} (h : c.Reachable) (he : c.error = none) {ch : UInt16} {tok : Nat} {s : Ref} {x : Session}
    (hm : c.sessionsMap.get ch = some tok) (hr : c.Registered tok s x) (f : End) :
    ∃ y, (c.step (.recv ch (.end_ f))).obj? s = some y ∧
      y.endPoll = some (match f.error with | some e => .error (.sessionEnded (some e)) | none => .ok ()) := by
  have hn := h.noError tok s x hr
  have key : ∃ y, (c.step (.recv ch (.end_ f))).obj? s = some y ∧ y.error = some (.sessionEnded f.error) := by
    obtain ⟨st, hg, hs, hx⟩ := hr
    have unreg : ∀ (d : Conn) t, (d.unregister ch).obj? t = d.obj? t := by
      intro d t; unfold unregister; split <;> rfl
    have hb : ((c.note (.peer ch (.end_ f))).sessionsMap.get ch).bind (c.note (.peer ch (.end_ f))).sessions.get = some st := by
      show (c.sessionsMap.get ch).bind c.sessions.get = _
      rw [hm]; exact hg
    have hc : c.step (.recv ch (.end_ f)) = (c.note (.peer ch (.end_ f))).sessionFrame ch (.end_ f) := by
      show c.handleFrame ch (.end_ f) = _
      unfold Conn.handleFrame
      dsimp only
      rw [if_neg]
      show ¬ c.error.isSome = true
      rw [he]; simp
    rw [hc]
    unfold sessionFrame
    rw [hb]
    have hx' : (c.note (.peer ch (.end_ f))).obj? s = some x := hx
    cases st with
    | opening op => cases hs
    | established t =>
      cases hs
      dsimp only
      rw [unreg]
      refine ⟨x.step (.peer (.end_ f)), ?_, ended_step hn f (.inl rfl)⟩
      obtain ⟨_, this, _⟩ := giveFrame_eq (.end_ f) hx'
      unfold obj?
      rw [this, List.getElem?_set]
      have hlt : s < (c.note (.peer ch (.end_ f))).objs.length := (List.getElem?_eq_some_iff.1 hx').1
      simp [hlt]
    | closing t =>
      cases hs
      dsimp only
      rw [unreg, onSession_obj?]
      refine ⟨x.step (.endConfirmed f), ?_, ended_step hn f (.inr rfl)⟩
      rw [hx']
      simp
  obtain ⟨y, hy, hye⟩ := key
  refine ⟨y, hy, ?_⟩
  have hyr := ((h.step (.recv ch (.end_ f))).objsOk y (List.mem_of_getElem? hy)).1.ended_error
  rw [hye] at hyr
  simp only [endPoll, hye, hyr, Option.isSome_some, if_true]
  cases f.error <;> rfl

/-- **C86** Until then it waits: as long as the connection lists the session, whether it is established or being ended, `end`
returns nothing at once and its future is not completed. -/
theorem c86_waits {c : Conn} (h : c.Reachable) {tok : Nat} {s : Ref} {x : Session} (hr : c.Registered tok s x) :
    x.endAtOnce = none ∧ x.endPoll = none := by
  have hn := h.noError tok s x hr
  obtain ⟨st, _, _, hx⟩ := hr
  have he := (h.objsOk x (List.mem_of_getElem? hx)).1.ended_error
  rw [hn] at he
  simp [endAtOnce, endPoll, he]

/-- **C86** A failure of the connection completes it for a session that is still established.  Missing: sessions being
ended, which are the usual case (`c86_forgotten`). -/
theorem c86_failed_partial {c : Conn} (h : c.Reachable) (e : PErr) {s : Ref} {x : Session} {k : Nat} (hx : c.obj? s = some x)
    (hk : c.sessions.get k = some (.established s)) :
    ∃ y, (c.step (.fail e)).obj? s = some y ∧ y.endPoll.isSome := by
  have hf : (c.step (.fail e)).obj? s = some (x.step (.fail e)) := by
    show (c.setError e).obj? s = _
    rw [setError_obj? h.reg, if_pos ⟨k, hk⟩, hx]
    rfl
  refine ⟨_, hf, ?_⟩
  rw [c86_over_iff_error ((h.step (.fail e)).objsOk _ (List.mem_of_getElem? hf)).1, step_fail_error]
  rfl

/-- **C86** What it was completed with stays: a second `end` on the session does not wait, and a future not polled yet finds
the same. -/
theorem c86_kept {c : Conn} (h : c.Reachable) {s : Ref} {x : Session} (hx : c.obj? s = some x) {r : Except PErr Unit}
    (hr : x.endPoll = some r) (steps : List CStep) :
    ∃ y, (c.run steps).obj? s = some y ∧ y.endPoll = some r ∧ y.endAtOnce = some (.ok ()) := by
  have hex : x.error.isSome := by rw [← c86_over_iff_error (h.objsOk x (List.mem_of_getElem? hx)).1, hr]; rfl
  obtain ⟨e, he⟩ := Option.isSome_iff_exists.1 hex
  obtain ⟨y, hy, hye⟩ := c37_session_error_kept c h s x hx e he steps
  have hyr := ((h.run steps).objsOk y (List.mem_of_getElem? hy)).1.ended_error
  have hxr := (h.objsOk x (List.mem_of_getElem? hx)).1.ended_error
  rw [hye, Option.isSome_some] at hyr
  rw [he, Option.isSome_some] at hxr
  refine ⟨y, hy, ?_, ?_⟩
  · rw [← hr]
    simp only [endPoll, hye, he, hyr, hxr]
  · simp [endAtOnce, hyr]

/-- **C86** Violated: a session that is being ended when the connection fails is forgotten.  Whatever happens afterwards, the
future of its `end` is never completed. -/
theorem c86_forgotten {c : Conn} (h : c.Reachable) {s : Ref} {x : Session} {k : Nat} (hx : c.obj? s = some x)
    (hk : c.sessions.get k = some (.closing s)) (e : PErr) (steps : List CStep) :
    ∃ y, ((c.step (.fail e)).run steps).obj? s = some y ∧ y.endPoll = none := by
  have hn := h.noError k s x ⟨_, hk, rfl, hx⟩
  have hend : x.ended = false := by rw [(h.objsOk x (List.mem_of_getElem? hx)).1.ended_error, hn]; rfl
  have hs : (c.step (.fail e)).sessions = .empty := (setError_eq c e).1
  have hf : (c.step (.fail e)).obj? s = some x := by
    show (c.setError e).obj? s = _
    rw [setError_obj? h.reg, if_neg, hx]
    rintro ⟨k', hk'⟩
    obtain ⟨x₁, a1, a2⟩ := h.reg.slab k' _ s hk' rfl
    obtain ⟨x₂, b1, b2⟩ := h.reg.slab k _ s hk rfl
    rw [a1] at b1
    cases b1
    rw [← a2, b2, hk] at hk'
    cases hk'
  have hu : (c.step (.fail e)).Unlisted s := by
    intro k' st hk'
    rw [hs] at hk'
    simp [Slab.get, Slab.empty] at hk'
  obtain ⟨y, hy, hye⟩ := hu.run (h.step (.fail e)) hf hend steps
  exact ⟨y, hy, by simp [endPoll, hye]⟩

/-- **C86** Violated: such a session exists; the application is still waiting. -/
theorem c86_forgotten_witness : ∃ (c : Conn) (x : Session), c.Reachable ∧ c.error = some .disconnected ∧ c.obj? 0 = some x ∧
    x.ending = true ∧ x.endPoll = none ∧ c.Unlisted 0 :=
  ⟨conn ([peerBegins 0] ++ on 0 [.endSession] ++ [.fail .disconnected]), _, connReachable _, rfl, rfl, rfl, rfl,
    fun k st hk => by
      have : (conn ([peerBegins 0] ++ on 0 [.endSession] ++ [.fail .disconnected])).sessions = .empty := rfl
      rw [this] at hk
      simp [Slab.get, Slab.empty] at hk⟩

/-- **C86** Violated: `end` on a session that failed with the connection reports success, at once and from a future that was
waiting: only an error in the peer's `End` is reported. -/
theorem c86_loss_is_success : ∃ (c : Conn) (x : Session), c.Reachable ∧ c.obj? 0 = some x ∧ x.error = some .disconnected ∧
    x.endAtOnce = some (.ok ()) ∧ x.endPoll = some (.ok ()) :=
  ⟨conn ([peerBegins 0] ++ [.fail .disconnected]), _, connReachable _, rfl, rfl, rfl, rfl⟩

/-- The peer answers our `End`. -/
example : let c := conn ([peerBegins 0] ++ on 0 [.endSession])
    ∃ x, c.error = none ∧ c.sessionsMap.get 0 = some 0 ∧ c.sessions.get 0 = some (.closing 0) ∧ c.obj? 0 = some x ∧
      c.Registered 0 0 x ∧ x.endPoll = none :=
  ⟨_, rfl, rfl, rfl, rfl, ⟨_, rfl, rfl, rfl⟩, rfl⟩

/-- An established session, which is over once the connection fails. -/
example : let c := conn [peerBegins 0]
    ∃ x y, c.obj? 0 = some x ∧ c.sessions.get 0 = some (.established 0) ∧ x.endPoll = none ∧
      (c.step (.fail .disconnected)).obj? 0 = some y ∧ y.endPoll = some (.ok ()) :=
  ⟨_, _, rfl, rfl, rfl, rfl, rfl⟩

end Amqp.Rt
