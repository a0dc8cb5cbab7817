import Verif.Lemmas.Observe
import Verif.Lemmas.SessionRoute
import Verif.Lemmas.SessionLive
import Verif.Props.ConnectionWitnesses
import Verif.Props.Routing
import Verif.Props.Blocked
/-!
# C87: what the application can look up about a connection, a session and a link
-/

namespace Amqp.Rt
open Session Examples Conn

/-! ## Connections -/

/-- **C87** The error of a connection is the first one it was failed with: `get_error` says what happened first. -/
theorem c87_first_error {c : Conn} (h : c.Reachable) : c.error = (failuresIn c.log).head? := h.error_first

/-- **C87** A waiter of `on_close` is completed exactly when `get_error` returns an error, and then `is_opened` is false
whatever the transport does. -/
theorem c87_on_close {c : Conn} (h : c.Reachable) (io : Bool) :
    (c.closeSeen = true ↔ c.error.isSome) ∧ (c.closeSeen = true → c.isOpened io = false) := by
  have he : c.closeSeen = c.error.isSome := by rw [c.closeSeen_eq, h.error_first]
  refine ⟨by rw [he], fun hc => ?_⟩
  rw [he] at hc
  obtain ⟨e, he⟩ := Option.isSome_iff_exists.1 hc
  simp [isOpened, he]

/-- **C87** As long as the transport is up, a connection is not open exactly when it has an error. -/
theorem c87_opened {c : Conn} (h : c.Reachable) : c.isOpened false = c.error.isNone := by
  have hi : c.state ≠ .normal → c.error.isSome := by
    refine h.induct (P := fun c => c.state ≠ .normal → c.error.isSome) (fun _ h => absurd rfl h) fun c st hr hc hs => ?_
    have hf := Conn.Falls.step hr.not_closing st
    by_cases hn : c.state = .normal
    · by_cases hst : st.fails = []
      · exact absurd ((hf.still hst).trans hn) hs
      · obtain ⟨e, l, hl⟩ := List.exists_cons_of_ne_nil hst
        rw [hf.error, hl]
        cases c.error <;> rfl
    · rw [hf.error]
      obtain ⟨e, he⟩ := Option.isSome_iff_exists.1 (hc hn)
      rw [he]; rfl
  unfold isOpened
  by_cases hs : c.state = .normal
  · simp [hs]
  · have := hi hs
    cases he : c.error with
    | none => rw [he] at this; cases this
    | some e => simp

/-- **C87** A connection that is not open does not become open again. -/
theorem c87_stays_closed {c : Conn} (h : c.Reachable) (hc : c.isOpened false = false) (steps : List CStep) (io : Bool) :
    (c.run steps).isOpened io = false := by
  have hs : c.state ≠ .normal ∨ c.error.isSome := by
    rw [c87_opened h] at hc
    right
    cases he : c.error with
    | none => rw [he] at hc; cases hc
    | some e => rfl
  rcases h.shut hs steps with h' | h'
  · simp [isOpened, h']
  · obtain ⟨e, he⟩ := Option.isSome_iff_exists.1 h'
    simp [isOpened, he]

/-- **C87** The session found under a local channel is one that speaks on it and has not failed, and no two channels have
the same. -/
theorem c87_session {c : Conn} (h : c.Reachable) {ch : UInt16} {s : Ref} (hs : c.sessionAt ch = some s) :
    (∃ x, c.obj? s = some x ∧ x.id = ch.toNat ∧ x.error = none) ∧ ∀ ch', c.sessionAt ch' = some s → ch' = ch := by
  have get : ∀ ch, c.sessionAt ch = some s → c.sessions.get ch.toNat = some (.established s) := by
    intro ch hs
    unfold sessionAt at hs
    split at hs
    · next t ht => cases hs; exact ht
    · cases hs
  have hg := get ch hs
  obtain ⟨x, hx, hid⟩ := h.reg.slab _ _ s hg rfl
  refine ⟨⟨x, hx, hid, h.noError _ s x ⟨_, hg, rfl, hx⟩⟩, fun ch' hs' => ?_⟩
  obtain ⟨y, hy, hid'⟩ := h.reg.slab _ _ s (get ch' hs') rfl
  rw [hx] at hy
  cases hy
  exact UInt16.toNat_inj.1 (hid'.symm.trans hid)

/-- **C87** A session the connection has marked as being ended is not found, nor one being opened. -/
theorem c87_session_ending {c : Conn} {ch : UInt16} {st : SesState} (h : c.sessions.get ch.toNat = some st)
    (hs : ∀ s, st ≠ .established s) : c.sessionAt ch = none := by
  unfold sessionAt
  rw [h]
  cases st with
  | established s => exact absurd rfl (hs s)
  | _ => rfl

/-- **C87** Violated: `Session::end` marks the session that has the peer's channel number as its own.  The session that was
ended is still found, and the other one is not, though nobody ended it. -/
theorem c87_ended_found : ∃ (c : Conn) (x y : Session), c.Reachable ∧ c.sessionAt 0 = some 0 ∧ c.obj? 0 = some x ∧
    x.ending = true ∧ c.sessionAt 1 = none ∧ c.obj? 1 = some y ∧ y.ending = false ∧ y.error = none :=
  ⟨conn ([peerBegins 1, peerBegins 0] ++ on 0 [.endSession]), _, _, connReachable _, rfl, rfl, rfl, rfl, rfl, rfl, rfl⟩

/-- **C87** Once the connection has failed none is found. -/
theorem c87_session_failed (c : Conn) (e : PErr) (ch : UInt16) : (c.step (.fail e)).sessionAt ch = none := by
  unfold sessionAt
  rw [show (c.step (.fail e)).sessions = .empty from (setError_eq c e).1]
  simp [Slab.get_empty]

/-- **C87** Violated: closing the connection is not seen by those who watch it.  After `close` there is no error, nothing is
told to the waiters of `on_close`, and sessions are found as before; only the transport knows. -/
theorem c87_close_unseen (c : Conn) (e : Option Error) :
    (c.step (.close e)).closeSeen = c.closeSeen ∧ (c.step (.close e)).error = c.error ∧
    (∀ io, (c.step (.close e)).isOpened io = c.isOpened io) ∧ ∀ ch, (c.step (.close e)).sessionAt ch = c.sessionAt ch := by
  refine ⟨?_, rfl, fun _ => rfl, fun _ => rfl⟩
  show ((c.post 0 (.close { error := e })).note .ioClosed).closeSeen = _
  simp [closeSeen, Conn.post, Conn.note]

/-! ## Links -/

/-- **C87** The sender link found under a local handle has that handle, and no two handles have the same link. -/
theorem c87_sender {s : Session} (h : s.Reachable) {k : UInt32} {r : Ref} (hk : s.senderAt k = some r) :
    (∃ l, s.snd? r = some l ∧ l.id = k.toNat) ∧ ∀ k', s.senderAt k' = some r → k' = k := by
  have get : ∀ k, s.senderAt k = some r → s.links.get k.toNat = some (.snd (.established r)) := by
    intro k hk
    unfold senderAt at hk
    split at hk
    · next t ht => cases hk; exact ht
    · cases hk
  obtain ⟨l, hl, hid⟩ := h.sndSlots _ _ (get k hk)
  refine ⟨⟨l, hl, hid⟩, fun k' hk' => ?_⟩
  obtain ⟨l', hl', hid'⟩ := h.sndSlots _ _ (get k' hk')
  rw [hl] at hl'
  cases hl'
  exact UInt32.toNat_inj.1 (hid'.symm.trans hid)

/-- **C87** A sender link the peer has given credit to is found under its handle as long as it is open. -/
theorem c87_sender_found {s : Session} (h : s.Reachable) {r : Ref} {l : Snd} (hl : s.snd? r = some l) (ho : l.closed = false)
    (hc : l.linkCredit ≠ 0) (hfit : l.id < 2 ^ 32) : s.senderAt (UInt32.ofNat l.id) = some r := by
  have := h.liveInv.live r l hl ho (h.credit_stated hl hc)
  unfold senderAt
  rw [UInt32.toNat_ofNat', Nat.mod_eq_of_lt hfit, this]

/-- **C87** The receiver link found under a local handle has that handle, and no two handles have the same link. -/
theorem c87_receiver {s : Session} (h : s.Reachable) {k : UInt32} {r : Ref} (hk : s.receiverAt k = some r) :
    (∃ l, s.rcv? r = some l ∧ l.handle = k) ∧ ∀ k', s.receiverAt k' = some r → k' = k := by
  have get : ∀ k, s.receiverAt k = some r → s.links.get k.toNat = some (.rcv (.established r)) := by
    intro k hk
    unfold receiverAt at hk
    split at hk
    · next t ht => cases hk; exact ht
    · cases hk
  obtain ⟨l, hl, hid⟩ := h.rcvSlots.handle _ _ r (get k hk) rfl
  refine ⟨⟨l, hl, by rw [hid]; simp⟩, fun k' hk' => ?_⟩
  exact UInt32.toNat_inj.1 (h.rcvSlots.unique _ _ _ _ r (get k' hk') (get k hk) rfl rfl)

/-- **C87** When the peer answers the attach of a sender link, the link is found under its name, its local handle and the
handle the peer has given it. -/
theorem c87_named_partial {s : Session} (he : s.error = none) {a : Attach} {k : Nat} {tx : Option Ref}
    (hn : s.linksByName.get a.name = some k) (hk : s.links.get k = some (.snd (.opening tx))) (hfit : k < 2 ^ 32) :
    let s' := s.step (.peer (.attach a))
    let r := s.snds.length
    s'.senderNamed a.name = some r ∧ s'.senderAt (UInt32.ofNat k) = some r ∧ s'.senderOf a.handle = some r ∧
      (s'.snd? r).map (fun l => (l.name, l.id, l.remoteHandle)) = some (a.name, k, a.handle) := by
  obtain ⟨s', h0, h1, h2, h3, h4⟩ : ∃ s', s.step (.peer (.attach a)) = s' ∧ s'.linksByName = s.linksByName ∧
      s'.remoteHandles = s.remoteHandles.insert a.handle k ∧ s'.links = s.links.set k (.snd (.established s.snds.length)) ∧
      s'.snds = s.snds ++ [sndNew k a.name a.handle (a.initialDeliveryCount.getD 0) (a.maxMessageSize.map clampU32)] := by
    refine ⟨_, rfl, ?_⟩
    show (s.onPeer (.attach a)).linksByName = _ ∧ (s.onPeer (.attach a)).remoteHandles = _ ∧
      (s.onPeer (.attach a)).links = _ ∧ (s.onPeer (.attach a)).snds = _
    unfold onPeer
    dsimp only
    rw [if_neg (by rw [note_error, he]; simp)]
    have : (s.note (.peer (.attach a))).linksByName.get a.name = some k := hn
    have hk' : (s.note (.peer (.attach a))).links.get k = some (.snd (.opening tx)) := hk
    unfold onAttach handleAttach
    rw [this]
    dsimp only
    rw [hk']
    cases tx <;> exact ⟨rfl, rfl, rfl, rfl⟩
  intro t r
  have ht : t = s' := h0
  rw [ht]
  have hg : (s.links.set k (.snd (.established s.snds.length))).get k = some (.snd (.established r)) := by
    rw [Slab.get_set _ _ _ _ (by simp [Slab.contains, hk])]; simp [r]
  refine ⟨?_, ?_, ?_, ?_⟩
  · unfold senderNamed
    rw [h1, h3, hn, Option.bind_some, hg]
  · unfold senderAt
    rw [h3, UInt32.toNat_ofNat', Nat.mod_eq_of_lt hfit, hg]
  · unfold senderOf
    rw [h2, h3, Map.get_insert, if_pos rfl, Option.bind_some, hg]
  · unfold snd?
    rw [h4]
    simp [r, sndNew]

/-- **C87** Violated: a link is found under a name it does not have.  Receiver link "q" is attached and closed; sender link
"z" is attached in its slot.  `get_sender_link("q")` returns "z". -/
theorem c87_wrong_name : ∃ s : Session, s.Reachable ∧ s.senderNamed (text "q") = some 0 ∧
    (s.snd? 0).map Snd.name = some (text "z") ∧ (s.snd? 0).map Snd.closed = some false :=
  ⟨(start 0).run [.attachReceiver (anAttach "q" 0 .receiver), .peer (.attach (anAttach "q" 5 .sender)),
    .closeReceiver 0 none, aDetach 5, .attachSender (anAttach "z" 0 .sender), .peer (.attach (anAttach "z" 6 .receiver))],
    reachable _ _ _, rfl, rfl, rfl⟩

/-- **C87** Violated: nor need a link found under a handle of the peer have that handle.  The link attached under handle 5 was
refused, the next one has its slot: both handles lead to it. -/
theorem c87_wrong_remote : ∃ s : Session, s.Reachable ∧ s.receiverOf 5 = some 1 ∧ s.receiverOf 6 = some 1 ∧
    (s.rcv? 1).map Rcv.remoteHandle = some 6 :=
  ⟨(start 0).run refusedThenOther, reachable _ _ _, rfl, rfl, rfl⟩

/-- An attach the peer has not answered yet. -/
example : let s := (start 0).run [.attachSender (anAttach "z" 0 .sender)]
    s.error = none ∧ s.linksByName.get (anAttach "z" 6 .receiver).name = some 0 ∧
      s.links.get 0 = some (.snd (.opening (some 0))) ∧ s.senderNamed (text "z") = none :=
  ⟨rfl, rfl, rfl, rfl⟩

/-- Links and a session that are found; an open connection and one that failed twice. -/
example : let s := (start 10).run [.attachSender (anAttach "z" 0 .sender), .peer (.attach (anAttach "z" 6 .receiver)),
      .attachReceiver (anAttach "q" 0 .receiver), .peer (.attach (anAttach "q" 5 .sender))]
    s.senderAt 0 = some 0 ∧ s.receiverAt 1 = some 0 ∧ s.receiverOf 5 = some 0 ∧ s.receiverAt 0 = none :=
  ⟨rfl, rfl, rfl, rfl⟩

/-- A sender link with credit. -/
example : let s := (start 0).run (attachOne ++ flow (aFlow (some 7) (some 0) (some 5) (some 1) 0))
    (s.snd? 0).map (fun l => (l.id, l.closed, l.linkCredit)) = some (0, false, 5) ∧ s.senderAt 0 = some 0 :=
  ⟨rfl, rfl⟩

example : let c := conn [peerBegins 3]
    c.sessionAt 0 = some 0 ∧ c.isOpened false = true ∧ c.closeSeen = false ∧
      (c.step (.close none)).isOpened false = true ∧ (c.step (.fail .disconnected)).closeSeen = true ∧
      (c.run [.fail .disconnected, .forceClose]).error = some .disconnected :=
  ⟨rfl, rfl, rfl, rfl, rfl, rfl⟩

end Amqp.Rt
