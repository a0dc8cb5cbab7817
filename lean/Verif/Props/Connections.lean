import Verif.Lemmas.ConnectionLog
import Verif.Spec.Examples
import Verif.Props.Blocked
import Verif.Props.Deliveries
/-!
# Connections: channels, control frames, failure

**C35** frames reach the session of their channel, **C36** the channel limit, **C37** a connection error is sticky and
reaches the sessions, **C40** control frames are handed on in order.
-/

namespace Amqp.Rt
open Conn Examples

/-- Frames for sessions; the others are for the connection itself. -/
def ForSession (f : Frame) : Prop := f ≠ .empty ∧ (∀ c, f ≠ .close c) ∧ ∀ b, f ≠ .begin_ b

theorem ForSession.eq {f : Frame} (h : ForSession f) : f.forSession = true := by
  obtain ⟨h1, h2, h3⟩ := h
  cases f <;> first | rfl | exact absurd rfl h1 | exact absurd rfl (h2 _) | exact absurd rfl (h3 _)

theorem recv_forSession {c : Conn} {f : Frame} (h : ForSession f) (ch : UInt16) :
    c.step (.recv ch f) = if c.error.isSome then c.note (.peer ch f) else (c.note (.peer ch f)).sessionFrame ch f := by
  obtain ⟨h1, h2, h3⟩ := h
  show c.handleFrame ch f = _
  unfold handleFrame
  dsimp only
  cases f <;> first | rfl | exact absurd rfl h1 | exact absurd rfl (h2 _) | exact absurd rfl (h3 _)

/-- What is behind the session spoken to on a channel. -/
theorem speaking_some {c : Conn} (h : Conn.Reachable c) (he : c.error = none) {ch : UInt16} {s : Ref}
    (hs : speaking c.log ch = some s) : ∃ tok x, c.sessionsMap.get ch = some tok ∧ c.Registered tok s x ∧
      x.remoteChannelId = ch ∧ x.id = tok := by
  rw [h.speaking he] at hs
  unfold mapped at hs
  cases hm : c.sessionsMap.get ch with
  | none => rw [hm] at hs; cases hs
  | some tok =>
    obtain ⟨s', x, hs', hr, hc, hid⟩ := h.reg.mapped_some hm
    have : s' = s := by
      have h' : c.mapped ch = some s := hs
      rw [hs'] at h'; exact Option.some.inj h'
    subst this
    exact ⟨tok, x, rfl, hr, hc, hid⟩

theorem speaking_none {c : Conn} (h : Conn.Reachable c) (he : c.error = none) {ch : UInt16}
    (hs : speaking c.log ch = none) : c.sessionsMap.get ch = none := by
  cases hm : c.sessionsMap.get ch with
  | none => rfl
  | some tok =>
    obtain ⟨s', x, hs', _⟩ := h.reg.mapped_some hm
    rw [h.speaking he, hs'] at hs
    cases hs

/-! ## C35 -/

/-- **C35** Every session of a connection is a session as the session properties are about: whatever they say of reachable
sessions, they say of it.  It uses the connection's frame size. -/
theorem c35_sessions_reachable (c : Conn) (h : Conn.Reachable c) (s : Ref) (x : Session) (hx : c.obj? s = some x) :
    Session.Reachable x ∧ x.maxFrameSize = c.maxFrameSize := h.objsOk x (obj?_mem hx)

/-- **C35** A frame changes no session but the one spoken to on its channel: the last the peer began there, if it did not
end it since.  Once the connection has failed it changes none. -/
theorem c35_only_its_session (c : Conn) (h : Conn.Reachable c) (ch : UInt16) (f : Frame) (hf : ForSession f) (t : Ref)
    (ht : c.error.isSome ∨ speaking c.log ch ≠ some t) : (c.step (.recv ch f)).obj? t = c.obj? t := by
  by_cases he : c.error.isSome = true
  · rw [recv_forSession hf, if_pos he]; rfl
  · replace ht := ht.resolve_left he
    have he : c.error = none := by simpa using he
    have hsp := h.speaking he ch
    rw [hsp] at ht
    rw [recv_forSession hf, he]
    simp only [Option.isSome_none, Bool.false_eq_true, if_false]
    unfold sessionFrame
    cases hm : c.sessionsMap.get ch with
    | none =>
      have hm' : (c.note (.peer ch f)).sessionsMap.get ch = none := hm
      rw [hm']; rfl
    | some tok =>
      obtain ⟨s, x, hs, ⟨st, hg, hr, hx⟩, hc, hid⟩ := h.reg.mapped_some hm
      have hts : t ≠ s := by rintro rfl; exact ht hs
      have e1 : ((c.note (.peer ch f)).sessionsMap.get ch).bind (c.note (.peer ch f)).sessions.get = some st := by
        show (c.sessionsMap.get ch).bind c.sessions.get = some st
        rw [hm]; exact hg
      rw [e1]
      have hx' : (c.note (.peer ch f)).obj? s = some x := hx
      have un : ∀ (d : Conn) ch, (d.unregister ch).obj? t = d.obj? t := by
        intro d ch; unfold unregister; split <;> rfl
      have gv : ((c.note (.peer ch f)).giveFrame s f).obj? t = c.obj? t := by
        obtain ⟨l, g1, _⟩ := giveFrame_eq f hx'
        rw [obj?_set hx' g1]
        simp only [hts, if_false]; rfl
      cases st with
      | opening op => cases hr
      | established s' =>
        cases hr
        dsimp only
        split
        · rw [un]; exact gv
        · exact gv
      | closing s' =>
        cases hr
        dsimp only
        split
        · rw [un, onSession_obj?]
          simp only [hts, if_false]; rfl
        · rfl

/-- **C35** A frame on a channel nobody is spoken to on is refused, and does nothing else. -/
theorem c35_unknown_refused (c : Conn) (h : Conn.Reachable c) (he : c.error = none) (ch : UInt16) (f : Frame)
    (hf : ForSession f) (hs : speaking c.log ch = none) :
    c.step (.recv ch f) = { c with log := c.log ++ [.peer ch f, .refused (.unknownSession f)] } := by
  rw [recv_forSession hf, if_neg (by simp [he])]
  unfold sessionFrame
  have hm : (c.note (.peer ch f)).sessionsMap.get ch = none := speaking_none h he hs
  rw [hm]
  simp [note]

/-- **C35** The session spoken to on a channel is given the frames on it, provided no session asked for its entry of the slab
to be closed; the session is one whose remote channel this is.

Missing: a session that asks for its own entry to be closed names another one (`c35_end_closes_another`). -/
theorem c35_given_partial (c : Conn) (h : Conn.Reachable c) (he : c.error = none) (ch : UInt16) (f : Frame)
    (hf : ForSession f) (s : Ref) (hs : speaking c.log ch = some s) :
    ∃ x, c.obj? s = some x ∧ x.remoteChannelId = ch ∧
      ((∀ t, .ses t (.closeSession x.id) ∉ c.log) → (c.step (.recv ch f)).obj? s = some (x.step (.peer f))) := by
  obtain ⟨tok, x, hm, ⟨st, hg, hr, hx⟩, hc, hid⟩ := speaking_some h he hs
  refine ⟨x, hx, hc, fun hno => ?_⟩
  rw [recv_forSession hf, he]
  simp only [Option.isSome_none, Bool.false_eq_true, if_false]
  unfold sessionFrame
  have e1 : ((c.note (.peer ch f)).sessionsMap.get ch).bind (c.note (.peer ch f)).sessions.get = some st := by
    show (c.sessionsMap.get ch).bind c.sessions.get = some st
    rw [hm]; exact hg
  rw [e1]
  have hx' : (c.note (.peer ch f)).obj? s = some x := hx
  have un : ∀ (d : Conn) ch, (d.unregister ch).obj? s = d.obj? s := by
    intro d ch; unfold unregister; split <;> rfl
  have gv : ((c.note (.peer ch f)).giveFrame s f).obj? s = some (x.step (.peer f)) := by
    obtain ⟨l, g1, _⟩ := giveFrame_eq f hx'
    rw [obj?_set hx' g1]
    simp
  cases st with
  | opening op => cases hr
  | established s' =>
    cases hr
    dsimp only
    split
    · rw [un]; exact gv
    · exact gv
  | closing s' =>
    cases hr
    obtain ⟨t, ht⟩ := h.closing tok s hg
    rw [← hid] at ht
    exact absurd ht (hno t)

/-- **C35** A session is spoken to on one channel at most. -/
theorem c35_one_channel (c : Conn) (h : Conn.Reachable c) (he : c.error = none) (ch ch' : UInt16) (s : Ref)
    (h1 : speaking c.log ch = some s) (h2 : speaking c.log ch' = some s) : ch = ch' := by
  obtain ⟨_, x, _, ⟨_, _, _, hx⟩, hc, _⟩ := speaking_some h he h1
  obtain ⟨_, x', _, ⟨_, _, _, hx'⟩, hc', _⟩ := speaking_some h he h2
  rw [hx] at hx'; cases hx'
  exact hc.symm.trans hc'

/-- **C35** A `Begin` of the peer makes a new session, spoken to on the peer's channel, and is answered: the answer goes out
on the session's own channel, names the peer's, and announces the ids and the window the session starts with. -/
theorem c35_begin_answered (c : Conn) (ch : UInt16) (b : Begin) (hb : b.remoteChannel = none) :
    ∃ f x, (c.step (.recv ch (.begin_ b))).log = c.log ++
        [.peer ch (.begin_ b), .begun ch c.objs.length, .frame (UInt16.ofNat x.id) (.begin_ f)] ∧
      (c.step (.recv ch (.begin_ b))).objs = c.objs ++ [x] ∧ x.remoteChannelId = ch ∧ f.remoteChannel = some ch ∧
      f.nextOutgoingId = x.nextOutgoingId ∧ f.incomingWindow = 0xffffffff ∧ f.outgoingWindow = b.incomingWindow ∧
      f.handleMax = 0xffffffff ∧ f.offeredCapabilities = none ∧ f.desiredCapabilities = none ∧ f.properties = none := by
  show ∃ f x, (c.handleFrame ch (.begin_ b)).log = _ ∧ (c.handleFrame ch (.begin_ b)).objs = _ ∧ _
  unfold handleFrame
  simp only [hb]
  refine ⟨{ remoteChannel := some ch, nextOutgoingId := 1, incomingWindow := 0xffffffff, outgoingWindow := b.incomingWindow,
            handleMax := 0xffffffff, offeredCapabilities := none, desiredCapabilities := none, properties := none },
    Session.new c.sessions.vacantKey false c.maxFrameSize ch b,
    ?_, rfl, rfl, rfl, rfl, rfl, rfl, rfl, rfl, rfl, rfl⟩
  simp [registerRemote, post, note, beginFrame, Session.new]

/-- **C35** A `Begin` that answers one sent on channel `l` makes the session asked for there; what is not asked for, or is
answered already, makes none. -/
theorem c35_begin_completes (c : Conn) (ch l : UInt16) (b : Begin) (hb : b.remoteChannel = some l) :
    (∀ op, c.sessions.get l.toNat = some (.opening op) →
      ∃ x, (c.step (.recv ch (.begin_ b))).log = c.log ++
          [.peer ch (.begin_ b), .begun ch c.objs.length, .opened op c.objs.length] ∧
        (c.step (.recv ch (.begin_ b))).objs = c.objs ++ [x] ∧ x.remoteChannelId = ch ∧ x.id = l.toNat ∧
        (c.step (.recv ch (.begin_ b))).sessions.get l.toNat = some (.established c.objs.length)) ∧
    ((∀ op, c.sessions.get l.toNat ≠ some (.opening op)) →
      c.step (.recv ch (.begin_ b)) = { c with log := c.log ++ [.peer ch (.begin_ b)] }) := by
  show (∀ op, _ → ∃ x, (c.handleFrame ch (.begin_ b)).log = _ ∧ (c.handleFrame ch (.begin_ b)).objs = _ ∧ _ ∧ _ ∧
    (c.handleFrame ch (.begin_ b)).sessions.get l.toNat = _) ∧ (_ → c.handleFrame ch (.begin_ b) = _)
  unfold handleFrame
  simp only [hb]
  unfold completeLocal
  constructor
  · intro op ho
    have ho' : (c.note (.peer ch (.begin_ b))).sessions.get l.toNat = some (.opening op) := ho
    rw [ho']
    refine ⟨Session.new l.toNat true c.maxFrameSize ch b, ?_, rfl, rfl, rfl, ?_⟩
    · show ((c.log ++ [_]) ++ [_]) ++ [_] = _
      rw [List.append_assoc, List.append_assoc]; rfl
    · show (c.sessions.set l.toNat _).get l.toNat = _
      rw [Slab.get_set _ _ _ _ (by simp [Slab.contains, ho])]
      simp [note]
  · intro ho
    split
    · next op h => exact absurd h (ho op)
    · rfl

/-- **C35** Two sessions in the slab have different local channels, as long as these are channel numbers.

Missing: keys of the slab from 65536 on are cut down to 16 bits (`c35_local_channel_shared`). -/
theorem c35_local_distinct_partial (c : Conn) (h : Conn.Reachable c) (tok tok' : Nat) (s s' : Ref) (x x' : Session)
    (h1 : c.Registered tok s x) (h2 : c.Registered tok' s' x') (hne : s ≠ s') :
    x.id ≠ x'.id ∧ (x.id < 65536 → x'.id < 65536 → UInt16.ofNat x.id ≠ UInt16.ofNat x'.id) := by
  obtain ⟨st, hg, hr, hx⟩ := h1
  obtain ⟨st', hg', hr', hx'⟩ := h2
  obtain ⟨y, hy, hid⟩ := h.reg.slab _ _ _ hg hr
  obtain ⟨y', hy', hid'⟩ := h.reg.slab _ _ _ hg' hr'
  rw [hx] at hy; cases hy
  rw [hx'] at hy'; cases hy'
  have hne' : x.id ≠ x'.id := by
    intro e
    rw [← hid, e, hid', hg'] at hg
    cases hg
    rw [hr'] at hr
    exact hne (Option.some.inj hr).symm
  refine ⟨hne', fun hl hl' e => hne' ?_⟩
  have := congrArg UInt16.toNat e
  simp only [UInt16.toNat_ofNat'] at this
  omega

/-! ## C36 -/

/-- **C36** This side begins sessions only on channels below its own `channel-max`.

Missing: the peer's `channel-max` is not looked at (`c36_peer_limit_ignored`). -/
theorem c36_own_limit_partial (cfg : ConnCfg) (steps : List CStep) (ch : UInt16)
    (h : ch ∈ begunHere ((Conn.new cfg).run steps).log) : ch < cfg.localChannelMax := by
  have := (run_micros (Conn.new cfg) steps).invariant
    (P := fun c => c.channelMax = cfg.localChannelMax ∧ ∀ ch ∈ begunHere c.log, ch < cfg.localChannelMax) ?_
    ⟨rfl, fun ch h => by cases h⟩
  · exact this.2 ch h
  · rintro c d m ⟨hm, ih⟩
    have app : ∀ l : List CEv, begunHere l = [] → ∀ ch ∈ begunHere (c.log ++ l), ch < cfg.localChannelMax := by
      intro l hl ch h
      unfold begunHere at h hl
      rw [List.filterMap_append, hl, List.append_nil] at h
      exact ih ch h
    have ses : ∀ (s : Ref) (evs : List Ev), begunHere (evs.map (.ses s)) = [] := by
      intro s evs
      unfold begunHere
      rw [List.filterMap_map, List.filterMap_eq_nil_iff]
      intro e _; rfl
    cases m
    case note e he =>
      refine ⟨hm, app [e] ?_⟩
      cases e <;> try rfl
      case frame ch f =>
        cases f <;> try rfl
        case begin_ b =>
          have : b.remoteChannel ≠ none := he
          simp [begunHere, this]
    case calls l hl =>
      refine ⟨hm, app l (List.filterMap_eq_nil_iff.2 ?_)⟩
      intro e he
      obtain ⟨s, t, rfl⟩ := hl e he
      rfl
    case session s x st hx =>
      obtain ⟨evs, _, _, _, _, h4, _, _, _, h8, _⟩ := onSession_eq st hx
      exact ⟨h4.trans hm, by rw [h8]; exact app _ (ses s evs)⟩
    case register ch b =>
      refine ⟨hm, ?_⟩
      show ∀ ch ∈ begunHere ((c.log ++ [_]) ++ [_]), _
      rw [List.append_assoc]
      exact app _ rfl
    case complete tok op ch b hs =>
      unfold completeLocal
      rw [hs]
      refine ⟨hm, ?_⟩
      show ∀ ch ∈ begunHere ((c.log ++ [_]) ++ [_]), _
      rw [List.append_assoc]
      exact app _ rfl
    case unregister ch => unfold unregister; split <;> exact ⟨hm, ih⟩
    case opening op off des props hlt =>
      refine ⟨hm, fun ch h => ?_⟩
      have h : ch ∈ begunHere (c.log ++ [.frame (UInt16.ofNat c.sessions.vacantKey) (beginFrame none 0xffffffff off des props)]) := h
      unfold begunHere at h
      rw [List.filterMap_append] at h
      rcases List.mem_append.1 h with h | h
      · exact ih ch h
      · simp only [beginFrame, List.filterMap_cons, List.filterMap_nil, if_true, List.mem_singleton] at h
        subst h
        rw [hm] at hlt
        rw [UInt16.lt_iff_toNat_lt, UInt16.toNat_ofNat']
        have := cfg.localChannelMax.toNat_lt
        omega
    case poll =>
      refine ⟨hm, app _ (List.filterMap_eq_nil_iff.2 ?_)⟩
      intro e he
      obtain ⟨q, _, rfl⟩ := List.mem_map.1 he
      rfl
    all_goals exact ⟨hm, ih⟩

/-- **C36** When the next free channel is not below the limit, `open_session` fails with `TooManyChannels`: no frame is sent
and no session is made. -/
theorem c36_too_many (c : Conn) (he : c.error = none) (off des props) (hfull : c.channelMax.toNat ≤ c.sessions.vacantKey) :
    c.step (.openSession off des props) =
      { c with ops := c.ops + 1, log := c.log ++ [.openFailed c.ops .tooManyChannels] } := by
  show c.openSession off des props = _
  unfold openSession
  simp [he, hfull, note]

/-- **C36** And below the limit it does not fail: the `Begin` goes out on that channel. -/
theorem c36_begins (c : Conn) (he : c.error = none) (off des props) (hfree : c.sessions.vacantKey < c.channelMax.toNat) :
    ∃ f, (c.step (.openSession off des props)).log = c.log ++ [.frame (UInt16.ofNat c.sessions.vacantKey) (.begin_ f)] ∧
      f.remoteChannel = none ∧ f.offeredCapabilities = off ∧ f.desiredCapabilities = des ∧ f.properties = props := by
  show ∃ f, (c.openSession off des props).log = _ ∧ _
  unfold openSession
  simp only [he, ge_iff_le, Nat.not_le.2 hfree, if_false]
  exact ⟨_, rfl, rfl, rfl, rfl, rfl⟩

/-! ## C40 -/

/-- **C40** The control frames that sessions queued are those handed to the control service, in the order in which they were
queued, each once, followed by those still in the queue. -/
theorem c40_in_order_once (c : Conn) (h : Conn.Reachable c) : queuedCtl c.log = handedCtl c.log ++ c.queue := h.control

/-- **C40** After the dispatcher was polled none is left. -/
theorem c40_poll_hands_all (c : Conn) (h : Conn.Reachable c) :
    queuedCtl (c.step .poll).log = handedCtl (c.step .poll).log := by
  have := (h.step .poll).control
  rw [this]
  show _ ++ [] = _
  simp

/-! ## C37 -/

/-- **C37** The first error of a connection is kept. -/
theorem c37_first_error_kept (c : Conn) (e : PErr) (h : c.error = some e) (steps : List CStep) :
    (c.run steps).error = some e := by
  refine (run_micros c steps).invariant (P := fun c => c.error = some e) ?_ h
  intro c d m h
  cases m
  case session s x st hx =>
    obtain ⟨_, _, _, _, h3, _⟩ := onSession_eq st hx
    exact h3.trans h
  case complete tok op ch b hs => unfold completeLocal; rw [hs]; exact h
  case unregister ch => unfold unregister; split <;> exact h
  case setErr e' he => rw [h] at he; cases he
  all_goals exact h

/-- **C37** Failing sets the error, if there is none yet; no session remains registered. -/
theorem c37_fails (c : Conn) (e : PErr) :
    (c.step (.fail e)).error = some (c.error.getD e) ∧ (c.step (.fail e)).sessions = .empty ∧
      (c.step (.fail e)).sessionsMap = .empty :=
  let h := setError_eq c e
  ⟨h.2.2, h.1, h.2.1⟩

theorem setError_snd (s : Session) (e : PErr) (r : Ref) (h : s.Sends r) (l : Snd) (hl : (s.setError e).snd? r = some l) :
    l.error = some e ∧ l.closed = true := by
  open Session in
  have step1 : ∀ (x : Link) (s : Session), (x = .snd (.established r) ∨ ∀ l, s.snd? r = some l → l.error = some e ∧ l.closed = true) →
      ∀ l, (failLink e s x).snd? r = some l → l.error = some e ∧ l.closed = true := by
    intro x s h l hl
    unfold failLink at hl
    split at hl
    · next r' =>
      rw [sndRemoteDetached_snd?] at hl
      split at hl
      · obtain ⟨y, _, rfl⟩ := Option.map_eq_some_iff.mp hl; exact ⟨rfl, rfl⟩
      · next hne =>
        rcases h with h | h
        · simp only [Link.snd.injEq, SndState.established.injEq] at h; exact absurd h hne
        · exact h l hl
    · exact (h.resolve_left (by simp)) l hl
    · exact (h.resolve_left (by simp)) l hl
    · next h₁ _ _ => exact (h.resolve_left (fun h' => h₁ r h')) l hl
  have clear1 : ∀ (x : Link) (s : Session), (∀ l, s.snd? r = some l → l.error = some e ∧ l.closed = true) →
      ∀ l, (clearLink s x).snd? r = some l → l.error = some e ∧ l.closed = true := by
    intro x s h l hl
    unfold clearLink at hl
    split at hl
    · exact h l hl
    · unfold dropLink at hl
      split at hl
      · rw [modSnd_snd?] at hl
        split at hl
        · obtain ⟨y, hy, rfl⟩ := Option.map_eq_some_iff.mp hl
          exact ⟨(h y hy).1, rfl⟩
        · exact h l hl
      all_goals exact h l hl
  have clear : ∀ (xs : List Link) (s : Session), (∀ l, s.snd? r = some l → l.error = some e ∧ l.closed = true) →
      ∀ l, (xs.foldl clearLink s).snd? r = some l → l.error = some e ∧ l.closed = true := by
    intro xs
    induction xs with
    | nil => intro s h; exact h
    | cons x xs ih => intro s h; exact ih _ (clear1 x s h)
  have fail : ∀ (xs : List Link) (s : Session),
      (.snd (.established r) ∈ xs ∨ ∀ l, s.snd? r = some l → l.error = some e ∧ l.closed = true) →
      ∀ l, (xs.foldl (failLink e) s).snd? r = some l → l.error = some e ∧ l.closed = true := by
    intro xs
    induction xs with
    | nil => intro s h; exact h.resolve_left (by simp)
    | cons x xs ih =>
      intro s h
      refine ih _ ?_
      rcases h with h | h
      · rcases List.mem_cons.mp h with h | h
        · exact .inr (step1 x s (.inl h.symm))
        · exact .inl h
      · exact .inr (step1 x s (.inr h))
  obtain ⟨k, hk⟩ := h
  unfold Session.setError clearLinks at hl
  refine clear _ _ (fun l hl => ?_) l hl
  have hl : (failLinks _ e).snd? r = some l := hl
  unfold failLinks at hl
  refine fail _ _ (.inl (Slab.mem_values (k := k) ?_)) l hl
  simpa [drainPending] using hk

/-- What a failure does to a session: its error is set; its sender links have it and are closed; no send waits for the
session window, nor for the credit of a link that is attached; no `wait` for a delivery sent is blocked. -/
structure Told (x y : Session) (e : PErr) : Prop where
  error : y.error = some e
  links : ∀ r l, (∃ k, x.links.get k = some (.snd (.established r))) → y.snd? r = some l → l.error = some e ∧ l.closed = true
  window : ∀ (t : Ref) req tag, y.sends[t]? ≠ some ⟨req, .window tag none⟩
  credit : ∀ (t : Ref) req tag, (∃ k, x.links.get k = some (.snd (.established req.link))) →
    y.sends[t]? ≠ some ⟨req, .credit tag none⟩
  waits : begun y.log < 2 ^ 32 → ∀ (w d : Ref) z, y.dlv? d = some z → z.sender = true →
    y.waits[w]? ≠ some ⟨d, .waiting none⟩

theorem told_fail (x : Session) (hx : Session.Reachable x) (e : PErr) : Told x (x.step (.fail e)) e where
  error := step_fail_error x e
  links := fun r l h hl => setError_snd x e r h l hl
  window := fun t req tag => (c26_failure_releases_partial x hx e t req tag).1
  credit := fun t req tag => (c26_failure_releases_partial x hx e t req tag).2
  waits := fun hb w d z hz hs => c29_failure_releases x hx e hb w d z hz hs

/-- **C37** Failing reaches every established session; a session that is not established (and not being opened) is left as
it was.

Missing: sessions that are being ended are not told (`c37_closing_not_told`); receiver links are closed without the error
(`c37_receiver_not_told`); sessions being opened fail with another error (`c37_opening_other_error`). -/
theorem c37_established_told_partial (c : Conn) (h : Conn.Reachable c) (e : PErr) (s : Ref) (x : Session)
    (hx : c.obj? s = some x) :
    ((∃ k, c.sessions.get k = some (.established s)) →
      ∃ y, (c.step (.fail e)).obj? s = some y ∧ Told x y e) ∧
    ((¬ ∃ k, c.sessions.get k = some (.established s)) → (c.step (.fail e)).obj? s = some x) := by
  classical
  have := setError_obj? h.reg e s
  constructor
  · intro hk
    rw [if_pos hk, hx] at this
    exact ⟨_, this, told_fail x (c35_sessions_reachable c h s x hx).1 e⟩
  · intro hk
    rw [if_neg hk, hx] at this
    exact this

/-- **C37** So do the peer's `Close`, and dropping the connection. -/
theorem c37_close_told_partial (c : Conn) (h : Conn.Reachable c) (s : Ref) (x : Session) (k : Nat)
    (hx : c.obj? s = some x) (hk : c.sessions.get k = some (.established s)) :
    (∃ y, (c.step .forceClose).obj? s = some y ∧ Told x y .connectionDropped) ∧
    ∀ ch close, c.state ≠ .closing →
      ∃ y, (c.step (.recv ch (.close close))).obj? s = some y ∧ Told x y (.closed close.error) := by
  have hr := (c35_sessions_reachable c h s x hx).1
  have go : ∀ (d : Conn) (e : PErr), d.Reg → d.sessions = c.sessions → d.objs = c.objs →
      (d.setError e).obj? s = some (x.step (.fail e)) := by
    intro d e hd h1 h2
    classical
    rw [setError_obj? hd, if_pos ⟨k, by rw [h1]; exact hk⟩]
    have : d.obj? s = some x := by unfold obj? at *; rw [h2]; exact hx
    rw [this]; rfl
  constructor
  · refine ⟨_, ?_, told_fail x hr _⟩
    exact go ({ c with state := .drop }.note .ioClosed) .connectionDropped
      (CMicro.reg (.note .ioClosed trivial) (CMicro.reg (.state _) h.reg)) rfl rfl
  · intro ch close hst
    refine ⟨_, ?_, told_fail x hr _⟩
    show (c.handleFrame ch (.close close)).obj? s = _
    unfold handleFrame
    dsimp only
    have : (c.note (.peer ch (.close close))).state ≠ .closing := hst
    rw [if_neg this]
    exact go (c.note (.peer ch (.close close))) (.closed close.error)
      (CMicro.reg (.note (.peer ch (.close close)) trivial) h.reg) rfl rfl

/-- **C37** A session's error is never replaced by another one. -/
theorem c37_session_error_kept (c : Conn) (h : Conn.Reachable c) (s : Ref) (x : Session) (hx : c.obj? s = some x) (e : PErr)
    (he : x.error = some e) (steps : List CStep) : ∃ y, (c.run steps).obj? s = some y ∧ y.error = some e := by
  suffices hstep : ∀ (c : Conn) st, Conn.Reachable c → (∃ y, c.obj? s = some y ∧ y.error = some e) →
      ∃ y, (c.step st).obj? s = some y ∧ y.error = some e by
    have : ∀ (steps : List CStep) (c : Conn), Conn.Reachable c → (∃ y, c.obj? s = some y ∧ y.error = some e) →
        ∃ y, (c.run steps).obj? s = some y ∧ y.error = some e := by
      intro steps
      induction steps with
      | nil => intro c _ h; exact h
      | cons st l ih => intro c hr h; exact ih _ (hr.step st) (hstep c st hr h)
    exact this steps c h ⟨x, hx, he⟩
  rintro c st hr ⟨y, hy, hye⟩
  have hno : ∀ tok, ¬ ∃ z, c.Registered tok s z := by
    rintro tok ⟨z, hz⟩
    have hz' := hr.noError _ _ _ hz
    obtain ⟨_, _, _, hz⟩ := hz
    rw [hy] at hz; cases hz
    rw [hye] at hz'; cases hz'
  cases step_shape hr.reg st with
  | quiet l h _ _ => exact ⟨y, by unfold obj? at *; rw [h.1]; exact hy, hye⟩
  | session t z st' l hz ho hs hm he' hst hl hp =>
    rw [obj?_set hz ho]
    by_cases ht : s = t
    · subst ht
      rw [hy] at hz; cases hz
      exact ⟨y.step st', by simp, by rw [Session.step_error _ _ hst]; exact hye⟩
    · exact ⟨y, by simp [ht, hy], hye⟩
  | ended ch f tok t z st' l₁ l₂ sl hm hr' ho hst hs hs' hm' he' he'' hl hp =>
    have hreg := hr'
    obtain ⟨_, _, _, hz⟩ := hr'
    rw [obj?_set hz ho]
    by_cases ht : s = t
    · subst ht
      exact absurd ⟨z, hreg⟩ (hno tok)
    · exact ⟨y, by simp [ht, hy], hye⟩
  | begun ch tok b isL l₁ l₂ hfree ho hs hm he' hl hp =>
    rw [obj?_append ho]
    exact ⟨y, by simp [show s ≠ c.objs.length from Nat.ne_of_lt (obj?_lt hy), hy], hye⟩
  | opening op l ho hs hm he' hl hp => exact ⟨y, by unfold obj? at *; rw [ho]; exact hy, hye⟩
  | failed e' ho hs hm he' =>
    classical
    refine ⟨y, ?_, hye⟩
    rw [ho, setError_obj? hr.reg, if_neg, hy]
    rintro ⟨k, hk⟩
    exact hno k ⟨y, _, hk, rfl, hy⟩

/-- **C37** Once the connection has failed, a frame for a session changes nothing.

Missing: `Begin` frames are still obeyed (`c37_begin_after_failure`). -/
theorem c37_frames_ignored_partial (c : Conn) (e : PErr) (h : c.error = some e) (ch : UInt16) (f : Frame)
    (hf : ForSession f) : c.step (.recv ch f) = { c with log := c.log ++ [.peer ch f] } := by
  rw [recv_forSession hf, if_pos (by simp [h])]; rfl

/-- **C37** And no session can be opened by this side: it fails with the connection's error. -/
theorem c37_open_refused (c : Conn) (e : PErr) (h : c.error = some e) (off des props) :
    c.step (.openSession off des props) = { c with ops := c.ops + 1, log := c.log ++ [.openFailed c.ops e] } := by
  show c.openSession off des props = _
  unfold openSession
  rw [h]
  rfl

end Amqp.Rt
