import Verif.Spec.Serving
import Verif.Lemmas.SessionAccept
import Verif.Lemmas.RouterTrace
import Verif.Props.Receiving
import Verif.Props.Router
/-!
# What the router does when nothing gets in its way
-/

namespace Amqp.Rt
open Session

/-! ## Credit -/

/-- The event uses a unit of the link's credit, if there is any. -/
def Ev.uses (r : Ref) : Ev → Bool
  | .received r' t | .declined r' t => r' == r && !t.head.more
  | _ => false

theorem creditAfter_zero {r : Ref} {c : UInt32} {e : Ev} (hu : e.uses r = false) (hc : c ≠ 0)
    (hg : ∀ n, e = .granted r n → c.toNat + n.toNat < 2 ^ 32) : creditAfter r c e ≠ 0 := by
  cases e
  case granted r' n =>
    dsimp only [creditAfter]
    split
    · next h =>
      subst h
      have := hg n rfl
      intro h0
      have h1 : (c + n).toNat = 0 := by rw [h0]; rfl
      rw [UInt32.toNat_add, Nat.mod_eq_of_lt this] at h1
      exact hc (UInt32.toNat_inj.mp (by simpa using Nat.eq_zero_of_add_eq_zero_right h1))
    · exact hc
  case received r' t =>
    dsimp only [creditAfter]
    rw [if_neg (by simp [Ev.uses] at hu; grind)]
    exact hc
  case declined r' t =>
    dsimp only [creditAfter]
    rw [if_neg (by simp [Ev.uses] at hu; grind)]
    exact hc
  all_goals exact hc

theorem CreditFits.prefix {r : Ref} {a b : List Ev} (h : CreditFits r (a ++ b)) : CreditFits r a :=
  fun pre n post he => h pre n (post ++ b) (by simp [he])

theorem creditLeft_kept {r : Ref} {log evs : List Ev} (hf : CreditFits r (log ++ evs)) (hu : ∀ e ∈ evs, e.uses r = false)
    (hc : creditLeft r log ≠ 0) : creditLeft r (log ++ evs) ≠ 0 := by
  induction evs using List.reverseRecOn with
  | nil => simpa using hc
  | append_singleton evs e ih =>
    rw [← List.append_assoc] at hf ⊢
    have ih := ih hf.prefix fun e he => hu e (by simp [he])
    rw [creditLeft_append]
    exact creditAfter_zero (hu e (by simp)) ih fun n he => hf _ n [] (by rw [he])

theorem creditLeft_granted {r : Ref} {log evs : List Ev} (hf : CreditFits r (log ++ evs)) (hu : ∀ e ∈ evs, e.uses r = false)
    {n : UInt32} (hn : n ≠ 0) (hg : .granted r n ∈ evs) : creditLeft r (log ++ evs) ≠ 0 := by
  obtain ⟨a, b, rfl⟩ := List.append_of_mem hg
  rw [show log ++ (a ++ .granted r n :: b) = (log ++ a ++ [.granted r n]) ++ b by simp] at hf ⊢
  refine creditLeft_kept hf (fun e he => hu e (by simp [he])) ?_
  have hb := hf.prefix _ n [] rfl
  rw [creditLeft_append]
  show creditAfter r _ (.granted r n) ≠ 0
  dsimp only [creditAfter]
  rw [if_pos rfl]
  intro h0
  have h1 : (creditLeft r (log ++ a) + n).toNat = 0 := by rw [h0]; rfl
  rw [UInt32.toNat_add, Nat.mod_eq_of_lt hb] at h1
  exact hn (UInt32.toNat_inj.mp (by simpa using Nat.eq_zero_of_add_eq_zero_left h1))

/-! ## One step of a session -/

theorem uses_arrival {r : Ref} {e : Ev} (h : e.arrival = false) : e.uses r = false := by
  cases e <;> first | rfl | cases h

theorem arrivals_append {s s' : Session} {evs : List Ev} (h : s'.log = s.log ++ evs) :
    s'.arrivals = s.arrivals ++ evs.filter Ev.arrival := by
  unfold arrivals
  rw [h, List.filter_append]

/-- How many messages are complete. -/
def Session.doneOn (s : Session) (r : Ref) : Nat := (assemble (receivedOn r s.log)).done.length

/-- How many of them were taken. -/
def Session.takenOn (s : Session) (r : Ref) : Nat := (handedOn r s.log).length

theorem handedOn_arrivals (r : Ref) (s : Session) : handedOn r s.log = handedOn r s.arrivals := by
  unfold handedOn arrivals
  rw [List.filterMap_filter]
  congr 1
  funext e
  cases e <;> rfl

theorem doneOn_arrivals {s s' : Session} (h : s'.arrivals = s.arrivals) (r : Ref) : s'.doneOn r = s.doneOn r := by
  unfold doneOn
  rw [receivedOn_arrivals, h, ← receivedOn_arrivals]

theorem takenOn_arrivals {s s' : Session} (h : s'.arrivals = s.arrivals) (r : Ref) : s'.takenOn r = s.takenOn r := by
  unfold takenOn
  rw [handedOn_arrivals, h, ← handedOn_arrivals]

theorem assemble_add (ts : List Transfer) (t : Transfer) :
    (assemble (ts ++ [t])).done.length = (assemble ts).done.length + if t.head.more then 0 else 1 := by
  show ((ts ++ [t]).foldl Assembly.add _).done.length = _
  rw [List.foldl_append]
  show ((assemble ts).add t).done.length = _
  unfold Assembly.add
  dsimp only
  split <;> simp [*]

/-- Nothing arrives on the link or is taken from it, and none of its credit is used. -/
structure LinkStill (r : Ref) (s s' : Session) : Prop where
  log : ∃ evs, s'.log = s.log ++ evs ∧ ∀ e ∈ evs, e.uses r = false
  done : s'.doneOn r = s.doneOn r
  handed : handedOn r s'.log = handedOn r s.log
  closed : ∀ l, s.rcv? r = some l → ∃ l', s'.rcv? r = some l' ∧ (l.closed = true → l'.closed = true)

theorem LinkStill.refl (r : Ref) (s : Session) : LinkStill r s s :=
  ⟨⟨[], by simp, by simp⟩, rfl, rfl, fun l h => ⟨l, h, fun h => h⟩⟩

theorem LinkStill.trans {r : Ref} {s s' s'' : Session} (h : LinkStill r s s') (h' : LinkStill r s' s'') : LinkStill r s s'' := by
  obtain ⟨⟨evs, hl, hu⟩, hd, hh, hc⟩ := h
  obtain ⟨⟨evs', hl', hu'⟩, hd', hh', hc'⟩ := h'
  refine ⟨⟨evs ++ evs', by rw [hl', hl, List.append_assoc], ?_⟩, hd'.trans hd, hh'.trans hh, fun l hr => ?_⟩
  · intro e he
    rcases List.mem_append.mp he with he | he
    · exact hu e he
    · exact hu' e he
  · obtain ⟨l', hr', h1⟩ := hc l hr
    obtain ⟨l'', hr'', h2⟩ := hc' l' hr'
    exact ⟨l'', hr'', h2 ∘ h1⟩

theorem step_closed (s : Session) (st : Step) (r : Ref) (l : Rcv) (hr : s.rcv? r = some l) :
    ∃ l', (s.step st).rcv? r = some l' ∧ (l.closed = true → l'.closed = true) := by
  obtain ⟨l', hr', _⟩ := step_rcv_kept st hr
  refine ⟨l', hr', fun hc => ?_⟩
  obtain ⟨l'', hr'', hc''⟩ := step_rcv_closed hr hc st
  rw [hr'] at hr''
  cases hr''
  exact hc''

/-- A step whose arrivals do not concern the link. -/
theorem still_of_arrivals {s : Session} {st : Step} {r : Ref} {evs : List Ev}
    (ha : (s.step st).arrivals = s.arrivals ++ evs) (hu : ∀ e ∈ evs, e.uses r = false)
    (hr : receivedOn r evs = [] ∨ ∃ t, receivedOn r evs = [t] ∧ t.head.more = true) (hh : handedOn r evs = []) :
    LinkStill r s (s.step st) := by
  obtain ⟨evs', hl⟩ := s.step_log st
  have he : evs'.filter Ev.arrival = evs := by
    have := arrivals_append hl
    rw [ha] at this
    exact (List.append_cancel_left this).symm
  refine ⟨⟨evs', hl, fun e he' => ?_⟩, ?_, ?_, step_closed s st r⟩
  · cases hea : e.arrival with
    | false => exact uses_arrival hea
    | true => exact hu e (he ▸ List.mem_filter.mpr ⟨he', hea⟩)
  · unfold doneOn
    rw [receivedOn_arrivals, ha, receivedOn_append, ← receivedOn_arrivals]
    rcases hr with hr | ⟨t, hr, hm⟩
    · rw [hr, List.append_nil]
    · rw [hr, assemble_add, hm]; rfl
  · rw [handedOn_arrivals, ha, handedOn_append, hh, List.append_nil, ← handedOn_arrivals]

theorem still_step {s : Session} {st : Step} (r : Ref) (hm : st.moves = false) : LinkStill r s (s.step st) :=
  still_of_arrivals (evs := []) (by rw [step_arrivals s hm, List.append_nil]) (by simp) (.inl rfl) rfl

theorem still_take {s : Session} {r r' : Ref} (h : r' ≠ r) : LinkStill r s (s.step (.take r')) := by
  have ha := getDelivery_arrivals s r'
  rw [show (s.getDelivery r').1 = s.step (.take r') from rfl] at ha
  refine still_of_arrivals ha ?_ ?_ ?_
  all_goals split
  · simp [Ev.uses]
  · simp
  · exact .inl (by simp [receivedOn])
  · exact .inl rfl
  · simp [handedOn, h]
  · rfl

theorem still_recv {s : Session} {r r' : Ref} (h : r' ≠ r) : LinkStill r s (s.step (.recv r')) := by
  have h' := pollRecv_arrivals s r'
  rw [show (s.pollRecv r').1 = s.step (.recv r') from rfl] at h'
  rcases h' with ha | ⟨d, t, ha⟩
  · exact still_of_arrivals (evs := []) (by rw [List.append_nil]; exact ha) (by simp) (.inl rfl) rfl
  · exact still_of_arrivals ha (by simp [Ev.uses]) (.inl (by simp [receivedOn])) (by simp [handedOn, h])

theorem still_finishAttach (s : Session) (r r' : Ref) (e : Option Error) : LinkStill r s (s.finishAttach r' e) := by
  rcases Router.finishAttach_step s r' e with h | ⟨i, resp, _, h⟩
  · rw [h]; exact .refl r s
  · rw [h]; exact still_step r rfl

/-- What a step of the session does to a link, if the application takes nothing from it. -/
theorem sess_cases {s : Session} (hs : s.Reachable) {st : Step} {r : Ref} (ht : st ≠ .take r) (hr : st ≠ .recv r) :
    LinkStill r s (s.step st) ∨
    ((s.step st).doneOn r = s.doneOn r + 1 ∧ handedOn r (s.step st).log = handedOn r s.log ∧
      s.messages true st = [.transfer r]) ∨
    ((s.step st).doneOn r = s.doneOn r ∧ handedOn r (s.step st).log = handedOn r s.log ∧
      ∃ l, (s.step st).rcv? r = some l ∧ l.closed = true) := by
  by_cases hm : st.moves = true
  · cases st <;> simp only [Step.moves] at hm <;> try (cases hm; done)
    case take r' => exact .inl (still_take fun h => ht (by rw [h]))
    case recv r' => exact .inl (still_recv fun h => hr (by rw [h]))
    case peer f =>
      cases f <;> simp only at hm <;> try (cases hm; done)
      case transfer t =>
        rcases transfer_arrivals hs t with ⟨h, _⟩ | ⟨r', _, h, hact⟩ | ⟨r', h, l, hl, hc⟩
        · exact .inl (still_of_arrivals (evs := []) (by rw [List.append_nil]; exact h) (by simp) (.inl rfl) rfl)
        · by_cases he : r' = r
          · subst he
            cases hmore : t.head.more with
            | true =>
              exact .inl (still_of_arrivals h (by simp [Ev.uses, hmore]) (.inr ⟨t, by simp [receivedOn], hmore⟩) (by simp [handedOn]))
            | false =>
              refine .inr (.inl ⟨?_, ?_, ?_⟩)
              · unfold doneOn
                rw [receivedOn_arrivals, h, receivedOn_append, ← receivedOn_arrivals,
                  show receivedOn r' [.received r' t] = [t] by simp [receivedOn], assemble_add, hmore]
                rfl
              · rw [handedOn_arrivals, h, handedOn_append, ← handedOn_arrivals]; simp [handedOn]
              · rw [hmore] at hact
                have hp : s.peerAction (.transfer t) = .transfer r' := by
                  show (match ((s.note (.peer (.transfer t))).handleFrame (.transfer t)).2 with
                    | .ok a => a | .error _ => Action.none) = _
                  rw [hact]; rfl
                simp only [messages, hp, if_true]
          · exact .inl (still_of_arrivals h (by simp [Ev.uses, he]) (.inl (by simp [receivedOn, he])) (by simp [handedOn]))
        · by_cases he : r' = r
          · subst he
            refine .inr (.inr ⟨?_, ?_, l, hl, hc⟩)
            · unfold doneOn
              rw [receivedOn_arrivals, h, receivedOn_append, ← receivedOn_arrivals]
              simp [receivedOn]
            · rw [handedOn_arrivals, h, handedOn_append, ← handedOn_arrivals]; simp [handedOn]
          · exact .inl (still_of_arrivals h (by simp [Ev.uses, he]) (.inl (by simp [receivedOn])) (by simp [handedOn]))
  · exact .inl (still_step r (by simpa using hm))

/-- The link has credit, or is closed. -/
def Session.Fed (s : Session) (r : Ref) : Prop := ∀ l, s.rcv? r = some l → l.credit ≠ 0 ∨ l.closed = true

theorem LinkStill.fed {s s' : Session} {r : Ref} (hst : LinkStill r s s') (hs : s.Reachable) (hs' : s'.Reachable)
    (hf : CreditFits r s'.log) (ho : (s.rcv? r).isSome) (h : s.Fed r) : s'.Fed r := by
  obtain ⟨⟨evs, hl, hq⟩, _, _, hc⟩ := hst
  intro l' hl'
  obtain ⟨l, hr⟩ := Option.isSome_iff_exists.mp ho
  obtain ⟨l'', hl'', hcl⟩ := hc l hr
  rw [hl'] at hl''
  cases hl''
  rcases h l hr with h | h
  · left
    rw [c43_credit hs' hl', hl]
    rw [hl] at hf
    exact creditLeft_kept hf hq (c43_credit hs hr ▸ h)
  · exact .inr (hcl h)

/-- A grant feeds it. -/
theorem fed_granted {s s' : Session} {r : Ref} (hst : LinkStill r s s') (hs' : s'.Reachable) (hf : CreditFits r s'.log)
    {n : UInt32} (hn : n ≠ 0) {evs : List Ev} (hl : s'.log = s.log ++ evs) (hg : .granted r n ∈ evs) : s'.Fed r := by
  obtain ⟨⟨evs', hl', hq⟩, _⟩ := hst
  obtain rfl : evs = evs' := by rw [hl] at hl'; exact List.append_cancel_left hl'
  intro l hr
  left
  rw [c43_credit hs' hr, hl]
  rw [hl] at hf
  exact creditLeft_granted hf hq hn hg

/-! ## The slots -/

/-- No link being attached has lost its slot, and those asked about are silent. -/
structure Session.Safe (s : Session) : Prop where
  kept : s.Kept
  silent : ∀ r, s.Asking r → s.Silent r
  fit : ∀ k x, s.links.get k = some x → k < 2 ^ 32

theorem Session.Safe.step {s : Session} (h : s.Safe) (hs : s.Reachable) {st : Step} (hd : ¬ s.Disturbs st)
    (hfit : ∀ k x, (s.step st).links.get k = some x → k < 2 ^ 32) : (s.step st).Safe :=
  ⟨fun _ ha he => owns_step hs hd h.fit hfit h.kept ha he, fun _ ha => silent_asking hs h.kept st h.silent ha, hfit⟩

theorem Session.Safe.stepSame {s : Session} (h : s.Safe) (hs : s.Reachable) {st : Step} (hd : ¬ s.Disturbs st)
    (hl : (s.step st).links = s.links) : (s.step st).Safe := h.step hs hd (by rw [hl]; exact h.fit)

theorem Session.Safe.finishAttach {s : Session} (h : s.Safe) (hs : s.Reachable) {r : Ref} {e : Option Error}
    (hfit : ∀ k x, (s.finishAttach r e).links.get k = some x → k < 2 ^ 32) : (s.finishAttach r e).Safe := by
  rcases Router.finishAttach_step s r e with he | ⟨i, resp, ht, he⟩
  · rw [he]; exact h
  · rw [he] at hfit ⊢
    refine h.step hs ?_ hfit
    rintro ⟨_, _, _, _, _, _, _, _, _, ht', _⟩
    rw [ht] at ht'
    cases ht'

namespace Router

/-! ## What a step does -/

/-- The steps of an orderly execution. -/
inductive Calm (r : Ref) (σ : Router) : Router → Prop
  | same : Calm r σ σ
  | others (st) (ha : σ.allowed st = true) (ht : st ≠ .take r) (hr : st ≠ .recv r) (hd : ¬ σ.sess.Disturbs st) :
      Calm r σ { σ with sess := σ.sess.step st, calls := σ.calls ++ σ.sess.messages true st }
  | routed (i r' frame n) (hc : σ.calls[i]? = some (.attached r' frame)) :
      Calm r σ { σ with
        log := σ.log ++ [.asked r' frame], handlers := σ.handlers.insert r' none, calls := σ.calls.set i (.creating r' n) }
  | unrouted (i r' frame e) (hc : σ.calls[i]? = some (.attached r' frame)) :
      Calm r σ { σ with
        log := σ.log ++ [.asked r' frame], calls := σ.calls.set i .done, sess := σ.sess.finishAttach r' (some e) }
  | failed (i r' n e) (hc : σ.calls[i]? = some (.creating r' n)) :
      Calm r σ { σ with calls := σ.calls.set i .done, sess := σ.sess.finishAttach r' (some e) }
  | made (i r' n) (hc : σ.calls[i]? = some (.creating r' n)) (hg : (σ.sess.getDelivery r').2 = none) :
      Calm r σ { σ with
        log := σ.log ++ [.created r' σ.srvs n], handlers := σ.handlers.insert r' (some σ.srvs), srvs := σ.srvs + 1
        calls := σ.calls.set i .done, sess := σ.sess.finishAttach r' none }
  | madeFetch (i r' n d t) (hc : σ.calls[i]? = some (.creating r' n)) (hg : (σ.sess.getDelivery r').2 = some (d, t)) :
      Calm r σ { σ with
        log := σ.log ++ [.created r' σ.srvs n, .fetched r' d t], handlers := σ.handlers.insert r' (some σ.srvs)
        srvs := σ.srvs + 1, calls := σ.calls.set i (.readying r' σ.srvs d t true), sess := σ.sess.step (.take r') }
  | fetch (i r' srv d t) (hc : σ.calls[i]? = some (.transfer r')) (hg : (σ.sess.getDelivery r').2 = some (d, t)) :
      Calm r σ { σ with
        log := σ.log ++ [.fetched r' d t], calls := σ.calls.set i (.readying r' srv d t false), sess := σ.sess.step (.take r') }
  | idle (i r') (hc : σ.calls[i]? = some (.transfer r'))
      (hw : (σ.sess.getDelivery r').2 = none ∨ ∀ srv, σ.handlers.get r' ≠ some (some srv)) :
      Calm r σ { σ with calls := σ.calls.set i .done }
  | released (i c rs) (hc : σ.calls[i]? = some c) (hr : c = .detachedAll rs ∨ ∃ r, c = .detached r ∧ rs = [r]) :
      Calm r σ { σ with
        log := σ.log ++ rs.map .released, handlers := rs.foldl Map.erase σ.handlers, calls := σ.calls.set i .done }
  | invoked (i r' srv d t att live s) (hc : σ.calls[i]? = some (.readying r' srv d t att))
      (hs : (s = σ.sess ∧ ∀ l, σ.sess.rcv? r' = some l → l.credit ≠ 0) ∨
        (s = σ.sess.step (.grant r' 50) ∧ (σ.sess.rcv? r').isSome)) :
      Calm r σ { σ with
        log := σ.log ++ [.invoked r' srv d t live], calls := σ.calls.set i (.serving r' srv d t att), sess := s }
  | answered (i r' srv d t att h) (hc : σ.calls[i]? = some (.serving r' srv d t att)) :
      Calm r σ { σ with
        log := σ.log ++ [.answered r' srv d t h], calls := σ.calls.set i .done
        sess := if att then ((σ.sess.step (.settle d h.state)).step (.dropDelivery d)).finishAttach r' none
          else (σ.sess.step (.settle d h.state)).step (.dropDelivery d) }

theorem step_calm {σ : Router} {r : Ref} {st : RStep} (ho : σ.Orderly r st) : Calm r σ (σ.step st) := by
  cases st <;> unfold step <;> dsimp only
  case sess st opened =>
    obtain ⟨rfl, h1, h2, h3⟩ := ho
    split
    · next ha => exact .others st ha h1 h2 h3
    · exact .same
  case start i =>
    split
    · next c hc =>
      cases c <;> unfold start <;> dsimp only
      case attached r' frame =>
        split
        · next path hp =>
          split
          · next n hn => exact .routed i r' frame n hc
          · exact .unrouted i r' frame _ hc
        · exact .unrouted i r' frame _ hc
      case transfer r' =>
        split
        · next srv hh =>
          unfold Router.fetch
          split
          · next d t hg => exact .fetch i r' srv d t hc hg
          · next hg => exact .idle i r' hc (.inl hg)
        · next hh => exact .idle i r' hc (.inr fun srv h => hh srv h)
      case detached r' => exact .released i _ [r'] hc (.inr ⟨r', rfl, rfl⟩)
      case detachedAll rs =>
        rw [foldl_release]
        exact .released i _ rs hc (.inl rfl)
      all_goals exact .same
    · exact .same
  case created i e =>
    split
    · next c hc =>
      cases c <;> unfold Router.created <;> dsimp only
      case creating r' n =>
        split
        · exact .failed i r' n _ hc
        · unfold Router.fetch
          split
          · next d t hg =>
            have := Calm.madeFetch (r := r) i r' n d t hc hg
            simpa [onSess, note, setCall] using this
          · next hg => exact .made i r' n hc hg
      all_goals exact .same
    · exact .same
  case readied i e =>
    obtain rfl : e = none := ho
    split
    · next c hc =>
      cases c <;> unfold Router.readied <;> dsimp only
      case readying r' srv d t att =>
        split
        · next l hl =>
          split
          · exact .invoked i r' srv d t att _ _ hc (.inr ⟨rfl, by rw [hl]; rfl⟩)
          · next h => exact .invoked i r' srv d t att _ _ hc (.inl ⟨rfl, fun l' hl' => by rw [hl] at hl'; cases hl'; exact h⟩)
        · next hl => exact .invoked i r' srv d t att _ _ hc (.inl ⟨rfl, fun l' hl' => by rw [hl] at hl'; cases hl'⟩)
      all_goals exact .same
    · exact .same
  case answered i h =>
    split
    · next c hc =>
      cases c <;> unfold Router.answered <;> dsimp only
      case serving r' srv d t att => exact .answered i r' srv d t att h hc
      all_goals exact .same
    · exact .same
  case cancelled i => exact ho.elim

theorem _root_.Amqp.Rt.Session.setLinkCredit_granted {s : Session} {r : Ref} (hr : (s.rcv? r).isSome) (n : UInt32) :
    ∃ evs, (s.setLinkCredit r n).log = s.log ++ .granted r n :: evs := by
  obtain ⟨l, hl⟩ := Option.isSome_iff_exists.mp hr
  unfold setLinkCredit
  rw [hl]
  unfold checkAdd
  dsimp only
  split
  · exact ⟨_, by simp only [rcvLinkFlow, post, Session.note, modRcv, List.append_assoc, List.cons_append, List.nil_append]; rfl⟩
  · exact ⟨_, by simp only [rcvLinkFlow, post, Session.note, modRcv, List.append_assoc, List.cons_append, List.nil_append]; rfl⟩

/-- Accepting a link feeds it. -/
theorem accepted_granted {s : Session} {r : Ref} (hr : (s.rcv? r).isSome) (hw : 0 < s.todo.countP (waitingOf r)) :
    ∃ evs, (s.finishAttach r none).log = s.log ++ evs ∧ .granted r 50 ∈ evs := by
  obtain ⟨i, resp, ht, he⟩ := finishAttach_waits none hw
  rw [he]
  have hlog : (s.step (.complete i (fun a => a) none)).log = ((s.confirmReceiver r resp).setLinkCredit r 50).log := by
    simp only [Session.step, ht, onComplete]
  have hc : ∃ evs, (s.confirmReceiver r resp).log = s.log ++ evs := by
    unfold confirmReceiver
    split
    · split
      · next hk => exact ⟨_, by rw [post_log]; simp only [setLink, hk, dropLink]; rfl⟩
      · exact ⟨[], by simp⟩
    · exact ⟨[], by simp⟩
  obtain ⟨evs, hc⟩ := hc
  have hr' : ((s.confirmReceiver r resp).rcv? r).isSome := by
    unfold rcv?
    rw [confirmReceiver_rcvs]
    exact hr
  obtain ⟨evs', hg⟩ := setLinkCredit_granted hr' 50
  exact ⟨evs ++ .granted r 50 :: evs', by rw [hlog, hg, hc, List.append_assoc], by simp⟩

/-- Nothing waits if nothing is given out. -/
theorem none_waits {s : Session} (hs : s.Reachable) {r : Ref} (h : (s.getDelivery r).2 = none) : s.doneOn r ≤ s.takenOn r := by
  by_contra hlt
  obtain ⟨m, hm⟩ : ∃ m, (assemble (receivedOn r s.log)).done[(handedOn r s.log).length]? = some m :=
    ⟨_, List.getElem?_eq_getElem (by unfold doneOn takenOn at hlt; omega)⟩
  obtain ⟨d, t, hl, _⟩ := c31_take_next hs hm
  have ha := getDelivery_arrivals s r
  rw [h, show (s.getDelivery r).1 = s.step (.take r) from rfl, arrivals_append hl] at ha
  simp [Ev.arrival] at ha

theorem taken_le {s : Session} (hs : s.Reachable) (r : Ref) : s.takenOn r ≤ s.doneOn r := by
  have := (c31_in_order hs r).length_le
  simpa [takenOn, doneOn] using this

/-- A silent link has nothing to give out. -/
theorem silent_none {s : Session} (hs : s.Reachable) {r : Ref} (h : s.Silent r) : (s.getDelivery r).2 = none := by
  cases hg : (s.getDelivery r).2 with
  | none => rfl
  | some x =>
    exfalso
    have h0 : s.doneOn r = 0 := by unfold doneOn; rw [h.none]; rfl
    have := taken_le hs r
    have hl := (c31_nothing_early hs (r := r) (by unfold doneOn takenOn at *; omega)).1
    have ha := getDelivery_arrivals s r
    rw [hg, show (s.getDelivery r).1 = s.step (.take r) from rfl, arrivals_append (s := s) (evs := []) (by rw [hl, List.append_nil])] at ha
    simp at ha

def transferOf (r : Ref) : RCall → Bool | .transfer r' => r' == r | _ => false

theorem mem_set_of_ne {α : Type} {l : List α} {i : Nat} {c a x : α} (hx : x ∈ l) (hc : l[i]? = some c) (hne : x ≠ c) :
    x ∈ l.set i a := by
  obtain ⟨j, hj⟩ := List.mem_iff_getElem?.mp hx
  refine List.mem_iff_getElem?.mpr ⟨j, ?_⟩
  rw [List.getElem?_set]
  split
  · next h => subst h; rw [hj] at hc; cases hc; exact absurd rfl hne
  · exact hj

/-! ## The invariant -/

/-- Some message of the link waits for its handler to be ready. -/
def Readying (σ : Router) (r : Ref) : Prop := ∃ srv d t att, RCall.readying r srv d t att ∈ σ.calls

structure Serves (r : Ref) (σ : Router) : Prop where
  safe : σ.sess.Safe
  there : ∀ srv, σ.handlers.get r = some (some srv) → (σ.sess.rcv? r).isSome
  calls : ∀ srv, σ.handlers.get r = some (some srv) →
    σ.sess.doneOn r ≤ σ.sess.takenOn r + σ.calls.countP (transferOf r)
  fetched : ∀ d t, (d, t) ∈ handedOn r σ.sess.log → .fetched r d t ∈ σ.log
  invoked : ∀ d t, .fetched r d t ∈ σ.log →
    (∃ srv att, .readying r srv d t att ∈ σ.calls) ∨ ∃ srv live, .invoked r srv d t live ∈ σ.log
  answered : ∀ srv d t live, .invoked r srv d t live ∈ σ.log →
    (∃ att, .serving r srv d t att ∈ σ.calls) ∨ ∃ h, .answered r srv d t h ∈ σ.log
  fed : ∀ srv, σ.handlers.get r = some (some srv) → CreditFits r σ.sess.log →
    σ.sess.Fed r ∨ σ.sess.takenOn r < σ.sess.doneOn r ∨ Readying σ r

theorem _root_.Amqp.Rt.LinkStill.rcvSome {r : Ref} {s s' : Session} (h : LinkStill r s s') (hr : (s.rcv? r).isSome) : (s'.rcv? r).isSome := by
  obtain ⟨l, hl⟩ := Option.isSome_iff_exists.mp hr
  obtain ⟨l', hl', _⟩ := h.closed l hl
  rw [hl']; rfl

/-- A step that does not concern the link. -/
theorem Serves.still {r : Ref} {σ σ' : Router} (h : Serves r σ) (hr : σ.sess.Reachable) (hr' : σ'.sess.Reachable)
    (safe : σ'.sess.Safe) (still : LinkStill r σ.sess σ'.sess)
    (hh : ∀ srv, σ'.handlers.get r = some (some srv) → σ.handlers.get r = some (some srv))
    (hcalls : ∀ srv, σ'.handlers.get r = some (some srv) →
      σ.sess.doneOn r ≤ σ.sess.takenOn r + σ'.calls.countP (transferOf r))
    {evs : List REv} (hlog : σ'.log = σ.log ++ evs) (hfet : ∀ d t, .fetched r d t ∉ evs)
    (hinv : ∀ srv d t live, .invoked r srv d t live ∈ evs → ∃ att, .serving r srv d t att ∈ σ'.calls)
    (hready : ∀ srv d t att, .readying r srv d t att ∈ σ.calls → .readying r srv d t att ∈ σ'.calls ∨
      ((∃ live, .invoked r srv d t live ∈ evs) ∧ (CreditFits r σ'.sess.log → σ'.sess.Fed r)))
    (hserve : ∀ srv d t att, .serving r srv d t att ∈ σ.calls → .serving r srv d t att ∈ σ'.calls ∨
      ∃ h, .answered r srv d t h ∈ evs) : Serves r σ' where
  safe := safe
  there srv hs := still.rcvSome (h.there srv (hh srv hs))
  calls srv hs := by
    rw [still.done, show σ'.sess.takenOn r = σ.sess.takenOn r from congrArg List.length still.handed]
    exact hcalls srv hs
  fetched d t hm := by
    rw [still.handed] at hm
    rw [hlog]
    exact List.mem_append_left _ (h.fetched d t hm)
  invoked d t hm := by
    rw [hlog] at hm ⊢
    rcases List.mem_append.mp hm with hm | hm
    · rcases h.invoked d t hm with ⟨srv, att, hc⟩ | ⟨srv, live, hi⟩
      · rcases hready srv d t att hc with hc | ⟨⟨live, hi⟩, _⟩
        · exact .inl ⟨srv, att, hc⟩
        · exact .inr ⟨srv, live, List.mem_append_right _ hi⟩
      · exact .inr ⟨srv, live, List.mem_append_left _ hi⟩
    · exact absurd hm (hfet d t)
  answered srv d t live hm := by
    rw [hlog] at hm ⊢
    rcases List.mem_append.mp hm with hm | hm
    · rcases h.answered srv d t live hm with ⟨att, hc⟩ | ⟨hd, ha⟩
      · rcases hserve srv d t att hc with hc | ⟨hd, ha⟩
        · exact .inl ⟨att, hc⟩
        · exact .inr ⟨hd, List.mem_append_right _ ha⟩
      · exact .inr ⟨hd, List.mem_append_left _ ha⟩
    · exact .inl (hinv srv d t live hm)
  fed srv hs hf := by
    obtain ⟨sevs, hsl, _⟩ := still.log
    rcases h.fed srv (hh srv hs) (by rw [hsl] at hf; exact hf.prefix) with hfed | hlt | ⟨srv', d, t, att, hc⟩
    · exact .inl (still.fed hr hr' hf (h.there srv (hh srv hs)) hfed)
    · right; left
      rw [still.done, show σ'.sess.takenOn r = σ.sess.takenOn r from congrArg List.length still.handed]
      exact hlt
    · rcases hready srv' d t att hc with hc | ⟨_, hfed⟩
      · exact .inr (.inr ⟨srv', d, t, att, hc⟩)
      · exact .inl (hfed hf)

theorem countP_le_set {r : Ref} {l : List RCall} {i : Nat} {c a : RCall} (hc : l[i]? = some c) (h : transferOf r c = false) :
    l.countP (transferOf r) ≤ (l.set i a).countP (transferOf r) := by
  have := countP_set (a := a) (transferOf r) hc
  rw [h] at this
  simp only [Bool.false_eq_true, if_false] at this
  omega

theorem Serves.step {r : Ref} {σ σ' : Router} (hσ : σ.Reachable) (h : Serves r σ) (hc : Calm r σ σ')
    (hr' : σ'.sess.Reachable) (hfit : ∀ k x, σ'.sess.links.get k = some x → k < 2 ^ 32) : Serves r σ' := by
  have hr := hσ.sess
  have keep : ∀ {i : Nat} {c : RCall} (a : RCall), σ.calls[i]? = some c → (∀ srv d t att, c ≠ .readying r srv d t att) →
      ∀ srv d t att, .readying r srv d t att ∈ σ.calls → .readying r srv d t att ∈ σ.calls.set i a :=
    fun a hi hne srv d t att hm => mem_set_of_ne hm hi (hne srv d t att).symm
  have keep' : ∀ {i : Nat} {c : RCall} (a : RCall), σ.calls[i]? = some c → (∀ srv d t att, c ≠ .serving r srv d t att) →
      ∀ srv d t att, .serving r srv d t att ∈ σ.calls → .serving r srv d t att ∈ σ.calls.set i a :=
    fun a hi hne srv d t att hm => mem_set_of_ne hm hi (hne srv d t att).symm
  have asks : ∀ {i : Nat} {n : Nat}, σ.calls[i]? = some (.creating r n) → 0 < σ.sess.todo.countP (waitingOf r) := by
    intro i n hi
    have := hσ.offered.waits r
    have := List.countP_pos_iff.mpr ⟨_, List.mem_of_getElem? hi, show behalfOf r (.creating r n) = true by simp [behalfOf]⟩
    omega
  have silent : ∀ {i : Nat} {n : Nat}, σ.calls[i]? = some (.creating r n) → σ.sess.Silent r := by
    intro i n hi
    obtain ⟨t, ht, hw⟩ := List.countP_pos_iff.mp (asks hi)
    refine h.safe.silent r ⟨t, ht, ?_⟩
    cases t with
    | ctl a => cases hw
    | attached r' g => exact hw
  cases hc with
  | same => exact h
  | others st ha ht hrc hd =>
    have safe := h.safe.step hr hd hfit
    have tr : ∀ srv, σ.handlers.get r = some (some srv) → σ.sess.doneOn r ≤
        σ.sess.takenOn r + (σ.calls ++ σ.sess.messages true st).countP (transferOf r) := by
      intro srv hs
      have := h.calls srv hs
      rw [List.countP_append]
      omega
    rcases sess_cases hr ht hrc with hst | ⟨hdone, hhand, hmsg⟩ | ⟨hdone, hhand, l, hl, hcl⟩
    · refine h.still (evs := []) hr hr' safe hst (fun _ h => h) tr (by simp) (by simp) (by simp) ?_ ?_
      · exact fun _ _ _ _ hm => .inl (List.mem_append_left _ hm)
      · exact fun _ _ _ _ hm => .inl (List.mem_append_left _ hm)
    all_goals
      have htak : (σ.sess.step st).takenOn r = σ.sess.takenOn r := congrArg List.length hhand
      have hthere : ∀ srv, σ.handlers.get r = some (some srv) → ((σ.sess.step st).rcv? r).isSome := by
        intro srv hs
        obtain ⟨l, hl⟩ := Option.isSome_iff_exists.mp (h.there srv hs)
        obtain ⟨l', hl', _⟩ := step_closed σ.sess st r l hl
        rw [hl']; rfl
    · refine ⟨safe, hthere, fun srv hs => ?_, fun d t hm => h.fetched d t (hhand ▸ hm), fun d t hm => ?_,
        fun srv d t live hm => ?_, fun srv hs hf => ?_⟩
      · dsimp only
        rw [hdone, htak, hmsg, List.countP_append]
        have := h.calls srv hs
        simp only [List.countP_singleton, transferOf, beq_self_eq_true, if_true]
        omega
      · exact (h.invoked d t hm).imp_left fun ⟨srv, att, hc⟩ => ⟨srv, att, List.mem_append_left _ hc⟩
      · exact (h.answered srv d t live hm).imp_left fun ⟨att, hc⟩ => ⟨att, List.mem_append_left _ hc⟩
      · right; left
        have := taken_le hr r
        dsimp only
        omega
    · refine ⟨safe, hthere, fun srv hs => ?_, fun d t hm => h.fetched d t (hhand ▸ hm), fun d t hm => ?_,
        fun srv d t live hm => ?_, fun srv hs hf => ?_⟩
      · dsimp only
        rw [hdone, htak]
        exact tr srv hs
      · exact (h.invoked d t hm).imp_left fun ⟨srv, att, hc⟩ => ⟨srv, att, List.mem_append_left _ hc⟩
      · exact (h.answered srv d t live hm).imp_left fun ⟨att, hc⟩ => ⟨att, List.mem_append_left _ hc⟩
      · left
        intro l' hl'
        dsimp only at hl'
        rw [hl] at hl'
        cases hl'
        exact .inr hcl
  | routed i r' frame n hi =>
    refine h.still (evs := [.asked r' frame]) hr hr' h.safe (.refl r _) ?_ ?_ rfl (by simp) (by simp) ?_ ?_
    · intro srv hs
      dsimp only at hs
      rw [Map.get_insert] at hs
      split at hs
      · cases hs
      · exact hs
    · intro srv hs
      dsimp only at hs
      rw [Map.get_insert] at hs
      split at hs
      · cases hs
      · have := h.calls srv hs
        have := countP_le_set (r := r) (a := .creating r' n) hi rfl
        dsimp only
        omega
    · exact fun srv d t att hm => .inl (keep _ hi (by simp) srv d t att hm)
    · exact fun srv d t att hm => .inl (keep' _ hi (by simp) srv d t att hm)
  | unrouted i r' frame e hi =>
    refine h.still (evs := [.asked r' frame]) hr hr' (h.safe.finishAttach hr hfit) (still_finishAttach ..) (fun _ h => h) ?_
      rfl (by simp) (by simp) ?_ ?_
    · intro srv hs
      have := h.calls srv hs
      have := countP_le_set (r := r) (a := .done) hi rfl
      dsimp only
      omega
    · exact fun srv d t att hm => .inl (keep _ hi (by simp) srv d t att hm)
    · exact fun srv d t att hm => .inl (keep' _ hi (by simp) srv d t att hm)
  | failed i r' n e hi =>
    refine h.still (evs := []) hr hr' (h.safe.finishAttach hr hfit) (still_finishAttach ..) (fun _ h => h) ?_
      (by simp) (by simp) (by simp) ?_ ?_
    · intro srv hs
      have := h.calls srv hs
      have := countP_le_set (r := r) (a := .done) hi rfl
      dsimp only
      omega
    · exact fun srv d t att hm => .inl (keep _ hi (by simp) srv d t att hm)
    · exact fun srv d t att hm => .inl (keep' _ hi (by simp) srv d t att hm)
  | made i r' n hi hg =>
    have safe := h.safe.finishAttach hr hfit
    have hst := still_finishAttach σ.sess r r' none
    have hcount := countP_le_set (r := r) (a := .done) hi rfl
    by_cases he : r' = r
    · subst he
      have hsil := silent hi
      have h0 : σ.sess.doneOn r' = 0 := by unfold doneOn; rw [hsil.none]; rfl
      have hsome : (σ.sess.rcv? r').isSome := by
        unfold rcv?
        rw [List.getElem?_eq_getElem hsil.old]
        rfl
      refine ⟨safe, fun _ _ => hst.rcvSome hsome, fun srv hs => ?_, fun d t hm => ?_, fun d t hm => ?_,
        fun srv d t live hm => ?_, fun srv hs hf => ?_⟩
      · dsimp only
        rw [hst.done, h0]
        exact Nat.zero_le _
      · dsimp only at hm
        rw [hst.handed] at hm
        exact List.mem_append_left _ (h.fetched d t hm)
      · rcases List.mem_append.mp hm with hm | hm
        · rcases h.invoked d t hm with ⟨srv, att, hc⟩ | ⟨srv, live, hv⟩
          · exact .inl ⟨srv, att, keep _ hi (by simp) srv d t att hc⟩
          · exact .inr ⟨srv, live, List.mem_append_left _ hv⟩
        · simp at hm
      · rcases List.mem_append.mp hm with hm | hm
        · rcases h.answered srv d t live hm with ⟨att, hc⟩ | ⟨hd, hv⟩
          · exact .inl ⟨att, keep' _ hi (by simp) srv d t att hc⟩
          · exact .inr ⟨hd, List.mem_append_left _ hv⟩
        · simp at hm
      · left
        obtain ⟨sevs, hl, hgr⟩ := accepted_granted hsome (asks hi)
        exact fed_granted hst hr' hf (by decide) hl hgr
    · refine h.still (evs := [.created r' σ.srvs n]) hr hr' safe hst ?_ ?_ rfl (by simp) (by simp) ?_ ?_
      · intro srv hs
        dsimp only at hs
        rw [Map.get_insert, if_neg he] at hs
        exact hs
      · intro srv hs
        dsimp only at hs
        rw [Map.get_insert, if_neg he] at hs
        have := h.calls srv hs
        dsimp only
        omega
      · exact fun srv d t att hm => .inl (keep _ hi (by simp) srv d t att hm)
      · exact fun srv d t att hm => .inl (keep' _ hi (by simp) srv d t att hm)
  | madeFetch i r' n d t hi hg =>
    by_cases he : r' = r
    · subst he
      rw [silent_none hr (silent hi)] at hg
      cases hg
    · have hcount := countP_le_set (r := r) (a := .readying r' σ.srvs d t true) hi rfl
      refine h.still (evs := [.created r' σ.srvs n, .fetched r' d t]) hr hr'
        (h.safe.step hr (by rintro ⟨_, _, _, _, _, h⟩; exact h) hfit) (still_take he) ?_ ?_ rfl
        (by
          intro d' t' hm
          simp only [List.mem_cons, List.not_mem_nil, or_false, REv.fetched.injEq, reduceCtorEq, false_or] at hm
          exact he hm.1.symm) (by simp) ?_ ?_
      · intro srv hs
        dsimp only at hs
        rw [Map.get_insert, if_neg he] at hs
        exact hs
      · intro srv hs
        dsimp only at hs
        rw [Map.get_insert, if_neg he] at hs
        have := h.calls srv hs
        dsimp only
        omega
      · exact fun srv d t att hm => .inl (keep _ hi (by simp) srv d t att hm)
      · exact fun srv d t att hm => .inl (keep' _ hi (by simp) srv d t att hm)
  | fetch i r' srv d t hi hg =>
    have safe := h.safe.step hr (st := .take r') (by rintro ⟨_, _, _, _, _, h⟩; exact h) hfit
    have hset := countP_set (a := .readying r' srv d t false) (transferOf r) hi
    by_cases he : r' = r
    · subst he
      have harr := getDelivery_arrivals σ.sess r'
      rw [hg, show (σ.sess.getDelivery r').1 = σ.sess.step (.take r') from rfl] at harr
      have hhand : handedOn r' (σ.sess.step (.take r')).log = handedOn r' σ.sess.log ++ [(d, t)] := by
        rw [handedOn_arrivals, harr, handedOn_append, ← handedOn_arrivals]
        simp [handedOn]
      have hdone : (σ.sess.step (.take r')).doneOn r' = σ.sess.doneOn r' := by
        unfold doneOn
        rw [receivedOn_arrivals, harr, receivedOn_append, ← receivedOn_arrivals]
        simp [receivedOn]
      refine ⟨safe, fun srv' hs => ?_, fun srv' hs => ?_, fun d' t' hm => ?_, fun d' t' hm => ?_,
        fun srv' d' t' live hm => ?_, fun srv' hs hf => ?_⟩
      · obtain ⟨l, hl⟩ := Option.isSome_iff_exists.mp (h.there srv' hs)
        obtain ⟨l', hl', _⟩ := step_closed σ.sess (.take r') r' l hl
        dsimp only
        rw [hl']; rfl
      · dsimp only
        rw [hdone, show (σ.sess.step (.take r')).takenOn r' = σ.sess.takenOn r' + 1 by
          unfold takenOn; rw [hhand]; simp]
        have := h.calls srv' hs
        simp only [transferOf, beq_self_eq_true, if_true, Bool.false_eq_true, if_false] at hset
        omega
      · dsimp only at hm
        rw [hhand] at hm
        rcases List.mem_append.mp hm with hm | hm
        · exact List.mem_append_left _ (h.fetched d' t' hm)
        · rw [List.mem_singleton] at hm
          cases hm
          exact List.mem_append_right _ (List.mem_singleton.mpr rfl)
      · rcases List.mem_append.mp hm with hm | hm
        · rcases h.invoked d' t' hm with ⟨srv, att, hc⟩ | ⟨srv, live, hv⟩
          · exact .inl ⟨srv, att, keep _ hi (by simp) srv d' t' att hc⟩
          · exact .inr ⟨srv, live, List.mem_append_left _ hv⟩
        · rw [List.mem_singleton] at hm
          cases hm
          exact .inl ⟨srv, false, List.mem_set (List.getElem?_eq_some_iff.mp hi).1 _⟩
      · rcases List.mem_append.mp hm with hm | hm
        · rcases h.answered srv' d' t' live hm with ⟨att, hc⟩ | ⟨hd, hv⟩
          · exact .inl ⟨att, keep' _ hi (by simp) srv' d' t' att hc⟩
          · exact .inr ⟨hd, List.mem_append_left _ hv⟩
        · simp at hm
      · exact .inr (.inr ⟨srv, d, t, false, List.mem_set (List.getElem?_eq_some_iff.mp hi).1 _⟩)
    · refine h.still (evs := [.fetched r' d t]) hr hr' safe (still_take he) (fun _ h => h) ?_ rfl
        (by
          intro d' t' hm
          simp only [List.mem_cons, List.not_mem_nil, or_false, REv.fetched.injEq, reduceCtorEq, false_or] at hm
          exact he hm.1.symm) (by simp) ?_ ?_
      · intro srv' hs
        have := h.calls srv' hs
        simp only [transferOf, beq_eq_false_iff_ne.mpr he, Bool.false_eq_true, if_false] at hset
        dsimp only
        omega
      · exact fun srv d t att hm => .inl (keep _ hi (by simp) srv d t att hm)
      · exact fun srv d t att hm => .inl (keep' _ hi (by simp) srv d t att hm)
  | idle i r' hi hw =>
    refine h.still (evs := []) hr hr' h.safe (.refl r _) (fun _ h => h) ?_ (by simp) (by simp) (by simp) ?_ ?_
    · intro srv hs
      have hset := countP_set (a := .done) (transferOf r) hi
      by_cases he : r' = r
      · subst he
        rcases hw with hg | hh
        · have := none_waits hr hg
          omega
        · exact absurd hs (hh srv)
      · have := h.calls srv hs
        simp only [transferOf, beq_eq_false_iff_ne.mpr he, Bool.false_eq_true, if_false] at hset
        dsimp only
        omega
    · exact fun srv d t att hm => .inl (keep _ hi (by simp) srv d t att hm)
    · exact fun srv d t att hm => .inl (keep' _ hi (by simp) srv d t att hm)
  | released i c rs hi hc =>
    have hcf : transferOf r c = false := by rcases hc with rfl | ⟨_, rfl, _⟩ <;> rfl
    have hget : ∀ srv, (rs.foldl Map.erase σ.handlers).get r = some (some srv) → σ.handlers.get r = some (some srv) := by
      intro srv hs
      rw [get_foldl_erase] at hs
      split at hs
      · cases hs
      · exact hs
    refine h.still (evs := rs.map .released) hr hr' h.safe (.refl r _) hget ?_ rfl (by simp) (by simp) ?_ ?_
    · intro srv hs
      have := h.calls srv (hget srv hs)
      have := countP_le_set (a := .done) hi hcf
      dsimp only
      omega
    · exact fun srv d t att hm => .inl (keep _ hi (by rcases hc with rfl | ⟨_, rfl, _⟩ <;> simp) srv d t att hm)
    · exact fun srv d t att hm => .inl (keep' _ hi (by rcases hc with rfl | ⟨_, rfl, _⟩ <;> simp) srv d t att hm)
  | invoked i r' srv d t att live s hi hs =>
    have hst : LinkStill r σ.sess s := by
      rcases hs with ⟨rfl, _⟩ | ⟨rfl, _⟩
      · exact .refl r _
      · exact still_step r rfl
    have safe : s.Safe := by
      rcases hs with ⟨rfl, _⟩ | ⟨rfl, _⟩
      · exact h.safe
      · exact h.safe.step hr (by rintro ⟨_, _, _, _, _, h⟩; exact h) hfit
    refine h.still (evs := [.invoked r' srv d t live]) hr hr' safe hst (fun _ h => h) ?_ rfl (by simp) ?_ ?_ ?_
    · intro srv' hs'
      have := h.calls srv' hs'
      have := countP_le_set (r := r) (a := .serving r' srv d t att) hi rfl
      dsimp only
      omega
    · intro srv' d' t' live' hm
      rw [List.mem_singleton] at hm
      cases hm
      exact ⟨att, List.mem_set (List.getElem?_eq_some_iff.mp hi).1 _⟩
    · intro srv' d' t' att' hm
      by_cases he : RCall.readying r srv' d' t' att' = .readying r' srv d t att
      · right
        cases he
        refine ⟨⟨live, List.mem_singleton.mpr rfl⟩, fun hf => ?_⟩
        rcases hs with ⟨rfl, hc⟩ | ⟨rfl, hsome⟩
        · exact fun l hl => .inl (hc l hl)
        · obtain ⟨sevs, hl⟩ := setLinkCredit_granted hsome 50
          exact fed_granted hst hr' hf (by decide) hl (List.mem_cons_self ..)
      · exact .inl (mem_set_of_ne hm hi he)
    · exact fun srv d t att hm => .inl (keep' _ hi (by simp) srv d t att hm)
  | answered i r' srv d t att hnd hi =>
    have hst : LinkStill r σ.sess ((σ.sess.step (.settle d hnd.state)).step (.dropDelivery d)) :=
      (still_step r rfl).trans (still_step r rfl)
    have safe : ((σ.sess.step (.settle d hnd.state)).step (.dropDelivery d)).Safe :=
      (h.safe.stepSame hr (by rintro ⟨_, _, _, _, _, h⟩; exact h) (by
          show (if σ.sess.free d then σ.sess.settle d hnd.state else σ.sess : Session).links = _
          split <;> simp)).stepSame (hr.next _)
        (by rintro ⟨_, _, _, _, _, h⟩; exact h) (by
          generalize σ.sess.step (.settle d hnd.state) = s
          show (if s.free d then s.dropDelivery d else s : Session).links = _
          split <;> simp)
    refine h.still (evs := [.answered r' srv d t hnd]) hr hr' ?_ ?_ (fun _ h => h) ?_ rfl (by simp) (by simp) ?_ ?_
    · dsimp only at hfit ⊢
      split
      · next ha => rw [if_pos ha] at hfit; exact safe.finishAttach ((hr.next _).next _) hfit
      · exact safe
    · dsimp only
      split
      · exact hst.trans (still_finishAttach ..)
      · exact hst
    · intro srv' hs'
      have := h.calls srv' hs'
      have := countP_le_set (r := r) (a := .done) hi rfl
      dsimp only
      omega
    · exact fun srv d t att hm => .inl (keep _ hi (by simp) srv d t att hm)
    · intro srv' d' t' att' hm
      by_cases he : RCall.serving r srv' d' t' att' = .serving r' srv d t att
      · cases he
        exact .inr ⟨hnd, List.mem_singleton.mpr rfl⟩
      · exact .inl (mem_set_of_ne hm hi he)

theorem OrderlyRun.serves {σ₀ : Router} (hf : σ₀.Fresh) {r : Ref} {steps : List RStep} (ho : σ₀.OrderlyRun r steps) :
    Serves r (σ₀.run steps) := by
  induction steps using List.reverseRecOn with
  | nil =>
    obtain ⟨⟨_, _, _, _, _, hs⟩, hh, _, hc, hl⟩ := hf
    have h0 : ∀ srv, (σ₀.run []).handlers.get r ≠ some (some srv) := by
      intro srv h
      rw [show (σ₀.run []).handlers = .empty from hh] at h
      cases h
    refine ⟨⟨?_, ?_, ?_⟩, fun srv h => absurd h (h0 srv), fun srv h => absurd h (h0 srv), ?_, ?_, ?_, fun srv h => absurd h (h0 srv)⟩
    · rintro r' ⟨t, ht, _⟩
      rw [show (σ₀.run []).sess = _ from hs] at ht
      cases ht
    · rintro r' ⟨t, ht, _⟩
      rw [show (σ₀.run []).sess = _ from hs] at ht
      cases ht
    · intro k x hx
      rw [show (σ₀.run []).sess = _ from hs, show (Session.new _ _ _ _ _).links = .empty from rfl, Slab.get_empty] at hx
      cases hx
    · intro d t hm
      rw [show (σ₀.run []).sess = _ from hs] at hm
      cases hm
    · intro d t hm
      rw [show (σ₀.run []).log = [] from hl] at hm
      cases hm
    · intro srv d t live hm
      rw [show (σ₀.run []).log = [] from hl] at hm
      cases hm
  | append_singleton steps st ih =>
    have hrun : σ₀.run (steps ++ [st]) = (σ₀.run steps).step st := by simp [run]
    obtain ⟨h1, h2⟩ := ho steps st [] rfl
    have hr : (σ₀.run steps).Reachable := ⟨σ₀, steps, hf, rfl⟩
    have hr' : (σ₀.run (steps ++ [st])).Reachable := ⟨σ₀, _, hf, rfl⟩
    have := ih fun pre st' post h => ho pre st' (post ++ [st]) (by simp [h])
    rw [hrun] at hr' ⊢
    exact this.step hr (step_calm h1) hr'.sess h2

end Router
end Amqp.Rt
