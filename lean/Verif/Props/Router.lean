import Verif.Lemmas.RouterOwn
import Verif.Spec.Examples
/-!
# The router: C41 and C42
-/

namespace Amqp.Rt
open Session Examples

namespace Examples

/-- A peer attaches to address `q`. -/
def attachTo (name : String) (handle : UInt32) (address : Option String) : Attach :=
  { anAttach name handle .sender with
    target := some { address := address.map text, durable := .none, expiryPolicy := .sessionEnd, timeout := 0, dynamic := false
                     dynamicNodeProperties := none, capabilities := none } }

/-- A router with one handler, for the address `q`. -/
def oneRoute (path : Str) : Option Nat := if path.bytes = ascii "q" then some 0 else none

def router : Router := { route := oneRoute, sess := start 100, handlers := .empty, srvs := 0, calls := [], log := [] }

theorem router_reachable (steps : List RStep) : (router.run steps).Reachable :=
  ⟨router, steps, ⟨⟨0, true, 65535, 0, aBegin 100, rfl⟩, rfl, rfl, rfl, rfl⟩, rfl⟩

/-- The link is offered to the router (as its first call). -/
def offer (address : Option String) : List RStep :=
  [.sess (.peer (.attach (attachTo "in" 5 address))) true, .sess (pass 0) true]

/-- The handler is made and the link established. -/
def served : List RStep := offer (some "q") ++ [.start 0, .created 0 none]

def theMessage (settled : Bool) : Transfer :=
  { aTransfer 5 (some 9) false [1, 2, 3] with
    head := { (aTransfer 5 (some 9) false [1, 2, 3]).head with settled := some settled } }

/-- A message arrives and is given to the handler. -/
def oneMessage (settled : Bool) : List RStep :=
  [.sess (.peer (.transfer (theMessage settled))) true, .start 1, .readied 1 none]

def closing : Detach := { handle := 5, closed := true, error := none }

/-- The peer detaches while the handler is not ready for a message taken already. -/
def detachedEarly : Router :=
  router.run (served ++ (oneMessage false).take 2 ++ [.sess (.peer (.detach closing)) true, .start 2, .readied 1 none])

end Examples

theorem settledAs_eq (h : Handled) : h.state = settledAs h := by
  rcases h with o | (e | o)
  · cases o <;> rfl
  · rfl
  · cases o <;> rfl

/-! ## C41 -/

/-- **C41** When a handler is done with a message, what is sent about the message is one disposition, settled, with the
state its outcome stands for, under the delivery id the peer gave the message — or nothing at all, if the peer sent the
message settled.  Nothing else was or will be sent about it. -/
theorem c41_outcome {σ : Router} (h : σ.Reachable) {r srv d : Ref} {t : Transfer} {hnd : Handled}
    (ha : .answered r srv d t hnd ∈ σ.log) :
    (t.head.settled = some true → disposalsOf d σ.sess.log = []) ∧
    (t.head.settled ≠ some true → disposalsOf d σ.sess.log = [(true, settledAs hnd)] ∧
      ∃ id, t.head.deliveryId = some id ∧ settling id (settledAs hnd) ∈ sentDispositions σ.sess.log) := by
  have hf := h.owned.done r srv d t hnd ha
  have hps : presettled t = true ↔ t.head.settled = some true := by
    unfold presettled
    cases t.head.settled with
    | none => simp
    | some b => cases b <;> simp
  rw [settledAs_eq] at hf
  refine ⟨fun hs => ?_, fun hs => ?_⟩
  · rw [if_pos (hps.mpr hs)] at hf
    exact hf.2
  · rw [if_neg (fun h => hs (hps.mp h))] at hf
    refine ⟨hf.2, ?_⟩
    have hhand : .handed r d t ∈ σ.sess.log := by
      obtain ⟨pre, post, hl⟩ := List.append_of_mem ha
      obtain ⟨⟨l, hinv⟩, _⟩ := h.traced.ordered pre _ post hl
      have hinv' : .invoked r srv d t l ∈ σ.log := by rw [hl]; exact List.mem_append_left _ hinv
      obtain ⟨pre', post', hl'⟩ := List.append_of_mem hinv'
      obtain ⟨_, hfe, _⟩ := h.traced.ordered pre' _ post' hl'
      exact h.counted.handed _ _ _ (by rw [hl']; exact List.mem_append_left _ hfe)
    obtain ⟨x, hx, hsn, hid, _⟩ := h.owned.between.own.object r d t.head (handed_key (mem_handedOn.mpr hhand))
    refine ⟨x.id, hid, ?_⟩
    have hm : (d, true, settledAs hnd) ∈ disposals σ.sess.log := by
      have : (true, settledAs hnd) ∈ disposalsOf d σ.sess.log := by rw [hf.2]; exact List.mem_cons_self
      obtain ⟨p, hp, he⟩ := List.mem_filterMap.mp this
      obtain ⟨d', b, st⟩ := p
      by_cases hdd : d' = d
      · subst hdd
        simp only [if_true, Option.some.injEq, Prod.mk.injEq] at he
        obtain ⟨rfl, rfl⟩ := he
        exact hp
      · rw [if_neg hdd] at he; cases he
    have hd := h.owned.between.disp
    have : some (settling x.id (settledAs hnd)) ∈ (sentDispositions σ.sess.log).map some := by
      rw [hd]
      refine List.mem_map.mpr ⟨_, hm, ?_⟩
      dsimp only
      rw [hx]
      simp [hsn, settling]
    obtain ⟨y, hy, he⟩ := List.mem_map.mp this
    cases he
    exact hy

/-- **C41** Whatever is sent about a message the router took is either what its handler's outcome stands for, or, if no
handler ever answered for it, the rejection sent when it is dropped; it is sent at most once and settles the message. -/
theorem c41_nothing_else {σ : Router} (h : σ.Reachable) {r d : Ref} {t : Transfer} (hf : .fetched r d t ∈ σ.log) :
    disposalsOf d σ.sess.log = [] ∨
    (∃ srv hnd, .answered r srv d t hnd ∈ σ.log ∧ disposalsOf d σ.sess.log = [(true, settledAs hnd)]) ∨
    ((∀ r' srv t' hnd, .answered r' srv d t' hnd ∉ σ.log) ∧ disposalsOf d σ.sess.log = [(true, nobodyAnswered)]) := by
  have one : ∀ r' srv t' hnd, .answered r' srv d t' hnd ∈ σ.log → r' = r ∧ t' = t := by
    intro r' srv t' hnd ha
    obtain ⟨pre, post, hl⟩ := List.append_of_mem ha
    obtain ⟨⟨l, hinv⟩, _⟩ := h.traced.ordered pre _ post hl
    have hinv' : .invoked r' srv d t' l ∈ σ.log := by rw [hl]; exact List.mem_append_left _ hinv
    obtain ⟨pre', post', hl'⟩ := List.append_of_mem hinv'
    obtain ⟨_, hfe, _⟩ := h.traced.ordered pre' _ post' hl'
    have hfe' : .fetched r' d t' ∈ σ.log := by rw [hl']; exact List.mem_append_left _ hfe
    obtain ⟨p, q, hpq⟩ := List.append_of_mem hf
    have n₁ := (h.traced.ordered p _ q hpq).2 r' t'
    rw [hpq] at hfe'
    rcases List.mem_append.mp hfe' with hm | hm
    · exact absurd hm n₁
    · rcases List.mem_cons.mp hm with hm | hm
      · cases hm; exact ⟨rfl, rfl⟩
      · obtain ⟨p₂, q₂, hpq₂⟩ := List.append_of_mem hm
        have := (h.traced.ordered (p ++ .fetched r d t :: p₂) (.fetched r' d t') q₂ (by rw [hpq, hpq₂]; simp)).2 r t
        exact absurd (by simp) this
  by_cases hans : ∃ r' srv t' hnd, .answered r' srv d t' hnd ∈ σ.log
  · obtain ⟨r', srv, t', hnd, ha⟩ := hans
    obtain ⟨rfl, rfl⟩ := one r' srv t' hnd ha
    by_cases hs : t'.head.settled = some true
    · exact .inl ((c41_outcome h ha).1 hs)
    · exact .inr (.inl ⟨srv, hnd, ha, ((c41_outcome h ha).2 hs).1⟩)
  · have hno : ∀ r' srv t' hnd, .answered r' srv d t' hnd ∉ σ.log := fun r' srv t' hnd ha => hans ⟨r', srv, t', hnd, ha⟩
    rcases h.owned.gone r d t hf with ⟨c, hc, hmsg⟩ | ⟨r', srv, hnd, ha⟩ | (h' | ⟨_, h'⟩)
    · exact .inl (disposalsOf_nil (h.owned.held c hc d t hmsg).disposals)
    · exact absurd ha (hno _ _ _ _)
    · exact .inl h'.2
    · exact .inr (.inr ⟨hno, h'.2⟩)

example : ((router.run (served ++ oneMessage false ++ [.answered 1 (.ok .accept)])).log.any fun
      | .answered 0 0 0 _ (.ok .accept) => true | _ => false) = true ∧
    sentDispositions (router.run (served ++ oneMessage false ++ [.answered 1 (.ok .accept)])).sess.log =
      [settling 9 (.accepted {})] := ⟨rfl, rfl⟩

example : sentDispositions (router.run (served ++ oneMessage false ++ [.answered 1 (.ok .reject)])).sess.log =
    [settling 9 (.rejected { error := none })] := rfl

example : sentDispositions (router.run (served ++ oneMessage true ++ [.answered 1 (.ok .reject)])).sess.log = [] := rfl

example : sentDispositions (router.run (served ++ oneMessage false ++ [.cancelled 1])).sess.log =
    [settling 9 nobodyAnswered] := rfl

/-! ## C42 -/

/-- **C42** Whatever the router does, it does in order: a handler is made only for a link the peer offered, from the
factory the target address of that very attach is routed to, and once; a message is taken only from a link that has a
handler at that time; it is given only to the handler made for the link it came from, after that handler was made, and
once. -/
theorem c42_in_order {σ : Router} (h : σ.Reachable) {pre : List REv} {e : REv} {post : List REv}
    (hl : σ.log = pre ++ e :: post) : MayHappen σ.route pre e :=
  h.traced.ordered pre e post hl

/-- **C42** The attach a router is asked about is one the peer sent, and the message given to a handler is one the link
handed out. -/
theorem c42_genuine {σ : Router} (h : σ.Reachable) :
    (∀ r frame, .asked r frame ∈ σ.log → .peer (.attach frame) ∈ σ.sess.log) ∧
    ∀ r d t, .fetched r d t ∈ σ.log → .handed r d t ∈ σ.sess.log :=
  ⟨h.offered.ask, h.counted.handed⟩

/-- The frame a link was offered with. -/
theorem asked_unique {σ : Router} (h : σ.Reachable) {r : Ref} {f f' : Attach} (h₁ : .asked r f ∈ σ.log)
    (h₂ : .asked r f' ∈ σ.log) : f = f' := by
  obtain ⟨p, q, hpq⟩ := List.append_of_mem h₁
  have n₁ : ∀ f, .asked r f ∉ p := h.traced.ordered p _ q hpq
  rw [hpq] at h₂
  rcases List.mem_append.mp h₂ with hm | hm
  · exact absurd hm (n₁ f')
  · rcases List.mem_cons.mp hm with hm | hm
    · cases hm; rfl
    · obtain ⟨p₂, q₂, hpq₂⟩ := List.append_of_mem hm
      have : ∀ f'', .asked r f'' ∉ p ++ .asked r f :: p₂ :=
        h.traced.ordered (p ++ .asked r f :: p₂) (.asked r f') q₂ (by rw [hpq, hpq₂]; simp)
      exact absurd (by simp) (this f)

/-- **C42** A link with no target address, or one nothing is registered for, never gets a handler, and no message is ever
taken from it or given to a handler. -/
theorem c42_unmatched {σ : Router} (h : σ.Reachable) {r : Ref} {frame : Attach} (ha : .asked r frame ∈ σ.log)
    (hn : NoHandler σ.route frame) :
    (∀ srv n, .created r srv n ∉ σ.log) ∧ (∀ d t, .fetched r d t ∉ σ.log) ∧ ∀ srv d t l, .invoked r srv d t l ∉ σ.log := by
  have hc : ∀ srv n, .created r srv n ∉ σ.log := by
    intro srv n hm
    obtain ⟨p, q, hpq⟩ := List.append_of_mem hm
    obtain ⟨⟨f, path, hf, hpath, hr⟩, _⟩ := h.traced.ordered p _ q hpq
    obtain rfl := asked_unique h ha (by rw [hpq]; exact List.mem_append_left _ hf)
    rw [hn path hpath] at hr
    cases hr
  refine ⟨hc, fun d t hm => ?_, fun srv d t l hm => ?_⟩
  · obtain ⟨p, q, hpq⟩ := List.append_of_mem hm
    obtain ⟨⟨srv, hh⟩, _⟩ := h.traced.ordered p _ q hpq
    obtain ⟨n, hcr⟩ := hh.created
    exact hc srv n (by rw [hpq]; exact List.mem_append_left _ hcr)
  · obtain ⟨p, q, hpq⟩ := List.append_of_mem hm
    obtain ⟨⟨n, hcr⟩, _⟩ := h.traced.ordered p _ q hpq
    exact hc srv n (by rw [hpq]; exact List.mem_append_left _ hcr)

theorem finishAttach_waits {s : Session} {r : Ref} (e : Option Error) (h : 0 < s.todo.countP (Router.waitingOf r)) :
    ∃ i resp, s.todo[i]? = some (.attached r resp) ∧ s.finishAttach r e = s.step (.complete i (fun a => a) e) := by
  rcases Router.finishAttach_step s r e with he | h'
  · unfold finishAttach at he ⊢
    split at he
    · next i hi =>
      obtain ⟨hlt, hp, _⟩ := List.findIdx?_eq_some_iff_getElem.mp hi
      cases ht : s.todo[i] with
      | ctl a => rw [ht] at hp; cases hp
      | attached r' resp =>
        rw [ht] at hp
        obtain rfl : r' = r := by simpa using hp
        exact ⟨i, resp, by rw [List.getElem?_eq_getElem hlt, ht], rfl⟩
    · next hi =>
      exfalso
      rw [List.findIdx?_eq_none_iff] at hi
      obtain ⟨t, hm, ht⟩ := List.countP_pos_iff.mp h
      have := hi t hm
      cases t with
      | ctl a => cases ht
      | attached r' resp => rw [waitingOf_eq] at ht; exact absurd ht (by simpa using this)
  · exact h'
where waitingOf_eq : ∀ {r r' : Ref} {resp : Attach}, Router.waitingOf r (.attached r' resp) = (r' == r) := rfl

theorem closeReceiver_waiting {s : Session} {r : Ref} {l : Rcv} {src : Option Source} (e : Error)
    (hl : s.rcv? r = some l) (ho : l.closed = false)
    (hs : s.links.get l.handle.toNat = some (.rcv (.opening (some (r, src))))) :
    ∃ a : Attach, a.name = l.name ∧ a.handle = l.handle ∧ a.role = .receiver ∧
      (s.closeReceiver r (some e)).log = s.log ++ [.frame (.attach a),
        .frame (.detach { handle := l.handle, closed := true, error := some e }), .detached s.ops (.ok ())] ∧
      ((s.closeReceiver r (some e)).rcv? r).map Rcv.closed = some true := by
  have hl' : s.newOp.rcv? r = some l := hl
  have hs' : s.newOp.links.get l.handle.toNat = some (.rcv (.opening (some (r, src)))) := hs
  unfold closeReceiver
  rw [hl]
  simp only [ho, Bool.false_eq_true, if_false]
  unfold detachReceiver
  dsimp only
  rw [hs']
  dsimp only
  rw [hl']
  refine ⟨{ name := l.name, handle := l.handle, role := .receiver, sndSettleMode := .mixed, rcvSettleMode := .first, source := src
            target := none, unsettled := none, incompleteUnsettled := false, initialDeliveryCount := some 0
            maxMessageSize := none, offeredCapabilities := none, desiredCapabilities := none, properties := none },
    rfl, rfl, rfl, ?_, ?_⟩
  · simp [removeLink, dropLink, hs, note, newOp]
  · rw [rcv?_modRcv, if_pos rfl]
    have : ∀ s₁ : Session, s₁.rcvs = s.rcvs → ((s₁.rcv? r).map fun l => { l with closed := true }).map Rcv.closed = some true := by
      intro s₁ h₁
      have : s₁.rcv? r = some l := by rw [rcv?, h₁]; exact hl
      rw [this]; rfl
    exact this _ (by simp [removeLink, dropLink, hs, note, newOp])

/-- **C42** When the router is asked about such a link and the link still waits for its answer, the peer is sent an attach
and at once a closing detach with the error detach-forced, and the link's slot is free again.  Partial: the link has to be
waiting still; if the peer detached it meanwhile, or the session ended, nothing is sent. -/
theorem c42_refused_partial {σ : Router} (h : σ.Reachable) {i : Nat} {r : Ref} {frame : Attach}
    (hc : σ.calls[i]? = some (.attached r frame)) (hn : NoHandler σ.route frame) {l : Rcv} {src : Option Source}
    (hl : σ.sess.rcv? r = some l) (ho : l.closed = false)
    (hs : σ.sess.links.get l.handle.toNat = some (.rcv (.opening (some (r, src))))) :
    ∃ (a : Attach) (e : Error), a.name = l.name ∧ a.handle = l.handle ∧ a.role = .receiver ∧
      e.condition = .linkError .detachForced ∧
      postedFrames (σ.step (.start i)).sess.log =
        postedFrames σ.sess.log ++ [.attach a, .detach { handle := l.handle, closed := true, error := some e }] ∧
      ((σ.step (.start i)).sess.rcv? r).map Rcv.closed = some true ∧
      ∀ srv n, .created r srv n ∉ (σ.step (.start i)).log := by
  have hw : 0 < σ.sess.todo.countP (Router.waitingOf r) :=
    Nat.lt_of_lt_of_le (List.countP_pos_iff.mpr ⟨_, List.mem_of_getElem? hc, by simp [Router.behalfOf]⟩) (h.offered.waits r)
  obtain ⟨e, hsess, hlog, he⟩ : ∃ e : Error, (σ.step (.start i)).sess = σ.sess.finishAttach r (some e) ∧
      (σ.step (.start i)).log = σ.log ++ [.asked r frame] ∧ e.condition = .linkError .detachForced := by
    have hst : σ.step (.start i) = σ.start i (.attached r frame) := by
      show (match σ.calls[i]? with | some c => σ.start i c | none => σ) = _
      rw [hc]
    rw [hst]
    unfold Router.start
    dsimp only
    cases hp : frame.target.bind Target.address with
    | none => exact ⟨_, rfl, rfl, rfl⟩
    | some path =>
      have : (σ.note (.asked r frame)).route path = none := hn path hp
      dsimp only
      rw [this]
      exact ⟨_, rfl, rfl, rfl⟩
  obtain ⟨j, resp, hj, hf⟩ := finishAttach_waits (some e) hw
  have hreach : (σ.step (.start i)).Reachable := by
    obtain ⟨σ₀, steps, hfr, rfl⟩ := h
    exact ⟨σ₀, steps ++ [.start i], hfr, by simp [Router.run]⟩
  have hun := c42_unmatched hreach (r := r) (frame := frame) (by rw [hlog]; simp)
    (by rw [(Router.step_view σ (.start i)).route]; exact hn)
  rw [hsess, hf]
  have hst : σ.sess.step (.complete j (fun a => a) (some e)) =
      { σ.sess.closeReceiver r (some e) with todo := (σ.sess.closeReceiver r (some e)).todo.eraseIdx j } := by
    show (match σ.sess.todo[j]? with
      | some t => let s := σ.sess.onComplete (fun a => a) (some e) t; { s with todo := s.todo.eraseIdx j }
      | none => σ.sess) = _
    rw [hj]
    rfl
  obtain ⟨a, h₁, h₂, h₃, hlg, hrc⟩ := closeReceiver_waiting e hl ho hs
  rw [hst]
  refine ⟨a, e, h₁, h₂, h₃, he, ?_, hrc, hun.1⟩
  show postedFrames (σ.sess.closeReceiver r (some e)).log = _
  rw [hlg, postedFrames, List.filterMap_append]
  rfl

/-- The message of a transfer is served without delay: the call takes the oldest message of the link, if the link has a
handler. -/
example : (router.run (served ++ oneMessage false)).log.map (fun
      | .asked r _ => (0, r) | .created r _ _ => (1, r) | .fetched r _ _ => (2, r) | .invoked r _ _ _ _ => (3, r)
      | .answered r _ _ _ _ => (4, r) | .released r => (5, r)) = [(0, 0), (1, 0), (2, 0), (3, 0)] := rfl

example : NoHandler router.route (attachTo "in" 5 (some "other")) ∧ NoHandler router.route (attachTo "in" 5 none) := by
  refine ⟨fun path h => ?_, fun path h => ?_⟩
  · cases h; rfl
  · cases h

example : ∃ l, (router.run (offer (some "other"))).sess.rcv? 0 = some l ∧ l.closed = false ∧
    (router.run (offer (some "other"))).calls[0]? = some (.attached 0 (attachTo "in" 5 (some "other"))) ∧
    (router.run (offer (some "other"))).sess.links.get l.handle.toNat = some (.rcv (.opening (some (0, none)))) :=
  ⟨_, rfl, rfl, rfl, rfl⟩

/-- The error the peer is told. -/
example : postedFrames (router.run (offer (some "other") ++ [.start 0])).sess.log |>.any (fun
    | .detach { handle := 0, closed := true, error := some { condition := .linkError .detachForced, description := some d, .. } } =>
      d.bytes == ascii "Target address is not supported: other"
    | _ => false) := rfl

/-! ### Violations -/

/-- **C42** Violated: A message is given to a handler after its link was detached and the handler released, if it was taken
before: the handler was not ready when the message came, the peer detached meanwhile.  (The code refers to the handler
through a reference into the table, which no longer has it, see the note in `Model/Router.lean`.) -/
theorem c42_dispatch_after_detach : ∃ (σ : Router) (pre : List REv) (t : Transfer), σ.Reachable ∧
    .peer (.detach closing) ∈ σ.sess.log ∧ σ.log = pre ++ [.released 0, .invoked 0 0 0 t false] :=
  ⟨detachedEarly, detachedEarly.log.take 3, theMessage false, router_reachable _, List.mem_of_getElem? (i := 7) rfl, rfl⟩

/-- **C42** Violated: The router is not told of links the application closes: when such a link is gone on both sides, its
handler stays in the table for good. -/
theorem c42_closed_link_keeps_handler : ∃ σ : Router, σ.Reachable ∧ (σ.sess.rcv? 0).map Rcv.closed = some true ∧
    σ.sess.links.get 0 = none ∧ (∀ c ∈ σ.calls, c = .done) ∧ σ.sess.todo = [] ∧ σ.handlers.get 0 = some (some 0) := by
  refine ⟨router.run (served ++ [.sess (.closeReceiver 0 none) true, .sess (.peer (.detach closing)) true]),
    router_reachable _, rfl, rfl, ?_, rfl, rfl⟩
  intro c hc
  have : c = .done ∨ c ∈ [] := List.mem_cons.mp hc
  simpa using this

end Amqp.Rt
