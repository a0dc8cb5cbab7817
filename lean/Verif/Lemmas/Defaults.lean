import Verif.Spec.Defaults
import Verif.Lemmas.Serve
/-!
# Services that answer at once
-/

namespace Amqp.Rt
open Conn

theorem backwards_concat (p x : α) (l : List α) : backwards (p :: (l ++ [x])) = p :: backwards (x :: l) := by
  simp [backwards]

theorem backwards_map (f : α → β) (l : List α) : backwards (l.map f) = (backwards l).map f := by
  cases l <;> simp [backwards]

theorem backwards_perm (l : List α) : (backwards l).Perm l := by
  cases l with
  | nil => exact .refl _
  | cons a l => exact (List.reverse_perm l).cons a

namespace Disp

theorem handle_map (d : Disp) (id : Nat) (k : Call) (a : Answer) :
    ∃ g : Nat × Call → Nat × Call, (d.handle id k a).futs = d.futs.map g ∧ ∀ p, (g p).1 = p.1 ∧
      (∀ e, p.2 = .protocolError e → (g p).2 = .protocolError e) ∧ (g p).2.isError = p.2.isError := by
  have same : ∀ d' : Disp, d'.futs = d.futs → ∃ g : Nat × Call → Nat × Call, d'.futs = d.futs.map g ∧ ∀ p, (g p).1 = p.1 ∧
      (∀ e, p.2 = .protocolError e → (g p).2 = .protocolError e) ∧ (g p).2.isError = p.2.isError :=
    fun d' h => ⟨fun p => p, by rw [h, List.map_id'], fun p => ⟨rfl, fun _ h => h, rfl⟩⟩
  cases k with
  | action s i t =>
    refine ⟨shift s i, ?_, ?_⟩
    · unfold handle; dsimp only; rw [complete_eq]
    · rintro ⟨j, k⟩
      refine ⟨shift_fst s i _, ?_, ?_⟩
      · rintro e rfl; rfl
      · cases k <;> rfl
  | protocolError e => exact same _ (by unfold handle; dsimp only; rw [fail_eq])
  | disconnected => exact same _ (by unfold handle; dsimp only; rw [fail_eq])
  | notice => exact same _ rfl

theorem handle_error (d : Disp) (id : Nat) (k : Call) (a : Answer) (h : k.isError = false) : (d.handle id k a).error = d.error := by
  cases k with
  | action s i t => unfold handle; dsimp only; rw [complete_eq]
  | protocolError e => cases h
  | disconnected => unfold handle; dsimp only; rw [fail_eq]
  | notice => rfl

theorem pollFrom_go (ready : Nat → Option Answer) (n idx : Nat) {d : Disp} {id : Nat} {k : Call} {a : Answer}
    (hk : d.futs[idx]? = some (id, k)) (ha : ready id = some a) :
    d.pollFrom ready (n + 1) idx = if k.isError then { d with futs := swapRemove d.futs idx }.handle id k a
      else pollFrom ready n idx ({ d with futs := swapRemove d.futs idx }.handle id k a) := by
  conv => lhs; unfold Disp.pollFrom
  rw [hk]
  dsimp only
  rw [ha]
  cases k <;> rfl

theorem swapRemove_first (p : α) (l : List α) :
    swapRemove (p :: l) 0 = [] ∧ l = [] ∨ ∃ x l', l = l' ++ [x] ∧ swapRemove (p :: l) 0 = x :: l' := by
  rcases List.eq_nil_or_concat l with rfl | ⟨l', x, rfl⟩
  · exact .inl ⟨rfl, rfl⟩
  · refine .inr ⟨x, l', by simp, ?_⟩
    have := swapRemove_concat_lt (l := p :: l') (i := 0) x (by simp)
    simpa using this

/-- The loop, when all are answered: it works through the vector backwards until a protocol error. -/
theorem pollFrom_instant {ready : Nat → Option Answer} (hi : Instant ready) (n : Nat) (d : Disp) (hn : d.futs.length ≤ n) :
    ((∀ p ∈ d.futs, p.2.isError = false) ∧ (d.pollFrom ready n 0).futs = [] ∧ (d.pollFrom ready n 0).error = d.error ∧
      (d.pollFrom ready n 0).answered = d.answered ++ backwards (d.futs.map Prod.fst)) ∨
    ∃ l₁ id e l₂, backwards d.futs = l₁ ++ (id, .protocolError e) :: l₂ ∧ (∀ p ∈ l₁, p.2.isError = false) ∧
      (d.pollFrom ready n 0).error = some e ∧
      (d.pollFrom ready n 0).answered = d.answered ++ l₁.map Prod.fst ++ [id] ∧
      (backwards (d.pollFrom ready n 0).futs).map Prod.fst = l₂.map Prod.fst := by
  induction n generalizing d with
  | zero =>
    have : d.futs = [] := List.eq_nil_of_length_eq_zero (Nat.le_zero.1 hn)
    left
    unfold pollFrom
    rw [this]
    exact ⟨by simp, rfl, rfl, by simp [backwards]⟩
  | succ n ih =>
    cases hf : d.futs with
    | nil =>
      left
      unfold pollFrom
      rw [hf]
      exact ⟨by simp, hf, rfl, by simp [backwards]⟩
    | cons p rest =>
      obtain ⟨id, k⟩ := p
      have hk : d.futs[0]? = some (id, k) := by rw [hf]; rfl
      obtain ⟨a, ha⟩ := Option.isSome_iff_exists.1 (hi id)
      rw [pollFrom_go ready n 0 hk ha]
      obtain ⟨g, hg, hg'⟩ := handle_map { d with futs := swapRemove d.futs 0 } id k a
      have hid := (handle_ids { d with futs := swapRemove d.futs 0 } id k a).2.1
      have herr := handle_error { d with futs := swapRemove d.futs 0 } id k a
      have herr' : ∀ e, k = .protocolError e → ({ d with futs := swapRemove d.futs 0 }.handle id k a).error = some e := by
        rintro e rfl; rfl
      have hsr := swapRemove_first (id, k) rest
      rw [← hf] at hsr
      dsimp only at hg hid herr
      generalize { d with futs := swapRemove d.futs 0 }.handle id k a = d' at *
      have hback : (backwards d'.futs).map Prod.fst = rest.reverse.map Prod.fst := by
        rw [hg, ← backwards_map, List.map_map, show Prod.fst ∘ g = Prod.fst from funext fun p => (hg' p).1, backwards_map]
        rcases hsr with ⟨h1, h2⟩ | ⟨x, l', h1, h2⟩
        · rw [h1, h2]; rfl
        · rw [h2, h1]; simp [backwards]
      have hback' : backwards d'.futs = rest.reverse.map g := by
        rw [hg, backwards_map]
        rcases hsr with ⟨h1, h2⟩ | ⟨x, l', h1, h2⟩
        · rw [h1, h2]; rfl
        · rw [h2, h1]; simp [backwards]
      cases hE : k.isError with
      | true =>
        right
        rw [if_pos rfl]
        cases k <;> first | cases hE; done | skip
        next e => exact ⟨[], id, e, rest.reverse, rfl, by simp, herr' e rfl, by rw [hid]; simp, hback⟩
      | false =>
        rw [if_neg (by simp)]
        have hlen : d'.futs.length ≤ n := by
          rw [hg, List.length_map]
          have := swapRemove_length hk
          omega
        have hids : backwards (d'.futs.map Prod.fst) = rest.reverse.map Prod.fst := by rw [backwards_map, hback]
        rcases ih d' hlen with ⟨h1, h2, h3, h4⟩ | ⟨l₁, id', e, l₂, h1, h2, h3, h4, h5⟩
        · left
          refine ⟨?_, h2, h3.trans (herr hE), ?_⟩
          · intro p hp
            rcases List.mem_cons.1 hp with rfl | hp
            · exact hE
            · have : g p ∈ d'.futs := (backwards_perm d'.futs).mem_iff.1 (by
                rw [hback']; exact List.mem_map_of_mem (List.mem_reverse.2 hp))
              rw [← (hg' p).2.2]
              exact h1 _ this
          · rw [h4, hid, hids]
            simp [backwards]
        · right
          rw [hback'] at h1
          obtain ⟨m₁, m', hm, rfl, hm'⟩ := List.map_eq_append_iff.1 h1
          obtain ⟨⟨i, kk⟩, m₂, rfl, hq, rfl⟩ := List.map_eq_cons_iff.1 hm'
          have hkk : i = id' ∧ kk = .protocolError e := by
            have h6 := hg' (i, kk)
            rw [hq] at h6
            refine ⟨h6.1.symm, ?_⟩
            have h7 : kk.isError = true := h6.2.2.symm
            cases kk <;> first | cases h7; done | skip
            next e' =>
              have := h6.2.1 e' rfl
              dsimp only at this
              rw [this]
          obtain ⟨rfl, rfl⟩ := hkk
          have hmap : ∀ m : List (Nat × Call), (m.map g).map Prod.fst = m.map Prod.fst := fun m => by
            rw [List.map_map]; congr 1; exact funext fun p => (hg' p).1
          refine ⟨(id, k) :: m₁, i, e, m₂, by simp [backwards, hm], ?_, h3, ?_, by rw [h5, hmap]⟩
          · intro p hp
            rcases List.mem_cons.1 hp with rfl | hp
            · exact hE
            · rw [← (hg' p).2.2]; exact h2 _ (List.mem_map_of_mem hp)
          · rw [h4, hid, hmap]; simp
end Disp

/-! ## Who reports a protocol error -/

/-- From `c` to `d` the control service is not told of a protocol error. -/
def Conn.Calm (c d : Conn) : Prop := ∃ evs, d.log = c.log ++ evs ∧ ∀ e, CEv.called (.protocolError e) ∉ evs

theorem Conn.Calm.of_log {c d : Conn} (evs : List CEv) (h : d.log = c.log ++ evs) (he : ∀ e, CEv.called (.protocolError e) ∉ evs) :
    c.Calm d := ⟨evs, h, he⟩

theorem Conn.Calm.refl (c : Conn) : c.Calm c := ⟨[], by simp, by simp⟩

theorem Conn.Calm.trans {c d e : Conn} (h : c.Calm d) (h' : d.Calm e) : c.Calm e := by
  obtain ⟨a, ha, h1⟩ := h
  obtain ⟨b, hb, h2⟩ := h'
  refine ⟨a ++ b, by rw [hb, ha, List.append_assoc], fun e hm => ?_⟩
  rcases List.mem_append.1 hm with hm | hm
  · exact h1 e hm
  · exact h2 e hm

theorem Conn.Calm.same {c d e : Conn} (h : c.Calm d) (hl : e.log = d.log) : c.Calm e := by
  obtain ⟨a, ha, h1⟩ := h
  exact ⟨a, by rw [hl, ha], h1⟩

theorem Conn.Calm.session (c : Conn) (s : Ref) (st : Step) : c.Calm (c.onSession s st) := by
  obtain ⟨evs, he, hq⟩ := onSession_called c s st
  refine ⟨evs, he, fun e hm => ?_⟩
  have : CtlFrame.protocolError e ∈ calledIn evs := List.mem_filterMap.2 ⟨_, hm, rfl⟩
  rw [hq] at this
  cases this

theorem Conn.Calm.setError (c : Conn) (e : PErr) : c.Calm (c.setError e) := by
  obtain ⟨evs, he, hq⟩ := (Grows.setError c e).log
  refine ⟨evs, he, fun e hm => ?_⟩
  have : CtlFrame.protocolError e ∈ calledIn evs := List.mem_filterMap.2 ⟨_, hm, rfl⟩
  rw [hq] at this
  cases this

theorem Conn.Calm.give (c : Conn) (s : Ref) (f : Frame) : c.Calm (c.giveFrame s f) := by
  unfold giveFrame
  split
  · refine (Conn.Calm.session c s (.peer f)).trans ?_
    unfold callService
    split
    · exact .of_log _ rfl fun e hm => by obtain ⟨_, _, h⟩ := List.mem_map.1 hm; cases h
    · exact .refl _
  · exact .refl c

theorem Conn.Calm.unregister {c d : Conn} (h : c.Calm d) (ch : UInt16) : c.Calm (d.unregister ch) := by
  unfold Conn.unregister
  split
  · exact h.same rfl
  · exact h

theorem Conn.Calm.sessionFrame (c : Conn) (ch : UInt16) (f : Frame) : c.Calm (c.sessionFrame ch f) := by
  unfold Conn.sessionFrame
  split
  · exact .of_log [.refused _] rfl (by simp)
  · exact .of_log [.refused _] rfl (by simp)
  · split
    · exact (Conn.Calm.give ..).unregister ch
    · exact .give ..
  · split
    · exact (Conn.Calm.session ..).unregister ch
    · exact .refl c

/-- Only a `Close` of the peer and an error of the transport are reported as protocol errors. -/
theorem Conn.Calm.step (c : Conn) {st : CStep} (h1 : ∀ ch cl, st ≠ .recv ch (.close cl)) (h2 : ∀ e, st ≠ .stop (some e)) :
    c.Calm (c.step st) := by
  cases st
  case recv ch f =>
    show c.Calm (c.handleFrame ch f)
    unfold Conn.handleFrame
    refine Conn.Calm.trans (d := c.note (.peer ch f)) (.of_log [.peer ch f] rfl (by simp)) ?_
    dsimp only
    cases f
    case empty => exact .refl _
    case close cl => exact absurd rfl (h1 ch cl)
    case begin_ b =>
      dsimp only
      generalize c.note (.peer ch (.begin_ b)) = c
      split
      · unfold completeLocal
        split
        · next op _ => exact .of_log [.begun ch c.objs.length, .opened op c.objs.length] (by simp [note]) (by simp)
        · exact .refl _
      · exact .of_log [.begun ch c.objs.length, .frame (UInt16.ofNat c.sessions.vacantKey)
          (beginFrame (some ch) b.incomingWindow none none none)] (by simp [registerRemote, note, post]) (by simp)
    all_goals
      dsimp only
      split
      · exact .refl _
      · exact .sessionFrame _ _ _
  case «local» s st =>
    show c.Calm (if st.isLocal then c.onSession s st else c)
    split
    · exact .session c s st
    · exact .refl c
  case openSession off des props =>
    show c.Calm (c.openSession off des props)
    unfold openSession
    dsimp only
    split
    · exact ⟨[_], rfl, by simp⟩
    · split
      · exact ⟨[_], rfl, by simp⟩
      · exact ⟨[_], rfl, by simp⟩
  case forceClose =>
    exact Conn.Calm.trans (d := { c with state := .drop }.note .ioClosed) ⟨[.ioClosed], rfl, by simp⟩ (.setError _ _)
  case close e => exact .of_log [.frame 0 (.close { error := e }), .ioClosed] (by simp [Conn.step, Conn.close, post, note]) (by simp)
  case poll => exact .of_log _ rfl fun e hm => by obtain ⟨_, _, h⟩ := List.mem_map.1 hm; cases h
  case stop e =>
    cases e
    · exact ⟨[_], rfl, by simp⟩
    · next e => exact absurd rfl (h2 e)
  case fail e => exact .setError c e

namespace Disp

/-- No protocol error is known to the dispatcher. -/
structure Calm (d : Disp) : Prop where
  error : d.error = none
  futs : ∀ p ∈ d.futs, p.2.isError = false

theorem Calm.advance {d : Disp} (h : d.Calm) {st : CStep} (h1 : ∀ ch cl, st ≠ .recv ch (.close cl)) (h2 : ∀ e, st ≠ .stop (some e)) :
    (d.advance st).Calm := by
  refine ⟨h.error, ?_⟩
  obtain ⟨evs, he, hc⟩ := Conn.Calm.step d.conn h1 h2
  unfold Disp.advance
  dsimp only
  rw [he, List.drop_left]
  intro p hp
  rcases List.mem_append.1 hp with hp | hp
  · exact h.futs p hp
  · obtain ⟨n, hn, rfl⟩ := List.mem_mapIdx.1 hp
    have hk := List.getElem_mem hn
    generalize (calledIn evs)[n] = k at hk
    cases k
    case protocolError e =>
      obtain ⟨ev, hev, heq⟩ := List.mem_filterMap.1 hk
      cases ev <;> first | cases heq; done | skip
      next k' =>
        cases heq
        exact absurd hev (hc e)
    all_goals rfl

theorem Calm.handle {d : Disp} (h : d.Calm) (id : Nat) {k : Call} (hk : k.isError = false) (a : Answer) : (d.handle id k a).Calm := by
  obtain ⟨g, hg, hg'⟩ := handle_map d id k a
  refine ⟨(handle_error d id k a hk).trans h.error, fun p hp => ?_⟩
  rw [hg] at hp
  obtain ⟨q, hq, rfl⟩ := List.mem_map.1 hp
  rw [(hg' q).2.2]
  exact h.futs q hq

theorem Calm.complete {d : Disp} (h : d.Calm) (s : Ref) (i : Nat) (a : Answer) : (d.complete s i a).Calm := by
  rw [complete_eq]
  refine ⟨h.error, fun p hp => ?_⟩
  obtain ⟨q, hq, rfl⟩ := List.mem_map.1 hp
  rw [← h.futs q hq]
  obtain ⟨j, k⟩ := q
  cases k <;> rfl

theorem Calm.pollFrom (ready : Nat → Option Answer) (n idx : Nat) {d : Disp} (h : d.Calm) : (d.pollFrom ready n idx).Calm := by
  induction n generalizing idx d with
  | zero => exact h
  | succ n ih =>
    cases hk : d.futs[idx]? with
    | none => unfold Disp.pollFrom; rw [hk]; exact h
    | some p =>
      obtain ⟨id, k⟩ := p
      cases ha : ready id with
      | none =>
        unfold Disp.pollFrom
        rw [hk]
        dsimp only
        rw [ha]
        exact ih _ h
      | some a =>
        have hE := h.futs _ (List.mem_of_getElem? hk)
        rw [pollFrom_go ready n idx hk ha, if_neg (by rw [hE]; simp)]
        refine ih _ (Calm.handle (d := { d with futs := swapRemove d.futs idx }) ⟨h.error, fun p hp => h.futs p ?_⟩ id hE a)
        exact (swapRemove_perm hk).mem_iff.2 (List.mem_cons_of_mem _ hp)

theorem Calm.step {d : Disp} (h : d.Calm) {st : DStep} (h1 : ∀ ch cl, st ≠ .recv ch (.close cl)) (h2 : ∀ e, st ≠ .own (.stop (some e))) :
    (d.step st).Calm := by
  cases st
  case recv ch f => exact h.advance (fun ch' cl hc => h1 ch' cl (by cases hc; rfl)) (by simp)
  case own st =>
    show (if st.outside then d.advance st else d).Calm
    split
    · next ho =>
      refine h.advance (fun ch cl hc => ?_) (fun e hc => h2 e (by rw [hc]))
      rw [hc] at ho
      cases ho
    · exact h
  case attached s i a =>
    show Calm (match (d.conn.obj? s).bind (·.todo[i]?) with
      | some (.attached _ _) => d.complete s i a
      | _ => d)
    split
    · exact h.complete s i a
    · exact h
  case poll r => exact (h.advance (by simp) (by simp)).pollFrom r _ 0
  case shutdown => exact h.advance (by simp) (by simp)

end Disp

namespace Serve

theorem calm_step {σ : Serve} (h : σ.disp.Calm) (hs : Stopped.closes σ.stopped = 0) {st : SStep} (hq : st.Quiet) :
    (σ.step st).disp.Calm ∧ Stopped.closes (σ.step st).stopped = 0 := by
  cases st
  case ready p c =>
    rw [step_ready]
    split
    · exact ⟨h, hs⟩
    · unfold ready
      rw [h.error]
      obtain ⟨h1, h2⟩ := hq
      cases p <;> first | exact absurd rfl (h1 _) | (cases c <;> first | exact absurd rfl (h2 _) | exact ⟨h, hs⟩)
  case disp a =>
    have key : (∀ ch cl, a ≠ .recv ch (.close cl)) ∧ ∀ e, a ≠ .own (.stop (some e)) := by
      constructor
      · rintro ch cl rfl; exact hq
      · rintro e rfl; exact hq
    have hd := h.step key.1 key.2
    cases a
    case recv ch f =>
      show (if σ.stopped.isSome then σ else σ.call ch f).disp.Calm ∧ Stopped.closes (if σ.stopped.isSome then σ else σ.call ch f).stopped = 0
      split
      · exact ⟨h, hs⟩
      · refine ⟨hd, ?_⟩
        unfold call; dsimp only
        cases refusedIn _ <;> rfl
    case poll r =>
      show (if σ.stopped.isSome then σ else { σ with disp := σ.disp.step (.poll r) }).disp.Calm ∧
        Stopped.closes (if σ.stopped.isSome then σ else { σ with disp := σ.disp.step (.poll r) }).stopped = 0
      split
      · exact ⟨h, hs⟩
      · exact ⟨hd, hs⟩
    all_goals exact ⟨hd, hs⟩

theorem quiet_run (cfg : ConnCfg) (steps : List SStep) (hq : ∀ st ∈ steps, st.Quiet) :
    ((new cfg).run steps).disp.Calm ∧ Stopped.closes ((new cfg).run steps).stopped = 0 ∧
    closesIn ((new cfg).run steps).disp.conn.log = [] := by
  induction steps using List.reverseRecOn with
  | nil => exact ⟨⟨rfl, by simp [new, run, Disp.new]⟩, rfl, rfl⟩
  | append_singleton steps st ih =>
    obtain ⟨h1, h2, h3⟩ := ih fun s hm => hq s (List.mem_append_left _ hm)
    have hst := hq st (by simp)
    rw [run_snoc]
    obtain ⟨h4, h5⟩ := calm_step h1 h2 hst
    refine ⟨h4, h5, ?_⟩
    have hr : ((new cfg).run steps).Reachable := ⟨cfg, steps, rfl⟩
    generalize (new cfg).run steps = σ at *
    have key : ∀ (a : DStep), a.answers = [] → closesIn (σ.disp.step a).conn.log = [] := by
      intro a ha
      obtain ⟨evs, e1, e2, _⟩ := (Disp.says_step hr.conn.not_closing a).log
      rw [e1, closesIn_append, e2, ha, h3]; rfl
    cases st
    case ready p c =>
      rw [step_ready] at h5 ⊢
      split at h5
      · next hs => rw [if_pos hs]; exact h3
      · next hs =>
        rw [if_neg hs]
        rcases ready_cases σ p c with h | ⟨e, w, hw, h⟩
        · rw [h]; exact h3
        · rw [h] at h5; dsimp only at h5; rw [hw] at h5; cases h5
    case disp a =>
      have ha : a.answers = [] := by
        cases a
        case recv ch f => cases f <;> first | rfl | exact hst.elim
        case own st => cases st <;> first | rfl | exact hst.elim
        all_goals rfl
      cases a
      case recv ch f =>
        show closesIn (if σ.stopped.isSome then σ else σ.call ch f).disp.conn.log = []
        split
        · exact h3
        · exact key _ ha
      case poll r =>
        show closesIn (if σ.stopped.isSome then σ else { σ with disp := σ.disp.step (.poll r) }).disp.conn.log = []
        split
        · exact h3
        · exact key _ ha
      all_goals exact key _ ha

end Serve
end Amqp.Rt
