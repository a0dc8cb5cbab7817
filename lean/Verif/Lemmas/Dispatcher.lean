import Verif.Model.Dispatcher
import Verif.Lemmas.SessionTodo
import Verif.Lemmas.ConnectionStep
/-!
# Calls of the control service and the sessions' `todo`
-/

namespace Amqp.Rt

theorem calledIn_append (l l' : List CEv) : calledIn (l ++ l') = calledIn l ++ calledIn l' := List.filterMap_append

theorem calledIn_ses (s : Ref) (evs : List Ev) : calledIn (evs.map (.ses s)) = [] := by
  unfold calledIn
  rw [List.filterMap_map, List.filterMap_eq_nil_iff]
  intro e _
  rfl

/-- The action of this session, if it is one. -/
def CtlFrame.of (s : Ref) : CtlFrame → Option Todo
  | .action s' t => if s' = s then some t else none
  | _ => none

theorem Session.step_todo_other (x : Session) {st : Step} (hp : ∀ f, st ≠ .peer f) (hc : ∀ i edit e, st ≠ .complete i edit e) :
    (x.step st).todo = x.todo := by
  cases st <;> unfold Session.step
  case peer f => exact absurd rfl (hp f)
  case complete i edit e => exact absurd rfl (hc i edit e)
  case settle d y => by_cases hf : x.free d <;> simp [hf]
  case update d y => by_cases hf : x.free d <;> simp [hf]
  case dropDelivery d => by_cases hf : x.free d <;> simp [hf]
  case wait d => by_cases hf : x.held d <;> simp [hf]
  case endConfirmed => dsimp only; split <;> simp [Session.remoteEnd]
  case attachSender a => rfl
  case attachReceiver a => rfl
  all_goals simp

namespace Conn

/-- From `c` to `d` the calls `l` are made, and each is about the entry that was added to `todo` of its session. -/
structure Grows (c d : Conn) (l : List CtlFrame) : Prop where
  log : ∃ evs, d.log = c.log ++ evs ∧ calledIn evs = l
  todo : ∀ s x, c.obj? s = some x → ∃ x', d.obj? s = some x' ∧ x'.todo = x.todo ++ l.filterMap (·.of s)
  fresh : ∀ s x', c.obj? s = none → d.obj? s = some x' → x'.todo = []
  told : ∀ n s t, l[n]? = some (.action s t) → n = 0 ∧ (c.obj? s).isSome ∧ ∃ act, t = .ctl act

theorem Grows.of_eq {c d : Conn} (h : d.objs = c.objs) (h' : d.log = c.log) : Grows c d [] where
  log := ⟨[], by simp [h'], rfl⟩
  todo s x hx := ⟨x, by unfold obj? at *; rw [h]; exact hx, by simp⟩
  fresh s x' hn hx := by unfold obj? at *; rw [h, hn] at hx; cases hx
  told := by simp

theorem Grows.notes {c d : Conn} (evs : List CEv) (h : d.objs = c.objs) (h' : d.log = c.log ++ evs)
    (hq : ∀ s t, .action s t ∉ calledIn evs) : Grows c d (calledIn evs) where
  log := ⟨evs, h', rfl⟩
  todo s x hx := by
    refine ⟨x, by unfold obj? at *; rw [h]; exact hx, ?_⟩
    rw [List.filterMap_eq_nil_iff.2, List.append_nil]
    intro a ha
    cases a <;> first | rfl | exact absurd ha (hq _ _)
  fresh s x' hn hx := by unfold obj? at *; rw [h, hn] at hx; cases hx
  told n s t hn := absurd (List.mem_of_getElem? hn) (hq s t)

theorem Grows.note (c : Conn) {e : CEv} (h : calledIn [e] = []) : Grows c (c.note e) [] := by
  have := Grows.notes (c := c) (d := c.note e) [e] rfl rfl (by rw [h]; simp)
  rwa [h] at this

theorem Grows.trans {c d e : Conn} {l : List CtlFrame} (h : Grows c d l) (h' : Grows d e []) : Grows c e l where
  log := by
    obtain ⟨a, ha, hl⟩ := h.log
    obtain ⟨b, hb, hl'⟩ := h'.log
    exact ⟨a ++ b, by rw [hb, ha, List.append_assoc], by rw [calledIn_append, hl, hl', List.append_nil]⟩
  todo s x hx := by
    obtain ⟨y, hy, hy'⟩ := h.todo s x hx
    obtain ⟨z, hz, hz'⟩ := h'.todo s y hy
    exact ⟨z, hz, by simpa [hy'] using hz'⟩
  fresh s x' hn hx := by
    cases hd : d.obj? s with
    | none => exact h'.fresh s x' hd hx
    | some y =>
      obtain ⟨z, hz, hz'⟩ := h'.todo s y hd
      rw [hx] at hz
      cases hz
      rw [hz', h.fresh s y hn hd]
      rfl
  told := h.told

theorem Grows.after {c d e : Conn} {l : List CtlFrame} (ho : d.objs = c.objs) {evs : List CEv} (hl : d.log = c.log ++ evs)
    (hq : calledIn evs = []) (h : Grows d e l) : Grows c e l where
  log := by
    obtain ⟨b, hb, hl'⟩ := h.log
    exact ⟨evs ++ b, by rw [hb, hl, List.append_assoc], by rw [calledIn_append, hq, hl', List.nil_append]⟩
  todo s x hx := h.todo s x (by unfold obj? at *; rw [ho]; exact hx)
  fresh s x' hn hx := h.fresh s x' (by unfold obj? at *; rw [ho]; exact hn) hx
  told n s t hn := by
    have := h.told n s t hn
    unfold obj? at *
    rwa [ho] at this

theorem Grows.foldl {f : Conn → α → Conn} (h : ∀ c a, Grows c (f c a) []) (l : List α) (c : Conn) :
    Grows c (l.foldl f c) [] := by
  induction l generalizing c with
  | nil => exact .of_eq rfl rfl
  | cons a l ih => exact (h c a).trans (ih _)

theorem onSession_called (c : Conn) (s : Ref) (st : Step) :
    ∃ evs, (c.onSession s st).log = c.log ++ evs ∧ calledIn evs = [] := by
  cases hx : c.obj? s with
  | none => exact ⟨[], by unfold onSession; rw [hx]; simp, rfl⟩
  | some x =>
    obtain ⟨evs, _, h1, h2, h3, _, _, _, _, h8, _, h10⟩ := onSession_eq st hx
    exact ⟨_, h8, calledIn_ses s evs⟩

theorem Grows.onSession (c : Conn) (s : Ref) {st : Step} (hp : ∀ f, st ≠ .peer f)
    (hc : ∀ i edit e, st ≠ .complete i edit e) : Grows c (c.onSession s st) [] where
  log := onSession_called c s st
  todo t x hx := by
    rw [onSession_obj?]
    by_cases h : t = s
    · subst h
      rw [if_pos rfl, hx]
      exact ⟨_, rfl, by rw [x.step_todo_other hp hc]; simp⟩
    · rw [if_neg h]
      exact ⟨x, hx, by simp⟩
  fresh t x' hn hx := by
    rw [onSession_obj?] at hx
    by_cases h : t = s
    · subst h
      rw [if_pos rfl, hn] at hx
      cases hx
    · rw [if_neg h, hn] at hx
      cases hx
  told := by simp

theorem Grows.giveFrame (c : Conn) (s : Ref) (f : Frame) : ∃ l, Grows c (c.giveFrame s f) l := by
  cases hx : c.obj? s with
  | none => exact ⟨[], by unfold Conn.giveFrame; rw [hx]; exact .of_eq rfl rfl⟩
  | some x =>
    have hs : (c.onSession s (.peer f)).obj? s = some (x.step (.peer f)) := by rw [onSession_obj?, if_pos rfl, hx]; rfl
    obtain ⟨evs, hev, hq⟩ := onSession_called c s (.peer f)
    have hto : ∃ l : List Todo, (x.step (.peer f)).todo = x.todo ++ l ∧ (l = [] ∨ ∃ act, l = [.ctl act]) := by
      rcases step_todo x (.peer f) with ⟨i, edit, e, t, h, _⟩ | ⟨h, _⟩ | ⟨act, h, _⟩
      · cases h
      · exact ⟨[], by rw [h]; simp, .inl rfl⟩
      · exact ⟨_, h, .inr ⟨act, rfl⟩⟩
    obtain ⟨l, hl, hcase⟩ := hto
    have hd : c.giveFrame s f = { c.onSession s (.peer f) with
        log := (c.onSession s (.peer f)).log ++ l.map fun t => .called (.action s t) } := by
      unfold Conn.giveFrame callService
      rw [hx]
      dsimp only
      rw [hs]
      dsimp only
      rw [hl, List.drop_left]
    have hcall : calledIn (l.map fun t => CEv.called (.action s t)) = l.map (.action s) := by
      unfold calledIn
      rw [List.filterMap_map, ← List.filterMap_eq_map]
      rfl
    refine ⟨l.map (.action s), ?_, ?_, ?_, ?_⟩
    · rw [hd]
      exact ⟨evs ++ l.map fun t => .called (.action s t), by rw [hev, List.append_assoc], by rw [calledIn_append, hq, hcall]; rfl⟩
    · intro t y hy
      have ho : (c.giveFrame s f).obj? t = (c.onSession s (.peer f)).obj? t := by rw [hd]; rfl
      rw [ho, onSession_obj?]
      by_cases h : t = s
      · subst h
        rw [if_pos rfl, hx]
        rw [hx] at hy
        cases hy
        refine ⟨_, rfl, ?_⟩
        rw [hl, List.filterMap_map]
        congr 1
        rcases hcase with rfl | ⟨act, rfl⟩ <;> simp [CtlFrame.of]
      · rw [if_neg h]
        refine ⟨y, hy, ?_⟩
        rcases hcase with rfl | ⟨act, rfl⟩ <;> simp [CtlFrame.of, Ne.symm h]
    · intro t y hn hy
      have ho : (c.giveFrame s f).obj? t = (c.onSession s (.peer f)).obj? t := by rw [hd]; rfl
      rw [ho, onSession_obj?] at hy
      by_cases h : t = s
      · subst h
        rw [hx] at hn
        cases hn
      · rw [if_neg h, hn] at hy
        cases hy
    · intro n t k hn
      rcases hcase with rfl | ⟨act, rfl⟩
      · simp at hn
      · cases n with
        | zero =>
          simp at hn
          obtain ⟨rfl, rfl⟩ := hn
          exact ⟨rfl, by rw [hx]; rfl, act, rfl⟩
        | succ n => simp at hn

theorem Grows.setError (c : Conn) (e : PErr) : Grows c (c.setError e) [] := by
  unfold Conn.setError
  dsimp only
  refine Grows.trans (.note c (e := .failed e) rfl) ?_
  refine Grows.trans (Grows.foldl (f := failSession e) (fun c x => ?_) c.sessions.values _) ?_
  · unfold failSession
    split
    · exact .onSession c _ (by simp) (by simp)
    · exact .of_eq rfl rfl
  · refine Grows.trans (d := _) (.of_eq (d := { (c.sessions.values.foldl (failSession e) (c.note (.failed e))) with
      sessions := .empty, sessionsMap := .empty }) rfl rfl) ?_
    refine Grows.trans (Grows.foldl (f := dropState) (fun c x => ?_) c.sessions.values _) (.of_eq rfl rfl)
    unfold dropState
    split
    · exact .note c rfl
    · exact .of_eq rfl rfl

theorem Grows.begun (c : Conn) {d : Conn} {x : Session} {evs : List CEv} (hx : x.todo = []) (ho : d.objs = c.objs ++ [x])
    (hl : d.log = c.log ++ evs) (hq : calledIn evs = []) : Grows c d [] where
  log := ⟨evs, hl, hq⟩
  todo s y hy := by
    refine ⟨y, ?_, by simp⟩
    unfold obj? at *
    rw [ho, List.getElem?_append_left (List.getElem?_eq_some_iff.1 hy).1]
    exact hy
  fresh s y hn hy := by
    unfold obj? at *
    have hs : c.objs.length ≤ s := List.getElem?_eq_none_iff.1 hn
    rw [ho, List.getElem?_append_right hs] at hy
    cases hk : s - c.objs.length with
    | zero => rw [hk] at hy; cases hy; exact hx
    | succ n => rw [hk] at hy; simp at hy
  told := by simp

theorem Grows.unregister {c d : Conn} {l : List CtlFrame} (h : Grows c d l) (ch : UInt16) : Grows c (d.unregister ch) l := by
  refine h.trans ?_
  unfold Conn.unregister
  split <;> exact .of_eq rfl rfl

theorem Grows.handleFrame (c : Conn) (ch : UInt16) (f : Frame) : ∃ l, Grows c (c.handleFrame ch f) l := by
  have hn : ∀ {d l}, Grows (c.note (.peer ch f)) d l → Grows c d l := fun h =>
    Grows.after (c := c) (d := c.note (.peer ch f)) (evs := [.peer ch f]) rfl rfl rfl h
  unfold Conn.handleFrame
  dsimp only
  split
  · exact ⟨[], hn (.of_eq rfl rfl)⟩
  · next close =>
    split
    · exact ⟨[], hn (.setError _ _)⟩
    · refine ⟨[.protocolError (.closed close.error)], hn ?_⟩
      have h1 := Grows.setError (c.note (.peer ch (.close close))) (.closed close.error)
      refine ⟨?_, ?_, ?_, ?_⟩
      · obtain ⟨evs, h, hq⟩ := h1.log
        refine ⟨evs ++ [.frame 0 (.close { error := none }), .called (.protocolError (.closed close.error))], ?_, ?_⟩
        · simp [Conn.note, post, h] at *
          rw [h]
          simp
        · rw [calledIn_append, hq]; rfl
      · intro s x hx
        exact h1.todo s x hx
      · intro s x hx hx'
        exact h1.fresh s x hx hx'
      · intro n s t hn
        cases n <;> simp at hn
  · next b =>
    refine ⟨[], hn ?_⟩
    split
    · unfold completeLocal
      split
      · next op _ =>
        exact .begun (evs := [.begun ch c.objs.length, .opened op c.objs.length]) _ (by rfl) rfl (by simp [Conn.note]) rfl
      · exact .of_eq rfl rfl
    · exact .begun (evs := [.begun ch c.objs.length, .frame (UInt16.ofNat c.sessions.vacantKey)
        (beginFrame (some ch) b.incomingWindow none none none)]) _ (by rfl) rfl (by simp [Conn.note, registerRemote, post]) rfl
  · split
    · exact ⟨[], hn (.of_eq rfl rfl)⟩
    · suffices ∃ l, Grows (c.note (.peer ch f)) ((c.note (.peer ch f)).sessionFrame ch f) l by
        obtain ⟨l, h⟩ := this
        exact ⟨l, hn h⟩
      unfold sessionFrame
      split
      · exact ⟨[], .note _ rfl⟩
      · exact ⟨[], .note _ rfl⟩
      · split
        · obtain ⟨l, h⟩ := Grows.giveFrame (c.note (.peer ch _)) _ _
          exact ⟨l, h.unregister ch⟩
        · exact Grows.giveFrame _ _ _
      · split
        · exact ⟨[], (Grows.onSession _ _ (by simp) (by simp)).unregister ch⟩
        · exact ⟨[], .of_eq rfl rfl⟩

/-- Every step but the answer to a call only adds to `todo`, and calls the control service about what it adds. -/
theorem Grows.step (c : Conn) (st : CStep) (h : ∀ s i edit e, st ≠ .local s (.complete i edit e)) :
    ∃ l, Grows c (c.step st) l := by
  cases st <;> unfold Conn.step <;> try dsimp only
  case recv ch f => exact Grows.handleFrame c ch f
  case «local» s st =>
    split
    · refine ⟨[], .onSession c s ?_ fun i edit e he => h s i edit e (by rw [he])⟩
      rintro f rfl
      contradiction
    · exact ⟨[], .of_eq rfl rfl⟩
  case openSession off des props =>
    refine ⟨[], ?_⟩
    unfold Conn.openSession
    dsimp only
    split
    · exact .after (d := { c with ops := c.ops + 1 }) (evs := []) rfl (by simp) rfl (.note _ rfl)
    · split
      · exact .after (d := { c with ops := c.ops + 1 }) (evs := []) rfl (by simp) rfl (.note _ rfl)
      · exact .after (d := { c with ops := c.ops + 1, sessions := c.sessions.insert (.opening c.ops) }) (evs := []) rfl
          (by simp) rfl (.note _ rfl)
  case forceClose =>
    refine ⟨[], ?_⟩
    unfold Conn.forceClose
    exact .after (d := { c with state := .drop }.note .ioClosed) (evs := [.ioClosed]) rfl rfl rfl (.setError _ _)
  case close e => exact ⟨_, .notes [.frame 0 (.close { error := e }), .ioClosed] rfl (by simp [Conn.close, Conn.note, post]) (by simp [calledIn])⟩
  case poll =>
    refine ⟨_, .notes (c.queue.map fun q => .called (.queued q.1 q.2)) rfl rfl ?_⟩
    intro s t ht
    unfold calledIn at ht
    rw [List.filterMap_map, List.mem_filterMap] at ht
    obtain ⟨q, _, hq⟩ := ht
    cases hq
  case stop e =>
    cases e with
    | some e => exact ⟨_, .notes [.called (.protocolError e)] rfl rfl (by simp [calledIn])⟩
    | none => exact ⟨_, .notes [.called .disconnected] rfl rfl (by simp [calledIn])⟩
  case fail e => exact ⟨[], .setError c e⟩

end Conn
end Amqp.Rt
