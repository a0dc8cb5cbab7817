import Verif.Lemmas.ConnectionInv
import Verif.Lemmas.SessionOps
/-!
# Which requests for sessions are answered
-/

namespace Amqp.Rt
namespace Conn

/-- Answers given to request `op`, and entries that hold its channel. -/
def bal (c : Conn) (op : Nat) : Nat := c.answered op + c.awaiting op

/-- No request is made, and each is accounted for as before. -/
def Kept (c d : Conn) : Prop := d.ops = c.ops ∧ ∀ op, d.bal op = c.bal op

theorem Kept.trans {c d e : Conn} (h : Kept c d) (h' : Kept d e) : Kept c e :=
  ⟨h'.1.trans h.1, fun op => (h'.2 op).trans (h.2 op)⟩

theorem Kept.refl (c : Conn) : Kept c c := ⟨rfl, fun _ => rfl⟩

theorem Kept.log {c d : Conn} {l : List CEv} (hs : d.sessions = c.sessions) (hl : d.log = c.log ++ l)
    (h : ∀ e ∈ l, ∀ op, e.answers op = false) (ho : d.ops = c.ops) : Kept c d := by
  refine ⟨ho, fun op => ?_⟩
  unfold bal answered awaiting
  have hz : l.countP (CEv.answers op) = 0 := List.countP_eq_zero.mpr fun e he => by rw [h e he]; simp
  rw [hs, hl, List.countP_append, hz, Nat.add_zero]

theorem note_kept (c : Conn) {e : CEv} (h : ∀ op, e.answers op = false) : Kept c (c.note e) :=
  .log (l := [e]) rfl rfl (by simpa using h) rfl

theorem closeSession_kept (c : Conn) (id) : Kept c (c.closeSession id) := by
  unfold closeSession
  split
  · next s h =>
    refine ⟨rfl, fun op => ?_⟩
    have := Slab.countP_set (SesState.awaits op) h (.closing s)
    simp only [SesState.awaits] at this
    unfold bal answered awaiting
    dsimp only
    simp at this
    omega
  · exact .refl c

theorem absorb_kept (s : Ref) (c : Conn) (e : Ev) : Kept c (absorb s c e) := by
  have hn : Kept c (c.note (.ses s e)) := note_kept c fun _ => rfl
  unfold absorb
  dsimp only
  split
  · exact hn.trans (closeSession_kept _ _)
  · exact hn.trans (.log (l := []) rfl (by simp) (by simp) rfl)
  · exact hn

theorem foldl_kept {α : Type} {f : Conn → α → Conn} (h : ∀ c a, Kept c (f c a)) (l : List α) (c : Conn) : Kept c (l.foldl f c) := by
  induction l generalizing c with
  | nil => exact .refl c
  | cons a l ih => exact (h c a).trans (ih _)

theorem onSession_kept (c : Conn) (s : Ref) (st : Step) : Kept c (c.onSession s st) := by
  unfold onSession
  split
  · exact Kept.trans (d := { c with objs := _ }) (.log (l := []) rfl (by simp) (by simp) rfl) (foldl_kept (absorb_kept s) _ _)
  · exact .refl c

theorem giveFrame_kept (c : Conn) (s : Ref) (f : Frame) : Kept c (c.giveFrame s f) := by
  unfold giveFrame
  split
  · refine (onSession_kept c s (.peer f)).trans ?_
    unfold callService
    split
    · refine .log rfl rfl (fun e he op => ?_) rfl
      obtain ⟨_, _, rfl⟩ := List.mem_map.mp he
      rfl
    · exact .refl _
  · exact .refl c

/-- Entries of sessions being opened are not touched by a session. -/
theorem closeSession_opening {c : Conn} {id k : Nat} {op : Ref} (h : (c.closeSession id).sessions.get k = some (.opening op)) :
    c.sessions.get k = some (.opening op) := by
  unfold closeSession at h
  split at h
  · rcases Slab.get_set_some h with ⟨_, h⟩ | ⟨_, h⟩
    · cases h
    · exact h
  · exact h

theorem absorb_opening {s : Ref} {c : Conn} {e : Ev} {k : Nat} {op : Ref} (h : (absorb s c e).sessions.get k = some (.opening op)) :
    c.sessions.get k = some (.opening op) := by
  unfold absorb at h
  dsimp only at h
  split at h
  · exact closeSession_opening (c := c.note _) h
  · exact h
  · exact h

theorem onSession_opening {c : Conn} {s : Ref} {st : Step} {k : Nat} {op : Ref}
    (h : (c.onSession s st).sessions.get k = some (.opening op)) : c.sessions.get k = some (.opening op) := by
  unfold onSession at h
  split at h
  · next x hx =>
    have go : ∀ (l : List Ev) (d : Conn), (l.foldl (absorb s) d).sessions.get k = some (.opening op) →
        d.sessions.get k = some (.opening op) := by
      intro l
      induction l with
      | nil => exact fun _ h => h
      | cons e l ih => exact fun d h => absorb_opening (ih _ h)
    exact go (((x.step st).log).drop x.log.length) { c with objs := c.objs.set s (x.step st) } h
  · exact h

theorem onSession_facts (c : Conn) (s : Ref) (st : Step) (op : Nat) :
    (c.onSession s st).sessionsMap = c.sessionsMap ∧ (c.onSession s st).answered op = c.answered op := by
  cases hx : c.obj? s with
  | none => unfold onSession; rw [hx]; exact ⟨rfl, rfl⟩
  | some x =>
    obtain ⟨evs, _, _, hm, _, _, _, _, _, hl, _⟩ := onSession_eq st hx
    refine ⟨hm, ?_⟩
    have hz : (evs.map (CEv.ses s)).countP (CEv.answers op) = 0 := List.countP_eq_zero.mpr fun e he => by
      obtain ⟨_, _, rfl⟩ := List.mem_map.mp he
      simp [CEv.answers]
    unfold answered
    rw [hl, List.countP_append, hz, Nat.add_zero]

theorem giveFrame_map (c : Conn) (s : Ref) (f : Frame) : (c.giveFrame s f).sessionsMap = c.sessionsMap := by
  unfold giveFrame
  split
  · unfold callService
    split <;> exact (onSession_facts c s _ 0).1
  · rfl

theorem giveFrame_opening {c : Conn} {s : Ref} {f : Frame} {k : Nat} {op : Ref}
    (h : (c.giveFrame s f).sessions.get k = some (.opening op)) : c.sessions.get k = some (.opening op) := by
  unfold giveFrame at h
  split at h
  · unfold callService at h
    split at h
    · exact onSession_opening h
    · exact onSession_opening h
  · exact h

theorem unregister_kept {c : Conn} {ch : UInt16} (h : ∀ k op, c.sessionsMap.get ch = some k → c.sessions.get k ≠ some (.opening op)) :
    Kept c (c.unregister ch) := by
  unfold unregister
  split
  · next token ht =>
    refine ⟨rfl, fun op => ?_⟩
    unfold bal answered awaiting
    dsimp only
    cases hg : c.sessions.get token with
    | none => simp [Slab.remove, Slab.contains, hg]
    | some x =>
      have := Slab.countP_remove (SesState.awaits op) hg
      cases x with
      | opening o => exact absurd hg (h _ o ht)
      | established s => simp [SesState.awaits] at this; omega
      | closing s => simp [SesState.awaits] at this; omega
  · exact .refl c

theorem sessionFrame_kept (c : Conn) (ch : UInt16) (f : Frame) : Kept c (c.sessionFrame ch f) := by
  unfold sessionFrame
  split
  · exact note_kept c fun _ => rfl
  · exact note_kept c fun _ => rfl
  · next s hs =>
    obtain ⟨k, hk, hg⟩ := Option.bind_eq_some_iff.mp hs
    split
    · refine (giveFrame_kept c s _).trans (unregister_kept fun k' op hk' hg' => ?_)
      rw [giveFrame_map, hk] at hk'
      cases hk'
      rw [giveFrame_opening hg'] at hg
      cases hg
    · exact giveFrame_kept c s _
  · next s hs =>
    obtain ⟨k, hk, hg⟩ := Option.bind_eq_some_iff.mp hs
    split
    · refine (onSession_kept c s _).trans (unregister_kept fun k' op hk' hg' => ?_)
      rw [(onSession_facts c s _ 0).1, hk] at hk'
      cases hk'
      rw [onSession_opening hg'] at hg
      cases hg
    · exact .refl c

theorem dropState_log (c : Conn) (x : SesState) (op : Nat) :
    (c.dropState x).answered op = c.answered op + (if x.awaits op then 1 else 0) ∧ (c.dropState x).sessions = c.sessions ∧
      (c.dropState x).ops = c.ops := by
  cases x <;> simp [dropState, answered, note, SesState.awaits, CEv.answers, List.countP_append, List.countP_cons]

theorem dropStates (l : List SesState) (c : Conn) (op : Nat) :
    (l.foldl dropState c).answered op = c.answered op + l.countP (SesState.awaits op) ∧
      (l.foldl dropState c).sessions = c.sessions ∧ (l.foldl dropState c).ops = c.ops := by
  induction l generalizing c with
  | nil => simp
  | cons x l ih =>
    obtain ⟨h₁, h₂, h₃⟩ := ih (c.dropState x)
    obtain ⟨g₁, g₂, g₃⟩ := dropState_log c x op
    refine ⟨?_, h₂.trans g₂, h₃.trans g₃⟩
    rw [List.foldl_cons, h₁, g₁, List.countP_cons]
    omega

/-- A failure answers every request. -/
theorem setError_answers (c : Conn) (e) (op : Nat) :
    (c.setError e).answered op = c.bal op ∧ (c.setError e).awaiting op = 0 ∧ (c.setError e).ops = c.ops := by
  have hk : Kept (c.note (.failed e)) (c.sessions.values.foldl (failSession e) (c.note (.failed e))) := by
    refine foldl_kept (fun d x => ?_) _ _
    unfold failSession
    split
    · exact onSession_kept d _ _
    · exact .refl d
  have ha : ∀ (l : List SesState) (d : Conn), (l.foldl (failSession e) d).answered op = d.answered op := by
    intro l
    induction l with
    | nil => exact fun _ => rfl
    | cons x l ih =>
      intro d
      rw [List.foldl_cons, ih]
      unfold failSession
      split
      · exact (onSession_facts d _ _ op).2
      · rfl
  unfold setError
  dsimp only
  obtain ⟨h₁, h₂, h₃⟩ := dropStates c.sessions.values
    { c.sessions.values.foldl (failSession e) (c.note (.failed e)) with sessions := .empty, sessionsMap := .empty } op
  refine ⟨?_, ?_, ?_⟩
  · show (List.foldl dropState _ _).answered op = _
    rw [h₁]
    show (c.sessions.values.foldl (failSession e) (c.note (.failed e))).answered op + _ = _
    rw [ha]
    unfold bal awaiting
    congr 1
    simp [answered, note, CEv.answers, List.countP_append]
  · unfold awaiting
    show (List.foldl dropState _ _).sessions.values.countP _ = 0
    rw [h₂]
    rfl
  · show (List.foldl dropState _ _).ops = _
    rw [h₃]
    exact hk.1

theorem setError_kept (c : Conn) (e) : Kept c (c.setError e) := by
  refine ⟨(setError_answers c e 0).2.2, fun op => ?_⟩
  obtain ⟨h₁, h₂, _⟩ := setError_answers c e op
  unfold bal
  rw [h₁, h₂]
  rfl

theorem completeLocal_kept (c : Conn) (token ch b) : Kept c (c.completeLocal token ch b) := by
  unfold completeLocal
  split
  · next op hg =>
    refine ⟨rfl, fun op' => ?_⟩
    have := Slab.countP_set (SesState.awaits op') hg (.established c.objs.length)
    unfold bal answered awaiting
    simp only [note, List.countP_append, List.countP_cons, List.countP_nil, CEv.answers, SesState.awaits] at this ⊢
    simp at this ⊢
    omega
  · exact .refl c

theorem registerRemote_kept {c : Conn} (hw : c.sessions.Wf) (ch b) : Kept c (c.registerRemote ch b) := by
  refine ⟨rfl, fun op => ?_⟩
  have := Slab.countP_insert (SesState.awaits op) hw (.established c.objs.length)
  unfold bal answered awaiting registerRemote
  simp only [post, note, List.countP_append, List.countP_cons, List.countP_nil, CEv.answers, SesState.awaits] at this ⊢
  simp at this ⊢
  omega

theorem handleFrame_kept {c : Conn} (hw : c.sessions.Wf) (ch f) : Kept c (c.handleFrame ch f) := by
  have hn : Kept c (c.note (.peer ch f)) := note_kept c fun _ => rfl
  refine hn.trans ?_
  unfold handleFrame
  dsimp only
  split
  · exact .refl _
  · next close =>
    split
    · exact setError_kept _ _
    · refine (setError_kept _ (.closed close.error)).trans ?_
      exact .log (l := [_, _]) rfl (by simp [note, post]; exact ⟨rfl, rfl⟩) (by simp [CEv.answers]) rfl
  · split
    · exact completeLocal_kept _ _ _ _
    · exact registerRemote_kept (c := c.note _) hw _ _
  · split
    · exact .refl _
    · exact sessionFrame_kept _ _ _

/-- One request is made, and accounted for. -/
theorem openSession_bal {c : Conn} (hw : c.sessions.Wf) (off des props) :
    (c.openSession off des props).ops = c.ops + 1 ∧
      ∀ op : Nat, (c.openSession off des props).bal op = c.bal op + if op = c.ops then 1 else 0 := by
  unfold openSession
  dsimp only
  split
  · refine ⟨rfl, fun op => ?_⟩
    unfold bal answered awaiting
    simp only [note, List.countP_append, List.countP_cons, List.countP_nil, CEv.answers]
    by_cases h : op = c.ops
    · subst h; simp; omega
    · simp [h, Ne.symm h]
  · split
    · refine ⟨rfl, fun op => ?_⟩
      unfold bal answered awaiting
      simp only [note, List.countP_append, List.countP_cons, List.countP_nil, CEv.answers]
      by_cases h : op = c.ops
      · subst h; simp; omega
      · simp [h, Ne.symm h]
    · refine ⟨rfl, fun op => ?_⟩
      have := Slab.countP_insert (SesState.awaits op) hw (.opening c.ops)
      unfold bal answered awaiting
      simp only [post, note, List.countP_append, List.countP_cons, List.countP_nil, CEv.answers, SesState.awaits] at this ⊢
      by_cases h : op = c.ops
      · subst h; simp at this ⊢; omega
      · simp [h, Ne.symm h] at this ⊢; omega

theorem step_kept {c : Conn} (hw : c.sessions.Wf) (st : CStep) (h : ∀ off des props, st ≠ .openSession off des props) :
    Kept c (c.step st) := by
  cases st with
  | recv ch f => exact handleFrame_kept hw ch f
  | «local» s st =>
    show Kept c (if st.isLocal then c.onSession s st else c)
    split
    · exact onSession_kept _ _ _
    · exact .refl c
  | openSession off des props => exact absurd rfl (h off des props)
  | forceClose =>
    exact Kept.trans (d := { c with state := .drop }.note .ioClosed) (.log (l := [.ioClosed]) rfl rfl (by simp [CEv.answers]) rfl)
      (setError_kept _ _)
  | close e => exact .log (l := [_, _]) rfl (by simp [step, close, post, note]; exact ⟨rfl, rfl⟩) (by simp [CEv.answers]) rfl
  | poll =>
    refine .log rfl rfl (fun e he op => ?_) rfl
    obtain ⟨_, _, rfl⟩ := List.mem_map.mp he
    rfl
  | stop e => cases e <;> exact note_kept c fun _ => rfl
  | fail e => exact setError_kept c e

theorem Reachable.bal {c : Conn} (h : c.Reachable) (op : Nat) : c.bal op = if op < c.ops then 1 else 0 := by
  obtain ⟨cfg, steps, rfl⟩ := h
  induction steps using List.reverseRecOn with
  | nil => simp [Conn.bal, answered, awaiting, run, Conn.new, Slab.values, Slab.empty]
  | append_singleton l st ih =>
    rw [show (Conn.new cfg).run (l ++ [st]) = ((Conn.new cfg).run l).step st by simp [run]]
    have hw : ((Conn.new cfg).run l).sessions.Wf := (Reachable.reg ⟨cfg, l, rfl⟩).wf
    by_cases ho : ∃ off des props, st = .openSession off des props
    · obtain ⟨off, des, props, rfl⟩ := ho
      obtain ⟨h₁, h₂⟩ := openSession_bal hw off des props
      show ((Conn.new cfg).run l |>.openSession off des props).bal op = if op < ((Conn.new cfg).run l |>.openSession off des props).ops then 1 else 0
      rw [h₁, h₂, ih]
      split <;> split <;> split <;> omega
    · obtain ⟨h₁, h₂⟩ := step_kept hw st (fun a b c h => ho ⟨a, b, c, h⟩)
      rw [h₁, h₂, ih]

end Conn
end Amqp.Rt
