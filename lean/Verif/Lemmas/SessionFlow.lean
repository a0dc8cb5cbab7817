import Verif.Lemmas.SessionTake
/-!
# The flow frames a session posts
-/

namespace Amqp.Rt
open Session

/-- Events that concern flow frames. -/
def Ev.Flowing : Ev → Prop
  | .frame (.flow _) | .windowed _ => True
  | _ => False

/-- What a small change has to do with flow frames. -/
inductive FlowView (s s' : Session) : Prop
  | quiet (evs) (hl : s'.log = s.log ++ evs) (he : ∀ e ∈ evs, ¬ e.Flowing) (hn : s'.nextIncomingId = s.nextIncomingId)
  | windowed (f : Flow) (hl : s'.log = s.log ++ [.windowed f]) (hn : s'.nextIncomingId = f.nextOutgoingId)
  | posted (f : Flow) (hs : s' = s.note (.frame (.flow f))) (hf : s.Tells f)

theorem transferFrames_quiet (mfs h id tag body settled format) :
    ∀ e ∈ (transferFrames mfs h id tag body settled format).map Ev.frame, ¬ e.Flowing := by
  obtain ⟨ts, hts⟩ := transferFrames_transfers mfs h id tag body settled format
  rw [hts]
  intro e he
  simp only [List.mem_map] at he
  obtain ⟨_, ⟨_, _, rfl⟩, rfl⟩ := he
  exact _root_.id

theorem Micro.flow {s s' : Session} (h : Micro s s') : FlowView s s' := by
  cases h
  case note e he =>
    by_cases hf : ∃ f, e = .frame (.flow f)
    · obtain ⟨f, rfl⟩ := hf
      exact .posted f rfl he
    · refine .quiet [e] rfl ?_ rfl
      intro x hx
      rw [List.mem_singleton.1 hx]
      have hi := he.inert
      cases e <;> first
        | exact _root_.id
        | exact hi.elim
        | (next f => cases f <;> first | exact _root_.id | exact (hf ⟨_, rfl⟩).elim)
  case flowSess f => exact .windowed f rfl rfl
  case sendNow t req tag l ht hl h hp hw =>
    refine .quiet (.took t req.link :: .begun t req.link s.nextOutgoingId :: (transferFrames s.maxFrameSize
      (UInt32.ofNat l.id) s.nextOutgoingId tag req.body req.settled req.format).map .frame)
      (by rw [emit_log, takeCredit_log, List.append_assoc]; rfl) ?_ (by simp)
    intro e he
    rcases List.mem_cons.1 he with rfl | he
    · exact _root_.id
    · rcases List.mem_cons.1 he with rfl | he
      · exact _root_.id
      · exact transferFrames_quiet _ _ _ _ _ _ _ e he
  case emitParked t req tag l ht hl hw =>
    refine .quiet _ (by rw [emit_log]) ?_ (by simp)
    intro e he
    rcases List.mem_cons.1 he with rfl | he
    · exact _root_.id
    · exact transferFrames_quiet _ _ _ _ _ _ _ e he
  case settle d st _ =>
    rcases settle_log s d st with h | ⟨x, _, h⟩
    · exact .quiet [] (by simp [h]) (by simp) (by simp)
    · exact .quiet _ h (by simp [Ev.Flowing, dispFrame]) (by simp)
  case update d st _ =>
    rcases updateState_log s d st with h | ⟨x, _, h⟩
    · exact .quiet [] (by simp [h]) (by simp) (by simp)
    · exact .quiet _ h (by simp [Ev.Flowing, dispFrame]) (by simp)
  case dropDlv d _ =>
    rcases dropDelivery_log s d with h | ⟨x, _, h⟩
    · exact .quiet [] (by simp [h]) (by simp) (by simp)
    · exact .quiet _ h (by simp [Ev.Flowing, dispFrame]) (by simp)
  case flowLink => exact .quiet [_] (by simp; rfl) (by simp [Ev.Flowing]) (by simp)
  case parkWindow => exact .quiet [_] (by simp; rfl) (by simp [Ev.Flowing]) (by simp)
  case recvFirst => exact .quiet [_] (by simp; rfl) (by simp [Ev.Flowing]) (by simp)
  case recvSingle => exact .quiet [_] (by simp; rfl) (by simp [Ev.Flowing]) (by simp)
  case grant => exact .quiet [_] rfl (by simp [Ev.Flowing]) rfl
  case recvNoCredit => exact .quiet [_] rfl (by simp [Ev.Flowing]) rfl
  case recvRefused => exact .quiet [_] rfl (by simp [Ev.Flowing]) rfl
  case recvMerge => exact .quiet [_] rfl (by simp [Ev.Flowing]) rfl
  case recvLast => exact .quiet [_] rfl (by simp [Ev.Flowing]) rfl
  case recvLost => exact .quiet [_] rfl (by simp [Ev.Flowing]) rfl
  case handed => exact .quiet [_] rfl (by simp [Ev.Flowing]) rfl
  all_goals exact .quiet [] (by first | rfl | simp) (by simp) (by first | rfl | simp)

theorem Micro.isLocal {s s' : Session} (h : Micro s s') : s'.isLocal = s.isLocal := by
  cases h <;> first | rfl | simp

theorem windowLeft_eq (b : UInt32) (log : List Ev) : windowLeft b log = (trackWindow b log).2 := by
  unfold windowLeft trackWindow
  congr 2

theorem peerStated_quiet {b : UInt32} {log evs : List Ev} (h : ∀ e ∈ evs, ¬ e.Flowing) :
    peerStated b (log ++ evs) = peerStated b log := by
  unfold peerStated
  rw [List.foldl_append]
  generalize log.foldl _ b = n
  induction evs generalizing n with
  | nil => rfl
  | cons e evs ih =>
    rw [List.foldl_cons]
    have he := h e (by simp)
    have ih := ih (fun x hx => h x (by simp [hx])) n
    cases e <;> first | exact ih | exact (he trivial).elim

/-- A flow frame posted after the events `pre` said what was true then. -/
structure FlowTold (b : Begin) (s : Session) (pre : List Ev) (f : Flow) : Prop where
  out : f.nextOutgoingId = 1 + UInt32.ofNat (begun pre)
  window : f.outgoingWindow = windowLeft b.incomingWindow pre
  inc : f.nextIncomingId = some (peerStated b.nextOutgoingId pre) ∨ f.nextIncomingId = none ∧ s.isLocal = false
  incWindow : f.incomingWindow = 0xffffffff
  noEcho : f.echo = false
  link : (f.handle = none ∧ f.deliveryCount = none ∧ f.linkCredit = none) ∨
    ∃ r l, s.rcv? r = some l ∧ f.handle = some l.handle ∧ f.linkCredit.isSome ∧
      f.deliveryCount = (Rt.baseCount s r).map (· + UInt32.ofNat (completedOn r pre))

/-- What is kept about the flow frames posted so far. -/
structure FlowInv (b : Begin) (s : Session) : Prop where
  stated : s.nextIncomingId = peerStated b.nextOutgoingId s.log
  told : ∀ pre f post, s.log = pre ++ .frame (.flow f) :: post → FlowTold b s pre f

theorem FlowTold.micro {b : Begin} {s s' : Session} {pre f} (m : Micro s s') (h : FlowTold b s pre f) : FlowTold b s' pre f := by
  refine { h with inc := by rw [m.isLocal]; exact h.inc, link := ?_ }
  rcases h.link with hl | ⟨r, l, hl, h₁, h₂, h₃⟩
  · exact .inl hl
  · obtain ⟨l', hl', hh, _⟩ := m.rcv_kept hl
    have hb : Rt.baseCount s r = some (l.deliveryCount - UInt32.ofNat (completedOn r s.log)) := by
      rw [Rt.baseCount, hl]; rfl
    exact .inr ⟨r, l', hl', by rw [h₁, hh], h₂, by rw [h₃, hb, m.baseCount hb]⟩

theorem FlowTold.tells {b : Begin} {s : Session} {f} (hw : WinInv b.incomingWindow s) (hi : FlowInv b s) (hf : s.Tells f) :
    FlowTold b s s.log f where
  out := by rw [hf.out, ← trackWindow_next b.incomingWindow, hw.1]
  window := by rw [hf.window, windowLeft_eq, hw.1]
  inc := by rw [← hi.stated]; exact hf.inc
  incWindow := hf.incWindow
  noEcho := hf.noEcho
  link := by
    rcases hf.link with hl | ⟨r, l, hl, h₁, h₂, h₃⟩
    · exact .inl hl
    · refine .inr ⟨r, l, hl, h₁, h₃, ?_⟩
      rw [h₂, Rt.baseCount, hl]
      simp only [Option.map_some]
      rw [UInt32.sub_add_cancel]

/-- Where in a longer log a flow frame is. -/
theorem flow_append {log evs pre post : List Ev} {f : Flow} (heq : log ++ evs = pre ++ .frame (.flow f) :: post) :
    (∃ post', log = pre ++ .frame (.flow f) :: post') ∨ ∃ as, pre = log ++ as ∧ evs = as ++ .frame (.flow f) :: post := by
  rcases List.append_eq_append_iff.mp heq with ⟨as, h₁, h₂⟩ | ⟨bs, h₁, h₂⟩
  · exact .inr ⟨as, h₁, h₂⟩
  · rcases bs with _ | ⟨x, bs⟩
    · exact .inr ⟨[], by simpa using h₁.symm, by simpa using h₂.symm⟩
    · simp only [List.cons_append, List.cons.injEq] at h₂
      obtain ⟨rfl, _⟩ := h₂
      exact .inl ⟨bs, h₁⟩

theorem Micro.flowInv {b : Begin} {s s' : Session} (h : Micro s s') (hw : WinInv b.incomingWindow s)
    (hi : FlowInv b s) : FlowInv b s' := by
  have old : ∀ evs, s'.log = s.log ++ evs → (∀ f, .frame (.flow f) ∉ evs) → ∀ pre f post,
      s'.log = pre ++ .frame (.flow f) :: post → FlowTold b s' pre f := by
    intro evs hl he pre f post heq
    rw [hl] at heq
    rcases flow_append heq with ⟨post', h'⟩ | ⟨as, _, h₂⟩
    · exact (hi.told pre f post' h').micro h
    · exact (he f (by rw [h₂]; simp)).elim
  cases h.flow with
  | quiet evs hl he hn =>
    exact ⟨by rw [hn, hi.stated, hl, peerStated_quiet he], old evs hl (fun f hf => he _ hf trivial)⟩
  | windowed g hl hn =>
    exact ⟨by rw [hn, hl]; simp [peerStated], old _ hl (by simp)⟩
  | posted g hs hf =>
    have hl : s'.log = s.log ++ [.frame (.flow g)] := by rw [hs]; rfl
    refine ⟨?_, fun pre f post heq => ?_⟩
    · rw [hl]; simp only [peerStated, List.foldl_append, List.foldl_cons, List.foldl_nil]
      rw [hs]; exact hi.stated
    · rw [hl] at heq
      rcases flow_append heq with ⟨post', h'⟩ | ⟨as, h₁, h₂⟩
      · exact (hi.told pre f post' h').micro h
      · rcases as with _ | ⟨a, as⟩
        · simp only [List.nil_append, List.cons.injEq, Ev.frame.injEq, Frame.flow.injEq] at h₂
          obtain ⟨rfl, _⟩ := h₂
          rw [List.append_nil] at h₁
          rw [h₁]
          exact (FlowTold.tells hw hi hf).micro h
        · simp at h₂

theorem flowInv_run (id isLocal mfs ch b) (steps : List Step) :
    FlowInv b ((Session.new id isLocal mfs ch b).run steps) := by
  have := (run_micros (Session.new id isLocal mfs ch b) steps).invariant
    (P := fun s => WinInv b.incomingWindow s ∧ FlowInv b s)
    (fun _ _ h hi => ⟨h.winInv hi.1, h.flowInv hi.1 hi.2⟩)
    ⟨⟨rfl, by intro pre t r id post h; simp [Session.new] at h⟩, rfl, by intro pre f post h; simp [Session.new] at h⟩
  exact this.2

end Amqp.Rt
