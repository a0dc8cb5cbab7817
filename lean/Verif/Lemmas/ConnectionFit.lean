import Verif.Lemmas.NetWire
import Verif.Lemmas.SessionFit
/-!
# The frames of a connection

What is put into the frames of a connection, of its sessions and, between two connections, of the peer, is `Fit`; so the
frames posted are.
-/

namespace Amqp

theorem Frame.Fit.received {f : Frame} (h : (∃ t, f = .transfer t) ∨ f.Fit) : (Rt.Step.peer f.asReceived).Fit := by
  rcases h with ⟨t, rfl⟩ | h
  · exact True.intro
  · cases f
    case attach a => exact h
    case detach d => exact h
    all_goals exact True.intro

/-- A frame of the connection itself. -/
def Frame.Own (f : Frame) : Prop := f.Fit ∧ ∀ t, f ≠ .transfer t

namespace Rt

namespace Conn

/-- Every session has come about by steps that are `Fit`, the connection's own frames are, and the frames of the sessions
are in their logs. -/
structure Fits (c : Conn) : Prop where
  objs : ∀ i x, c.obj? i = some x → ∃ s₀ sts, Session.Fresh s₀ ∧ (∀ st ∈ sts, Step.Fit st) ∧ x = s₀.run sts
  own : ∀ ch f, CEv.frame ch f ∈ c.log → f.Own
  said : ∀ s f, CEv.ses s (.frame f) ∈ c.log → ∃ x, c.obj? s = some x ∧ .frame f ∈ x.log

theorem Fits.same {c d : Conn} (h : c.Fits) (ho : d.objs = c.objs) (l : List CEv) (hl : d.log = c.log ++ l)
    (hf : ∀ ch f, CEv.frame ch f ∈ l → f.Own) (hs : ∀ s f, CEv.ses s (.frame f) ∉ l) : d.Fits where
  objs := by unfold obj?; rw [ho]; exact h.objs
  own := by
    rw [hl]
    intro ch f hm
    rcases List.mem_append.1 hm with hm | hm
    · exact h.own ch f hm
    · exact hf ch f hm
  said := by
    rw [hl]
    unfold obj?
    rw [ho]
    intro s f hm
    rcases List.mem_append.1 hm with hm | hm
    · exact h.said s f hm
    · exact absurd hm (hs s f)

theorem Fits.note {c : Conn} (h : c.Fits) (e : CEv) (hf : ∀ ch f, e = .frame ch f → f.Own) (hs : ∀ s f, e ≠ .ses s (.frame f)) :
    (c.note e).Fits :=
  h.same rfl [e] rfl (fun ch f hm => hf ch f (List.mem_singleton.1 hm).symm) fun s f hm => hs s f (List.mem_singleton.1 hm).symm

theorem Fits.onSession {c : Conn} (h : c.Fits) (s : Ref) {st : Step} (hst : st.Fit) : (c.onSession s st).Fits := by
  cases hx : c.obj? s with
  | none => unfold Conn.onSession; rw [hx]; exact h
  | some x =>
    obtain ⟨evs, he, h1, _, _, _, _, _, _, h8, _, _⟩ := onSession_eq st hx
    have ho := obj?_set hx h1
    constructor
    · intro i y hy
      rw [ho] at hy
      split at hy
      · cases hy
        obtain ⟨s₀, sts, hf, hs, rfl⟩ := h.objs s x hx
        refine ⟨s₀, sts ++ [st], hf, ?_, by simp [Session.run]⟩
        intro st' hm
        rcases List.mem_append.1 hm with hm | hm
        · exact hs _ hm
        · cases List.mem_singleton.1 hm; exact hst
      · exact h.objs i y hy
    · intro ch f hm
      rw [h8] at hm
      rcases List.mem_append.1 hm with hm | hm
      · exact h.own ch f hm
      · obtain ⟨_, _, he⟩ := List.mem_map.1 hm; cases he
    · intro t f hm
      rw [h8] at hm
      rw [ho]
      rcases List.mem_append.1 hm with hm | hm
      · obtain ⟨y, hy, hl⟩ := h.said t f hm
        split
        · next ht =>
          subst ht
          rw [hx] at hy; cases hy
          exact ⟨_, rfl, by rw [he]; exact List.mem_append_left _ hl⟩
        · exact ⟨y, hy, hl⟩
      · obtain ⟨e, hm, h'⟩ := List.mem_map.1 hm
        cases h'
        rw [if_pos rfl]
        exact ⟨_, rfl, by rw [he]; exact List.mem_append_right _ hm⟩

theorem Fits.giveFrame {c : Conn} (h : c.Fits) (s : Ref) {f : Frame} (hf : (Step.peer f).Fit) : (c.giveFrame s f).Fits := by
  unfold Conn.giveFrame
  split
  · have h' := h.onSession s hf
    unfold callService
    split
    · exact h'.same rfl _ rfl (fun ch f hm => by obtain ⟨_, _, he⟩ := List.mem_map.1 hm; cases he)
        fun s f hm => by obtain ⟨_, _, he⟩ := List.mem_map.1 hm; cases he
    · exact h'
  · exact h

theorem Fits.unregister {c : Conn} (h : c.Fits) (ch : UInt16) : (c.unregister ch).Fits := by
  refine h.same ?_ [] ?_ (by simp) (by simp) <;> (unfold Conn.unregister; split <;> simp)

theorem Fits.foldl {f : Conn → α → Conn} (hf : ∀ c a, Fits c → (f c a).Fits) (l : List α) {c : Conn} (h : c.Fits) :
    (l.foldl f c).Fits := by
  induction l generalizing c with
  | nil => exact h
  | cons a l ih => exact ih (hf c a h)

theorem Fits.setError {c : Conn} (h : c.Fits) (e : PErr) : (c.setError e).Fits := by
  unfold Conn.setError
  dsimp only
  have h1 := h.note (.failed e) (by simp) (by simp)
  have h2 := h1.foldl (f := failSession e) (by
    intro c a h
    unfold failSession
    split
    · exact h.onSession _ True.intro
    · exact h) c.sessions.values
  have h3 := (h2.same (d := { c.sessions.values.foldl (failSession e) (c.note (.failed e)) with
    sessions := .empty, sessionsMap := .empty }) rfl [] (by simp) (by simp) (by simp)).foldl (f := dropState) (by
      intro c a h
      unfold dropState
      split
      · exact h.note _ (by simp) (by simp)
      · exact h) c.sessions.values
  exact h3.same rfl [] (by simp) (by simp) (by simp)

theorem Fits.sessionFrame {c : Conn} (h : c.Fits) (ch : UInt16) {f : Frame} (hf : (Step.peer f).Fit) :
    (c.sessionFrame ch f).Fits := by
  unfold Conn.sessionFrame
  split
  · exact h.note _ (by simp) (by simp)
  · exact h.note _ (by simp) (by simp)
  · split
    · exact (h.giveFrame _ hf).unregister ch
    · exact h.giveFrame _ hf
  · split
    · next e => exact Fits.unregister (h.onSession _ (st := .endConfirmed e) True.intro) ch
    · exact h

theorem Fits.append {c d : Conn} (h : c.Fits) {y : Session} (hy : y.Fresh) (ho : d.objs = c.objs ++ [y]) (l : List CEv)
    (hl : d.log = c.log ++ l) (hf : ∀ ch f, CEv.frame ch f ∈ l → f.Own) (hs : ∀ s f, CEv.ses s (.frame f) ∉ l) : d.Fits where
  objs := by
    intro i x hx
    rw [obj?_append ho] at hx
    split at hx
    · cases hx; exact ⟨y, [], hy, by simp, rfl⟩
    · exact h.objs i x hx
  own := by
    rw [hl]
    intro ch f hm
    rcases List.mem_append.1 hm with hm | hm
    · exact h.own ch f hm
    · exact hf ch f hm
  said := by
    rw [hl]
    intro s f hm
    rcases List.mem_append.1 hm with hm | hm
    · obtain ⟨x, hx, hm⟩ := h.said s f hm
      exact ⟨x, by rw [obj?_append ho, if_neg (Nat.ne_of_lt (obj?_lt hx))]; exact hx, hm⟩
    · exact absurd hm (hs s f)

theorem beginFrame_fit {off des : Option (Multiple Symbol)} {props : Option (HMap Symbol Variant)} (h₁ : Amqp.Fit off)
    (h₂ : Amqp.Fit des) (h₃ : Amqp.Fit props) (r : Option UInt16) (w : UInt32) : (beginFrame r w off des props).Own :=
  ⟨begin_wf (d := { remoteChannel := r, nextOutgoingId := 1, incomingWindow := 0xffffffff, outgoingWindow := w
                    handleMax := 0xffffffff, offeredCapabilities := off, desiredCapabilities := des, properties := props }) h₁ h₂ h₃, by simp [beginFrame]⟩

theorem Fits.handleFrame {c : Conn} (h : c.Fits) (ch : UInt16) {f : Frame} (hf : (Step.peer f).Fit) :
    (c.handleFrame ch f).Fits := by
  unfold Conn.handleFrame
  dsimp only
  have h := h.note (.peer ch f) (by simp) (by simp)
  cases f
  case empty => exact h
  case close close =>
    dsimp only
    split
    · exact h.setError _
    · have h1 := (h.setError (.closed close.error)).note (.frame 0 (.close { error := none })) (by
        intro _ _ he; cases he; exact ⟨close_wf (d := { error := none }) fit_none, by simp⟩) (by simp)
      exact (h1.same (d := { ((c.note _).setError (.closed close.error)).note (.frame 0 (.close { error := none })) with
        state := .remoteClose }) rfl [] (by simp) (by simp) (by simp)).note _ (by simp) (by simp)
  case begin_ b =>
    dsimp only
    split
    · next l _ =>
      unfold completeLocal
      split
      · next op _ =>
        exact h.append (y := Session.new l.toNat true c.maxFrameSize ch b) ⟨_, _, _, _, _, rfl⟩ rfl
          [.begun ch c.objs.length, .opened op c.objs.length] (by simp [Conn.note]) (by simp) (by simp)
      · exact h
    · refine h.append (y := Session.new c.sessions.vacantKey false c.maxFrameSize ch b) ⟨_, _, _, _, _, rfl⟩ rfl
        [.begun ch c.objs.length, .frame (UInt16.ofNat c.sessions.vacantKey) (beginFrame (some ch) b.incomingWindow none none none)]
        (by simp [registerRemote, post, Conn.note]) ?_ (by simp)
      intro ch' f hm
      simp only [List.mem_cons, List.not_mem_nil, or_false, reduceCtorEq, false_or] at hm
      cases hm
      exact beginFrame_fit fit_none fit_none fit_none _ _
  all_goals
    dsimp only
    split
    · exact h
    · exact h.sessionFrame ch hf

theorem Fits.step {c : Conn} (h : c.Fits) {st : CStep} (hst : st.Fit) : (c.step st).Fits := by
  cases st <;> unfold Conn.step <;> try dsimp only
  case recv ch f => exact h.handleFrame ch hst
  case «local» s st =>
    split
    · exact h.onSession s hst
    · exact h
  case openSession off des props =>
    unfold Conn.openSession
    dsimp only
    have h' : Fits { c with ops := c.ops + 1 } := h.same rfl [] (by simp) (by simp) (by simp)
    split
    · exact h'.note _ (by simp) (by simp)
    · split
      · exact h'.note _ (by simp) (by simp)
      · refine h'.same rfl [.frame (UInt16.ofNat c.sessions.vacantKey) (beginFrame none 0xffffffff off des props)] rfl ?_ (by simp)
        intro ch' f hm
        cases List.mem_singleton.1 hm
        exact beginFrame_fit hst.1 hst.2.1 hst.2.2 _ _
  case forceClose =>
    unfold Conn.forceClose
    exact ((h.same (d := { c with state := .drop }) rfl [] (by simp) (by simp) (by simp)).note .ioClosed (by simp) (by simp)).setError _
  case close e =>
    exact (h.note (.frame 0 (.close { error := e })) (by
      intro _ _ he; cases he; exact ⟨close_wf (d := { error := e }) hst, by simp⟩) (by simp)).note .ioClosed (by simp) (by simp)
  case poll => exact h.same rfl _ rfl (by simp) (by simp)
  case stop e => cases e <;> exact h.note _ (by simp) (by simp)
  case fail e => exact h.setError e

theorem fits_new (cfg : ConnCfg) : (Conn.new cfg).Fits where
  objs := by intro i x hx; cases i <;> cases hx
  own := by intro _ _ h; cases h
  said := by intro _ _ h; cases h

theorem run_fits (cfg : ConnCfg) (steps : List CStep) (h : ∀ st ∈ steps, st.Fit) : ((Conn.new cfg).run steps).Fits := by
  induction steps using List.reverseRecOn with
  | nil => exact fits_new cfg
  | append_singleton l st ih =>
    rw [show (Conn.new cfg).run (l ++ [st]) = ((Conn.new cfg).run l).step st by simp [run]]
    exact (ih fun a ha => h a (List.mem_append_left _ ha)).step (h st (by simp))

theorem wire_mem {c : Conn} {ch : UInt16} {f : Frame} (h : (ch, f) ∈ c.wire) :
    .frame ch f ∈ c.log ∨ ∃ s, .ses s (.frame f) ∈ c.log := by
  obtain ⟨e, he, h⟩ := List.mem_filterMap.1 h
  cases e with
  | frame ch' f' => cases h; exact .inl he
  | ses s e =>
    cases e with
    | frame f' =>
      simp only [Option.map_eq_some_iff, Prod.mk.injEq] at h
      obtain ⟨_, _, _, rfl⟩ := h
      exact .inr ⟨s, he⟩
    | _ => cases h
  | _ => cases h

/-- What is not a transfer is `Fit`, whatever the messages. -/
theorem Fits.talk {c : Conn} (h : c.Fits) {ch : UInt16} {f : Frame} (hm : (ch, f) ∈ c.wire) :
    (∃ t, f = .transfer t) ∨ f.Fit := by
  by_cases ht : ∃ t, f = .transfer t
  · exact .inl ht
  right
  rcases wire_mem hm with hm | ⟨s, hm⟩
  · exact (h.own ch f hm).1
  · obtain ⟨x, hx, hm⟩ := h.said s f hm
    obtain ⟨s₀, sts, hf, hs, rfl⟩ := h.objs s x hx
    refine run_talk_fit s₀ hf sts hs f (List.mem_filterMap.mpr ⟨_, hm, ?_⟩)
    cases f <;> first | rfl | exact absurd ⟨_, rfl⟩ ht

theorem Fits.all {c : Conn} (h : c.Fits) (ho : c.ObjsOk) (hm : c.maxFrameSize ≠ 0) (hh : c.Honest) {ch : UInt16} {f : Frame}
    (hw : (ch, f) ∈ c.wire) : f.Fit := by
  rcases wire_mem hw with hl | ⟨s, hl⟩
  · exact (h.own ch f hl).1
  · obtain ⟨x, hx, hl⟩ := h.said s f hl
    obtain ⟨s₀, sts, hf, hs, rfl⟩ := h.objs s x hx
    exact run_fit s₀ hf sts hs (by rw [(ho _ (obj?_mem hx)).2]; exact hm) (hh _ (obj?_mem hx)) f hl

end Conn

namespace Net

theorem run_fits {σ₀ : Net} (hf : σ₀.Fresh) (steps : List NStep) (h : ∀ st ∈ steps, st.Fit) :
    (σ₀.run steps).left.Fits ∧ (σ₀.run steps).right.Fits := by
  induction steps using List.reverseRecOn with
  | nil => obtain ⟨c, c', rfl⟩ := hf; exact ⟨Conn.fits_new c, Conn.fits_new c'⟩
  | append_singleton l st ih =>
    rw [show σ₀.run (l ++ [st]) = (σ₀.run l).step st by simp [run]]
    obtain ⟨hl, hr⟩ := ih fun a ha => h a (List.mem_append_left _ ha)
    have hst := h st (by simp)
    cases st <;> unfold step <;> dsimp only
    case left st =>
      split
      · exact ⟨hl.step hst, hr⟩
      · exact ⟨hl, hr⟩
    case right st =>
      split
      · exact ⟨hl, hr.step hst⟩
      · exact ⟨hl, hr⟩
    case arriveRight =>
      split
      · next ch f he =>
        exact ⟨hl, hr.step (st := .recv ch f.asReceived) (Frame.Fit.received (hl.talk (List.mem_of_getElem? he)))⟩
      · exact ⟨hl, hr⟩
    case arriveLeft =>
      split
      · next ch f he =>
        exact ⟨hl.step (st := .recv ch f.asReceived) (Frame.Fit.received (hr.talk (List.mem_of_getElem? he))), hr⟩
      · exact ⟨hl, hr⟩

end Net
end Rt
end Amqp
