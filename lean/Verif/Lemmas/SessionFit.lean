import Verif.Lemmas.SessionSaid
import Verif.Lemmas.SessionPeer
import Verif.Lemmas.SessionTodo
import Verif.Props.Sending
/-!
# Every frame of a session fits
-/

namespace Amqp.Rt
open Session

theorem startDelivery_names (s : Session) (r l id t) : (s.startDelivery r l id t).names = s.names := by
  unfold startDelivery
  dsimp only
  refine (modRcv_names _ _ _ (by intro _; rfl)).trans ?_
  unfold newRcv names
  dsimp only
  split
  · rfl
  · split <;> simp

/-- The names of receiver links stay; links are added at the end. -/
theorem Micro.names_kept {s s' : Session} (h : Micro s s') : s'.names = s.names ∨ ∃ x, s'.names = s.names ++ [x] := by
  have mod : ∀ (s₀ : Session) r f, s₀.rcvs = s.rcvs → (∀ l : Rcv, (f l).name = l.name) → (s₀.modRcv r f).names = s.names :=
    fun s₀ r f h₀ hf => (modRcv_names s₀ r f hf).trans (by simp [names, h₀])
  cases h
  case newRcvRemote a _ => exact .inr ⟨a.name, by simp [names]; rfl⟩
  case newRcvLocal a _ => exact .inr ⟨a.name, by simp [names]; rfl⟩
  case rcvClosed => exact .inl (mod _ _ _ rfl fun _ => rfl)
  case rcvDetached => exact .inl (mod _ _ _ rfl fun _ => rfl)
  case rcvReset => exact .inl (mod _ _ _ rfl fun _ => rfl)
  case rcvLimit => exact .inl (mod _ _ _ rfl fun _ => rfl)
  case rcvErrTaken => exact .inl (mod _ _ _ rfl fun _ => rfl)
  case grant => exact .inl (mod _ _ _ rfl fun _ => rfl)
  case recvRefused => exact .inl (mod _ _ _ rfl fun _ => rfl)
  case recvMerge => exact .inl (mod _ _ _ rfl fun _ => rfl)
  case recvLast => exact .inl (mod _ _ _ rfl fun _ => rfl)
  case recvLost => exact .inl (mod _ _ _ rfl fun _ => rfl)
  case handed => exact .inl (mod _ _ _ rfl fun _ => rfl)
  case recvFirst r t l id _ _ _ _ _ _ =>
    exact .inl ((startDelivery_names _ _ _ _ _).trans (mod _ _ _ rfl fun _ => rfl))
  case recvSingle r t l id _ _ _ _ _ _ =>
    exact .inl ((startDelivery_names _ _ _ _ _).trans (mod _ _ _ rfl fun _ => rfl))
  all_goals exact .inl (by first | rfl | simp [names])

/-- A receiver link being accepted was made from an attach of the peer. -/
def Begun (s : Session) : Prop := ∀ k r src, s.links.get k = some (.rcv (.opening (some (r, src)))) →
  ∃ a : Attach, .peer (.attach a) ∈ s.log ∧ a.source = src ∧ s.names[r]? = some a.name

theorem Micro.begun {s s' : Session} (h : Micro s s') (hi : Begun s) : Begun s' := by
  have keep : ∀ k r src, s.links.get k = some (.rcv (.opening (some (r, src)))) →
      ∃ a : Attach, .peer (.attach a) ∈ s'.log ∧ a.source = src ∧ s'.names[r]? = some a.name := by
    intro k r src hk
    obtain ⟨a, h₁, h₂, h₃⟩ := hi k r src hk
    refine ⟨a, h.log_mem h₁, h₂, ?_⟩
    rcases h.names_kept with hn | ⟨x, hn⟩ <;> rw [hn]
    · exact h₃
    · rw [List.getElem?_append_left (List.getElem?_eq_some_iff.mp h₃).1]; exact h₃
  have same : s'.links = s.links → Begun s' := fun hl k r src hk => keep k r src (hl ▸ hk)
  have set : ∀ k₀ x, (∀ r src, x ≠ .rcv (.opening (some (r, src)))) → s'.links = s.links.set k₀ x → Begun s' := by
    intro k₀ x hx hl k r src hk
    rw [hl] at hk
    rcases Slab.get_set_some hk with ⟨_, he⟩ | ⟨_, hk⟩
    · exact absurd he.symm (hx r src)
    · exact keep k r src hk
  have ins : ∀ x, (∀ r src, x ≠ .rcv (.opening (some (r, src)))) → s'.links = s.links.insert x → Begun s' := by
    intro x hx hl k r src hk
    rw [hl] at hk
    rcases Slab.get_insert_some hk with ⟨_, he⟩ | hk
    · exact absurd he.symm (hx r src)
    · exact keep k r src hk
  have bare : ∀ x : Link, x.Bare → ∀ r src, x ≠ .rcv (.opening (some (r, src))) := by
    rintro x ⟨_, hx⟩ r src rfl
    cases hx
  cases h
  case insertSlot l hl => exact ins l (bare l hl) rfl
  case estSnd => exact set _ _ (by intro _ _ h; cases h) rfl
  case estSndLocal => exact set _ _ (by intro _ _ h; cases h) rfl
  case estRcv => exact set _ _ (by intro _ _ h; cases h) rfl
  case estRcvLocal => exact set _ _ (by intro _ _ h; cases h) rfl
  case closeSlot k l old _ hl _ => exact set k l (bare l hl) rfl
  case removeSlot k₀ _ =>
    intro k r src hk
    have hk : (s.links.remove k₀).get k = _ := hk
    rw [Slab.get_remove] at hk
    split at hk
    · cases hk
    · exact keep k r src hk
  case clearSlots =>
    intro k r src hk
    have hk : (Slab.empty : Slab Link).get k = _ := hk
    rw [Slab.get_empty] at hk
    cases hk
  case newSnd => exact ins _ (by intro _ _ h; cases h) rfl
  case newRcvLocal => exact ins _ (by intro _ _ h; cases h) rfl
  case newRcvRemote a ha =>
    intro k r src hk
    have hk : (s.links.insert _).get k = _ := hk
    rcases Slab.get_insert_some hk with ⟨_, he⟩ | hk
    · cases he
      refine ⟨a, ha, rfl, ?_⟩
      simp [names, rcvNew]
    · exact keep k r src hk
  all_goals exact same (by first | rfl | simp)

theorem Session.Reachable.begun {s : Session} (h : Reachable s) : Begun s := by
  refine h.invariant ?_ fun _ _ h => h.begun
  rintro _ ⟨id, l, mfs, ch, b, rfl⟩ k r src hk
  have hk : (Slab.empty : Slab Link).get k = _ := hk
  rw [Slab.get_empty] at hk
  cases hk

/-- The frames a session was handed. -/
theorem run_peers (s₀ : Session) (hf : Fresh s₀) (steps : List Step) (f : Frame) (h : .peer f ∈ (s₀.run steps).log) :
    .peer f ∈ steps := by
  have hp : ∀ s : Session, .peer f ∈ s.log ↔ .peer f ∈ s.peers := fun s => by
    unfold peers; rw [List.mem_filter]; simp [Ev.fromPeer]
  rw [hp] at h
  have go : ∀ (steps : List Step) (s : Session), .peer f ∈ (s.run steps).peers → .peer f ∈ s.peers ∨ .peer f ∈ steps := by
    intro steps
    induction steps with
    | nil => intro s h; exact .inl h
    | cons st steps ih =>
      intro s h
      rcases ih (s.step st) h with h | h
      · rw [step_peers] at h
        rcases List.mem_append.mp h with h | h
        · exact .inl h
        · cases st <;> first | (cases h; done) | skip
          obtain ⟨⟩ := List.mem_singleton.mp h
          exact .inr (List.mem_cons_self ..)
      · exact .inr (List.mem_cons_of_mem _ h)
  rcases go steps s₀ h with h | h
  · obtain ⟨id, l, mfs, ch, b, rfl⟩ := hf
    cases h
  · exact h

/-- What the calls in flight hold fits. -/
theorem run_todo_fit (s₀ : Session) (hf : Fresh s₀) (steps : List Step) (h : ∀ st ∈ steps, st.Fit) :
    ∀ t ∈ (s₀.run steps).todo, t.Fit := by
  have asked : ∀ steps : List Step, (∀ st ∈ steps, st.Fit) → ∀ act, .ctl act ∈ (s₀.run steps).todo → (Todo.ctl act).Fit := by
    intro steps h act ht
    have ha := (show Reachable (s₀.run steps) from ⟨s₀, steps, hf, rfl⟩).asked
    have fit : ∀ a : Attach, .peer (.attach a) ∈ (s₀.run steps).log → a.Fit := fun a hl => h _ (run_peers s₀ hf steps _ hl)
    cases act
    case attachSender r a g =>
      obtain ⟨h₁, _, l, _, _, rfl⟩ := ha.sender r a g ht
      exact ⟨fit a h₁, senderResponse_fit (fit a h₁) _⟩
    case attachReceiver r a g =>
      obtain ⟨h₁, _, l, k, _, _, _, rfl⟩ := ha.receiver r a g ht
      exact receiverResponse_fit (fit a h₁) _
    all_goals exact True.intro
  induction steps using List.reverseRecOn with
  | nil =>
    obtain ⟨id, l, mfs, ch, b, rfl⟩ := hf
    intro t ht
    cases ht
  | append_singleton steps st ih =>
    have hs : ∀ x ∈ steps, x.Fit := fun x hx => h x (List.mem_append_left _ hx)
    have hst : st.Fit := h st (by simp)
    have hi := ih hs
    intro t ht
    cases t with
    | ctl act => exact asked _ h act ht
    | attached r g =>
      have hr : s₀.run (steps ++ [st]) = (s₀.run steps).step st := by simp [run]
      rw [hr] at ht
      rcases step_todo (s₀.run steps) st with ⟨i, edit, e, t, rfl, hti, he⟩ | ⟨he, _⟩ | ⟨act, he, _⟩ <;> rw [he] at ht
      · rcases List.mem_append.mp ht with ht | ht
        · exact hi _ (List.mem_of_mem_eraseIdx ht)
        · have htf := hi t (List.mem_of_getElem? hti)
          unfold nextTodo at ht
          split at ht
          · split at ht
            · obtain ⟨⟩ := List.mem_singleton.mp ht
              exact hst.1 _ htf
            · cases ht
          · cases ht
      · exact hi _ ht
      · rcases List.mem_append.mp ht with ht | ht
        · exact hi _ ht
        · cases List.mem_singleton.mp ht

theorem run_opened (s₀ : Session) (hf : Fresh s₀) (steps : List Step) (h : ∀ st ∈ steps, st.Fit) : Opened (s₀.run steps) := by
  intro k r src hk
  obtain ⟨a, h₁, rfl, h₃⟩ := (show Reachable (s₀.run steps) from ⟨s₀, steps, hf, rfl⟩).begun k r src hk
  have ha : a.Fit := h _ (run_peers s₀ hf steps _ h₁)
  rw [h₃]
  exact ⟨ha.source, ha.name⟩

/-- Every frame but transfers fits. -/
theorem run_talk_fit (s₀ : Session) (hf : Fresh s₀) (steps : List Step) (h : ∀ st ∈ steps, st.Fit) :
    ∀ f ∈ (s₀.run steps).talk, f.Fit := by
  induction steps using List.reverseRecOn with
  | nil =>
    obtain ⟨id, l, mfs, ch, b, rfl⟩ := hf
    intro t ht
    cases ht
  | append_singleton steps st ih =>
    have hs : ∀ x ∈ steps, x.Fit := fun x hx => h x (List.mem_append_left _ hx)
    have hr : s₀.run (steps ++ [st]) = (s₀.run steps).step st := by simp [run]
    rw [hr]
    obtain ⟨fs, h₁, h₂⟩ := step_said (run_opened s₀ hf steps hs) (run_todo_fit s₀ hf steps hs) st (h st (by simp))
    intro f hm
    rw [h₁] at hm
    rcases List.mem_append.mp hm with hm | hm
    · exact ih hs f hm
    · exact h₂ f hm

theorem chunkFrames_body (handle : UInt32) (format : Option UInt32) (max n : Nat) (b : Bytes) (t : Transfer)
    (h : .transfer t ∈ chunkFrames handle format max n b) : ∃ p, t.body = some (.data p) := by
  induction n generalizing b with
  | zero => cases h
  | succ n ih =>
    unfold chunkFrames at h
    split at h
    · cases h
    · rcases List.mem_cons.mp h with h | h
      · cases h; exact ⟨_, rfl⟩
      · exact ih _ h

theorem transferFrames_coherent (mfs handle id : UInt32) (tag : Bytes) (body : TransferBody) (settled : Bool)
    (format : Option UInt32) (hc : body.coherent) (t : Transfer) (h : .transfer t ∈ transferFrames mfs handle id tag body settled format)
    (b : TransferBody) (hb : t.body = some b) : b.coherent := by
  have data : ∀ p, (TransferBody.data p).coherent := fun p => by rw [TransferBody.coherent]; trivial
  unfold transferFrames at h
  dsimp only at h
  split at h
  · rcases List.mem_cons.mp h with h | h
    · cases h
      obtain rfl := Option.some.inj hb
      exact data _
    · obtain ⟨p, hp⟩ := chunkFrames_body _ _ _ _ _ t h
      rw [hp] at hb
      obtain rfl := Option.some.inj hb
      exact data _
  · cases List.mem_singleton.mp h
    obtain rfl := Option.some.inj hb
    exact hc

theorem transferHead_wf {h : TransferHead} {tag : Bytes} (ht : tag.length ≤ 1996) (h₁ : h.rcvSettleMode = none)
    (h₂ : h.deliveryTag = none ∨ h.deliveryTag = some tag) (h₃ : h.state = none ∨ h.state = some (.accepted {})) : wf h := by
  have hs := head_size_le h tag h₁ h₂ h₃
  have ow : ∀ x : Option UInt32, wf x := by rintro (_ | _) <;> exact True.intro
  have ob : ∀ x : Option Bool, wf x := by rintro (_ | _) <;> exact True.intro
  refine ⟨True.intro, ow _, ?_, ow _, ob _, True.intro, ?_, ?_, True.intro, True.intro, True.intro, ?_⟩
  · rcases h₂ with h | h <;> rw [h]
    · exact True.intro
    · show tag.length < U32; unfold U32; omega
  · rw [h₁]; exact True.intro
  · rcases h₃ with h | h <;> rw [h]
    · exact True.intro
    · show 0 + 4 < U32; unfold U32; omega
  · have h₄ := (composite_size_le h).2
    have h₅ : size h = Composite.encodedSize h := rfl
    rw [h₅, Composite.encodedSize] at hs
    rw [h₄]
    unfold U32
    split at hs <;> omega

/-- A transfer made by the session is well formed. -/
theorem transfer_fit {s : Session} (hs : Reachable s) (hm : s.maxFrameSize ≠ 0) (hh : s.Honest) (t : Transfer)
    (h : .frame (.transfer t) ∈ s.log) : (Frame.transfer t).Fit := by
  have h : t ∈ sentTransfers s.log := List.mem_filterMap.mpr ⟨_, h, rfl⟩
  obtain ⟨ds, h₁, _, h₃⟩ := hs.sentInv
  rw [h₁] at h
  obtain ⟨_, hd', hmem⟩ := List.mem_flatten.mp h
  obtain ⟨d, hd, rfl⟩ := List.mem_map.mp hd'
  obtain ⟨x, l, tag, hx, _, _, hg, hf⟩ := h₃ d hd
  obtain ⟨hc, ht⟩ := hh x (List.mem_of_getElem? hx)
  have hl : tag.length ≤ 1996 := by
    rcases hq : x.req.tag with _ | g
    · rw [hg.2 hq]; omega
    · rw [hg.1 g hq]; exact ht g hq
  have hmem' : .transfer t ∈ transferFrames s.maxFrameSize (UInt32.ofNat l.id) d.id tag x.req.body x.req.settled x.req.format := by
    rw [hf]; exact List.mem_map_of_mem hmem
  obtain ⟨ts, he, _, hp⟩ := transferFrames_spec s.maxFrameSize (UInt32.ofNat l.id) d.id tag x.req.body x.req.settled x.req.format hc
  have hmem'' := hmem'
  rw [he] at hmem''
  obtain ⟨t', ht', e⟩ := List.mem_map.mp hmem''
  cases e
  obtain ⟨p₁, p₂, p₃, p₄, _⟩ := hp t ht'
  refine ⟨⟨transferHead_wf hl p₂ p₃ p₄, fun b hb => transferFrames_coherent _ _ _ _ _ _ _ hc t hmem' b hb⟩, ?_⟩
  have hsz : (enc t.head).length ≤ tag.length + 44 := by rw [← exactSize t.head]; exact head_size_le t.head tag p₂ p₃ p₄
  have hlen : (Frame.encode (.transfer t)).length = (enc t.head).length + t.payload.length := by
    have hpl : (optEnc TransferBody.tenc t.body).length = t.payload.length := by
      unfold Transfer.payload optEnc; cases t.body <;> rfl
    rw [← hpl, ← List.length_append]; rfl
  rw [hlen]
  unfold chunkSize at p₁
  have hlt := s.maxFrameSize.toNat_lt
  split at p₁
  · next hm =>
    have hm' := UInt32.lt_iff_toNat_lt.mp hm
    rw [UInt32.toNat_sub_of_le _ _ (UInt32.le_iff_toNat_le.mpr (Nat.le_of_lt hm'))] at p₁
    have : (2048 : UInt32).toNat = 2048 := rfl
    unfold U32
    omega
  · next hm' =>
    have : ¬ 2048 < s.maxFrameSize.toNat := fun h => hm' (UInt32.lt_iff_toNat_lt.mpr h)
    unfold U32
    omega

/-- Every frame fits. -/
theorem run_fit (s₀ : Session) (hf : Fresh s₀) (steps : List Step) (h : ∀ st ∈ steps, st.Fit)
    (hm : (s₀.run steps).maxFrameSize ≠ 0) (hh : (s₀.run steps).Honest) (f : Frame) (hl : .frame f ∈ (s₀.run steps).log) : f.Fit := by
  by_cases ht : ∃ t, f = .transfer t
  · obtain ⟨t, rfl⟩ := ht
    exact transfer_fit ⟨s₀, steps, hf, rfl⟩ hm hh t hl
  · refine run_talk_fit s₀ hf steps h f (List.mem_filterMap.mpr ⟨_, hl, ?_⟩)
    cases f <;> first | rfl | exact absurd ⟨_, rfl⟩ ht

end Amqp.Rt
