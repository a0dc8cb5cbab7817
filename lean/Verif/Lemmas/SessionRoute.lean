import Verif.Lemmas.SessionTake
/-!
# The table of the peer's handles
-/

namespace Amqp.Rt
open Session

/-! ## Entries come from attach frames -/

/-- The table names handles the peer attached, and so do the calls to the control service about new sender links. -/
structure HandlesSeen (s : Session) : Prop where
  bound : ∀ h k, s.remoteHandles.get h = some k → ∃ a, .peer (.attach a) ∈ s.log ∧ a.handle = h
  asked : ∀ r a g, .ctl (.attachSender r a g) ∈ s.todo → .peer (.attach a) ∈ s.log

theorem Micro.handlesSeen {s s' : Session} (h : Micro s s') (hi : HandlesSeen s) : HandlesSeen s' := by
  obtain ⟨evs, hlog⟩ := h.log_grows
  have old : ∀ e, e ∈ s.log → e ∈ s'.log := fun e he => by rw [hlog]; exact List.mem_append_left _ he
  have keep : s'.remoteHandles = s.remoteHandles →
      (∀ r a g, .ctl (.attachSender r a g) ∈ s'.todo → .ctl (.attachSender r a g) ∈ s.todo ∨ .peer (.attach a) ∈ s.log) →
      HandlesSeen s' := by
    intro h₁ h₂
    constructor
    · intro h k hk
      rw [h₁] at hk
      obtain ⟨a, ha, hh⟩ := hi.bound h k hk
      exact ⟨a, old _ ha, hh⟩
    · intro r a g hm
      rcases h₂ r a g hm with hm | hm
      · exact old _ (hi.asked r a g hm)
      · exact old _ hm
  cases h
  case bind a k ha =>
    constructor
    · intro h' k' hk
      have hk : (s.remoteHandles.insert a.handle k).get h' = some k' := hk
      rw [Map.get_insert] at hk
      split at hk
      · next hh =>
        refine ⟨a, ?_, hh⟩
        rcases ha with ha | ⟨r, g, hm⟩
        · exact ha
        · exact hi.asked r a g hm
      · exact hi.bound h' k' hk
    · exact hi.asked
  case unbind f hf =>
    constructor
    · intro h' k' hk
      have hk : (s.remoteHandles.erase f.handle).get h' = some k' := hk
      rw [Map.get_erase] at hk
      split at hk
      · cases hk
      · exact hi.bound h' k' hk
    · exact hi.asked
  case newSnd a ha _ =>
    refine keep rfl fun r a' g hm => ?_
    rcases List.mem_append.mp hm with hm | hm
    · exact .inl hm
    · have : a' = a := by simp at hm; exact hm.2.1
      subst this
      exact .inr ha
  case addTodo t h₁ h₂ _ _ =>
    refine keep rfl fun r a' g hm => ?_
    rcases List.mem_append.mp hm with hm | hm
    · exact .inl hm
    · exact (h₂ r a' g (List.mem_singleton.mp hm).symm).elim
  case addFlow r' f k hk _ =>
    refine keep rfl fun r a' g hm => ?_
    rcases List.mem_append.mp hm with hm | hm
    · exact .inl hm
    · simp at hm
  case eraseTodo i => exact keep rfl fun r a g hm => .inl (List.mem_of_mem_eraseIdx hm)
  all_goals exact keep (by first | rfl | (simp; done)) (fun r a g hm => .inl (by first | exact hm | simpa using hm))

theorem Session.Reachable.handlesSeen {s : Session} (h : Reachable s) : HandlesSeen s := by
  refine h.invariant ?_ (fun _ _ h => h.handlesSeen)
  rintro _ ⟨_, _, _, _, _, rfl⟩
  constructor
  · intro h k hk; simp [Session.new] at hk
  · intro r a g hm; simp [Session.new] at hm

/-! ## Sender links and their slots -/

/-- An established sender link is in the slot of its id. -/
def SndSlots (s : Session) : Prop := ∀ k r, s.links.get k = some (.snd (.established r)) → ∃ l, s.snd? r = some l ∧ l.id = k

theorem Micro.snd_slot {s s' : Session} (h : Micro s s') (k : Nat) (r : Ref)
    (hx : s'.links.get k = some (.snd (.established r))) :
    s.links.get k = some (.snd (.established r)) ∨ ∃ l, s'.snd? r = some l ∧ l.id = k := by
  have ins : ∀ l : Link, l.NotEst → s'.links = s.links.insert l → s.links.get k = some (.snd (.established r)) := by
    intro l hl he
    rw [he] at hx
    rcases Slab.get_insert_some hx with ⟨_, h⟩ | h
    · rw [← h] at hl; exact hl.elim
    · exact h
  cases h
  case insertSlot l hl => exact .inl (ins l hl.1 rfl)
  case newSnd a _ _ => exact .inl (ins _ (by trivial) rfl)
  case newRcvRemote a _ => exact .inl (ins _ (by trivial) rfl)
  case newRcvLocal a op => exact .inl (ins _ (by trivial) rfl)
  case estSnd k' r' l old hl hk ho ht _ =>
    rcases Slab.get_set_some hx with ⟨hkk, he⟩ | ⟨_, h⟩
    · cases he
      exact .inr ⟨l, hl, hk.trans hkk⟩
    · exact .inl h
  case estSndLocal k' l op ho hk _ _ _ _ =>
    rcases Slab.get_set_some hx with ⟨hkk, he⟩ | ⟨_, h⟩
    · cases he
      exact .inr ⟨l, by simp [snd?], hk.trans hkk⟩
    · exact .inl h
  case estRcv k' r' src ho =>
    rcases Slab.get_set_some hx with ⟨_, he⟩ | ⟨_, h⟩
    · cases he
    · exact .inl h
  case estRcvLocal k' r' op ho =>
    rcases Slab.get_set_some hx with ⟨_, he⟩ | ⟨_, h⟩
    · cases he
    · exact .inl h
  case closeSlot k' l old ho hl _ =>
    rcases Slab.get_set_some hx with ⟨_, he⟩ | ⟨_, h⟩
    · rw [← he] at hl; exact hl.1.elim
    · exact .inl h
  case removeSlot k' _ =>
    have hx : (s.links.remove k').get k = _ := hx
    rw [Slab.get_remove] at hx
    split at hx
    · cases hx
    · exact .inl hx
  case clearSlots _ =>
    have hx : (Slab.empty : Slab Link).get k = _ := hx
    rw [Slab.get_empty] at hx
    cases hx
  all_goals exact .inl (by first | exact hx | simpa using hx)

theorem Micro.sndSlots {s s' : Session} (h : Micro s s') (hi : SndSlots s) : SndSlots s' := by
  intro k r hx
  rcases h.snd_slot k r hx with hx | hx
  · obtain ⟨l, hl, hk⟩ := hi k r hx
    obtain ⟨l', hl', hk', _⟩ := h.snd_kept r l hl
    exact ⟨l', hl', hk'.trans hk⟩
  · exact hx

theorem Session.Reachable.sndSlots {s : Session} (h : Reachable s) : SndSlots s := by
  refine h.invariant ?_ (fun _ _ h => h.sndSlots)
  rintro _ ⟨_, _, _, _, _, rfl⟩ k r hk
  simp [Session.new, Slab.get_empty] at hk

/-! ## Which steps change an entry -/

section
variable (s : Session)

@[simp] theorem dropLink_remoteHandles (l : Link) : (s.dropLink l).remoteHandles = s.remoteHandles := by
  unfold dropLink; split <;> rfl

@[simp] theorem setLink_remoteHandles (k : Nat) (l : Link) : (s.setLink k l).remoteHandles = s.remoteHandles := by
  unfold setLink; split <;> simp

@[simp] theorem removeLink_remoteHandles (k : Nat) : (s.removeLink k).remoteHandles = s.remoteHandles := by
  unfold removeLink; split <;> simp

@[simp] theorem detachSender_remoteHandles (id : UInt32) (c : Bool) (e : Option Error) :
    (s.detachSender id c e).remoteHandles = s.remoteHandles := by
  unfold detachSender; dsimp only; split <;> simp

@[simp] theorem closeSender_remoteHandles (r : Ref) (e : Option Error) :
    (s.closeSender r e).remoteHandles = s.remoteHandles := by
  unfold closeSender; repeat' split
  all_goals simp

@[simp] theorem detachReceiver_remoteHandles (id : UInt32) (c : Bool) (e : Option Error) :
    (s.detachReceiver id c e).remoteHandles = s.remoteHandles := by
  unfold detachReceiver; dsimp only; repeat' split
  all_goals simp

@[simp] theorem closeReceiver_remoteHandles (r : Ref) (e : Option Error) :
    (s.closeReceiver r e).remoteHandles = s.remoteHandles := by
  unfold closeReceiver; dsimp only; repeat' split
  all_goals simp

@[simp] theorem checkAdd_remoteHandles (a b : UInt32) : (s.checkAdd a b).remoteHandles = s.remoteHandles := by
  unfold checkAdd; split <;> rfl

@[simp] theorem setLinkCredit_remoteHandles (r : Ref) (n : UInt32) :
    (s.setLinkCredit r n).remoteHandles = s.remoteHandles := by
  unfold setLinkCredit; split <;> simp [rcvLinkFlow]

@[simp] theorem handleFlow_remoteHandles (f : Flow) (l : Option Ref) :
    (s.handleFlow f l).remoteHandles = s.remoteHandles := by
  unfold handleFlow; dsimp only; repeat' split
  all_goals simp

@[simp] theorem charge_remoteHandles (r : Ref) (t : Transfer) : (s.charge r t).remoteHandles = s.remoteHandles := by
  unfold charge; split <;> rfl

@[simp] theorem handleTransfer_remoteHandles (r : Ref) (t : Transfer) :
    (s.handleTransfer r t).1.remoteHandles = s.remoteHandles := by
  unfold handleTransfer continueTransfer beginTransfer countDelivery
  repeat' split
  all_goals simp

@[simp] theorem settleDeliveries_remoteHandles (d : Disposition) :
    (s.settleDeliveries d).remoteHandles = s.remoteHandles := by
  unfold settleDeliveries
  dsimp only
  split
  · exact foldl_field Session.remoteHandles (f := disposeOne (d.role = .receiver) d) (fun _ _ => by simp) _ s
  · simp

@[simp] theorem setError_remoteHandles (e : PErr) : (s.setError e).remoteHandles = s.remoteHandles := by
  unfold setError clearLinks failLinks
  rw [foldl_field Session.remoteHandles (f := clearLink) (fun s l => by unfold clearLink; split <;> simp)]
  show (List.foldl (failLink e) _ _).remoteHandles = _
  rw [foldl_field Session.remoteHandles (f := failLink e) (fun s l => by unfold failLink; split <;> simp)]
  simp

@[simp] theorem windowLoop_remoteHandles (t : Ref) (req : SendReq) (tag : Bytes) :
    (s.windowLoop t req tag).remoteHandles = s.remoteHandles := by
  unfold windowLoop; repeat' split
  all_goals simp

@[simp] theorem creditLoop_remoteHandles (t : Ref) (req : SendReq) (tag : Bytes) :
    (s.creditLoop t req tag).remoteHandles = s.remoteHandles := by
  unfold creditLoop; repeat' split
  all_goals simp

@[simp] theorem sendStart_remoteHandles (req : SendReq) : (s.sendStart req).remoteHandles = s.remoteHandles := by
  unfold sendStart sendStart.go; dsimp only; repeat' split
  all_goals simp

@[simp] theorem sendResume_remoteHandles (t : Ref) : (s.sendResume t).remoteHandles = s.remoteHandles := by
  unfold sendResume; repeat' split
  all_goals simp

@[simp] theorem endLocal_remoteHandles : s.endLocal.remoteHandles = s.remoteHandles := by
  unfold endLocal; repeat' split
  all_goals simp

@[simp] theorem pollRecv_remoteHandles (r : Ref) : (s.pollRecv r).1.remoteHandles = s.remoteHandles := by
  unfold pollRecv; dsimp only; repeat' split
  all_goals simp

@[simp] theorem getDelivery_remoteHandles (r : Ref) : (s.getDelivery r).1.remoteHandles = s.remoteHandles := by
  unfold getDelivery; repeat' split
  all_goals simp

@[simp] theorem confirmReceiver_remoteHandles (r : Ref) (a : Attach) :
    (s.confirmReceiver r a).remoteHandles = s.remoteHandles := by
  unfold confirmReceiver; repeat' split
  all_goals simp

@[simp] theorem refuseSender_remoteHandles (a : Attach) (r : Ref) (e : Error) :
    (s.refuseSender a r e).remoteHandles = s.remoteHandles := by
  unfold refuseSender; dsimp only; split <;> simp

@[simp] theorem enqueue_remoteHandles (a : Action) : (s.enqueue a).remoteHandles = s.remoteHandles := by
  unfold enqueue; split <;> rfl

end

section
variable (s : Session)

@[simp] theorem dropLink_todo (l : Link) : (s.dropLink l).todo = s.todo := by
  unfold dropLink; split <;> rfl

@[simp] theorem setLink_todo (k : Nat) (l : Link) : (s.setLink k l).todo = s.todo := by
  unfold setLink; split <;> simp

@[simp] theorem removeLink_todo (k : Nat) : (s.removeLink k).todo = s.todo := by
  unfold removeLink; split <;> simp

@[simp] theorem detachSender_todo (id : UInt32) (c : Bool) (e : Option Error) :
    (s.detachSender id c e).todo = s.todo := by
  unfold detachSender; dsimp only; split <;> simp

@[simp] theorem closeSender_todo (r : Ref) (e : Option Error) :
    (s.closeSender r e).todo = s.todo := by
  unfold closeSender; repeat' split
  all_goals simp

@[simp] theorem detachReceiver_todo (id : UInt32) (c : Bool) (e : Option Error) :
    (s.detachReceiver id c e).todo = s.todo := by
  unfold detachReceiver; dsimp only; repeat' split
  all_goals simp

@[simp] theorem closeReceiver_todo (r : Ref) (e : Option Error) :
    (s.closeReceiver r e).todo = s.todo := by
  unfold closeReceiver; dsimp only; repeat' split
  all_goals simp

@[simp] theorem checkAdd_todo (a b : UInt32) : (s.checkAdd a b).todo = s.todo := by
  unfold checkAdd; split <;> rfl

@[simp] theorem setLinkCredit_todo (r : Ref) (n : UInt32) :
    (s.setLinkCredit r n).todo = s.todo := by
  unfold setLinkCredit; split <;> simp [rcvLinkFlow]

@[simp] theorem handleFlow_todo (f : Flow) (l : Option Ref) :
    (s.handleFlow f l).todo = s.todo := by
  unfold handleFlow; dsimp only; repeat' split
  all_goals simp

@[simp] theorem charge_todo (r : Ref) (t : Transfer) : (s.charge r t).todo = s.todo := by
  unfold charge; split <;> rfl

@[simp] theorem handleTransfer_todo (r : Ref) (t : Transfer) :
    (s.handleTransfer r t).1.todo = s.todo := by
  unfold handleTransfer continueTransfer beginTransfer countDelivery
  repeat' split
  all_goals simp

@[simp] theorem settleDeliveries_todo (d : Disposition) :
    (s.settleDeliveries d).todo = s.todo := by
  unfold settleDeliveries
  dsimp only
  split
  · exact foldl_field Session.todo (f := disposeOne (d.role = .receiver) d) (fun _ _ => by simp) _ s
  · simp

@[simp] theorem setError_todo (e : PErr) : (s.setError e).todo = s.todo := by
  unfold setError clearLinks failLinks
  rw [foldl_field Session.todo (f := clearLink) (fun s l => by unfold clearLink; split <;> simp)]
  show (List.foldl (failLink e) _ _).todo = _
  rw [foldl_field Session.todo (f := failLink e) (fun s l => by unfold failLink; split <;> simp)]
  simp

@[simp] theorem windowLoop_todo (t : Ref) (req : SendReq) (tag : Bytes) :
    (s.windowLoop t req tag).todo = s.todo := by
  unfold windowLoop; repeat' split
  all_goals simp

@[simp] theorem creditLoop_todo (t : Ref) (req : SendReq) (tag : Bytes) :
    (s.creditLoop t req tag).todo = s.todo := by
  unfold creditLoop; repeat' split
  all_goals simp

@[simp] theorem sendStart_todo (req : SendReq) : (s.sendStart req).todo = s.todo := by
  unfold sendStart sendStart.go; dsimp only; repeat' split
  all_goals simp

@[simp] theorem sendResume_todo (t : Ref) : (s.sendResume t).todo = s.todo := by
  unfold sendResume; repeat' split
  all_goals simp

@[simp] theorem endLocal_todo : s.endLocal.todo = s.todo := by
  unfold endLocal; repeat' split
  all_goals simp

@[simp] theorem pollRecv_todo (r : Ref) : (s.pollRecv r).1.todo = s.todo := by
  unfold pollRecv; dsimp only; repeat' split
  all_goals simp

@[simp] theorem getDelivery_todo (r : Ref) : (s.getDelivery r).1.todo = s.todo := by
  unfold getDelivery; repeat' split
  all_goals simp

@[simp] theorem confirmReceiver_todo (r : Ref) (a : Attach) :
    (s.confirmReceiver r a).todo = s.todo := by
  unfold confirmReceiver; repeat' split
  all_goals simp

@[simp] theorem refuseSender_todo (a : Attach) (r : Ref) (e : Error) :
    (s.refuseSender a r e).todo = s.todo := by
  unfold refuseSender; dsimp only; split <;> simp

end

theorem confirmSender_handle (s : Session) (a g : Attach) (r : Ref) {h : UInt32} (hne : a.handle ≠ h) :
    (s.confirmSender a g r).remoteHandles.get h = s.remoteHandles.get h := by
  unfold confirmSender
  split
  · have : ∀ k, (s.registerSender a k).remoteHandles.get h = s.remoteHandles.get h := by
      intro k
      show (s.remoteHandles.insert a.handle k).get h = _
      rw [Map.get_insert, if_neg hne]
    dsimp only
    split <;> simp [this]
  · rfl

theorem onAttach_handle (s : Session) (a : Attach) {h : UInt32} (hne : a.handle ≠ h) :
    (s.onAttach a).1.remoteHandles.get h = s.remoteHandles.get h := by
  have ins : ∀ k, (s.remoteHandles.insert a.handle k).get h = s.remoteHandles.get h := by
    intro k; rw [Map.get_insert, if_neg hne]
  have hh : (s.handleAttach a).1.remoteHandles.get h = s.remoteHandles.get h := by
    unfold handleAttach
    repeat' split
    all_goals first | rfl | exact ins _
  unfold onAttach
  split
  · next s' he => rw [he] at hh; exact hh
  · next s' he =>
    obtain rfl : s' = s := by
      have := handleAttach_log s a (by rw [he])
      rw [he] at this
      exact this
    split
    · rfl
    · exact ins _

theorem handleDetach_handle (s : Session) (f : Detach) {h : UInt32} (hne : f.handle ≠ h) :
    (s.handleDetach f).1.remoteHandles.get h = s.remoteHandles.get h := by
  have er : (s.remoteHandles.erase f.handle).get h = s.remoteHandles.get h := by rw [Map.get_erase, if_neg hne]
  unfold handleDetach detachEstablishedSender detachEstablishedReceiver failPending forget
  dsimp only
  repeat' split
  all_goals first | rfl | (simp [er]; done)

/-- A step that may change what the peer's handle `h` means. -/
def Session.Rebinds (s : Session) (h : UInt32) : Step → Prop
  | .peer (.attach a) => a.handle = h
  | .peer (.detach f) => f.handle = h
  | .complete i _ _ => ∃ r a g, s.todo[i]? = some (.ctl (.attachSender r a g)) ∧ a.handle = h
  | _ => False

theorem onComplete_handle (s : Session) (edit : Attach → Attach) (e : Option Error) (t : Todo) {h : UInt32}
    (hn : ∀ r a g, t = .ctl (.attachSender r a g) → a.handle ≠ h) :
    (s.onComplete edit e t).remoteHandles.get h = s.remoteHandles.get h := by
  unfold onComplete
  split
  · split <;> simp
  · split <;> simp
  · next r a g =>
    split
    · simp
    · exact confirmSender_handle s a _ r (hn r a g rfl)
  · split <;> simp
  · split <;> simp
  · split <;> simp
  · rfl

theorem handleFrame_handle (s : Session) (f : Frame) {h : UInt32} (hn : ∀ d, f = .detach d → d.handle ≠ h) :
    (finishFrame (s.handleFrame f)).remoteHandles.get h = s.remoteHandles.get h := by
  unfold handleFrame
  split
  · rfl
  · split
    · split
      · rfl
      · simp [finishFrame]
    · simp [finishFrame]
    · split
      · rfl
      · split
        · rfl
        · rfl
        · rfl
        · rfl
        · simp [finishFrame]
        · rfl
    · next d =>
      simp only [finishFrame, enqueue_remoteHandles]
      exact handleDetach_handle s d (hn d rfl)
    · rfl

theorem step_handle (s : Session) (st : Step) {h : UInt32} (hn : ¬ s.Rebinds h st) :
    (s.step st).remoteHandles.get h = s.remoteHandles.get h := by
  cases st <;> unfold step
  case peer f =>
    show (s.onPeer f).remoteHandles.get h = _
    unfold onPeer
    dsimp only
    split
    · next a =>
      split
      · rfl
      · rw [enqueue_remoteHandles]
        exact onAttach_handle (s.note _) a hn
    · split
      · rfl
      · simp [remoteEnd]
    · refine handleFrame_handle (s.note _) f ?_
      rintro d rfl
      exact hn
  case complete i edit e =>
    dsimp only
    split
    · next t ht =>
      refine onComplete_handle s edit e t ?_
      rintro r a g rfl
      intro hh
      exact hn ⟨r, a, g, ht, hh⟩
    · rfl
  case settle d x => by_cases hf : s.free d <;> simp [hf]
  case update d x => by_cases hf : s.free d <;> simp [hf]
  case dropDelivery d => by_cases hf : s.free d <;> simp [hf]
  case wait d => by_cases hf : s.held d <;> simp [hf]
  case endConfirmed =>
    dsimp only
    split
    · rfl
    · simp [remoteEnd]
  case attachSender a => rfl
  case attachReceiver a => rfl
  all_goals simp

/-- The step is not about handle `h`. -/
def Step.Elsewhere (h : UInt32) : Step → Prop
  | .peer (.attach a) => a.handle ≠ h
  | .peer (.detach f) => f.handle ≠ h
  | _ => True

/-- No sender link is waiting to be accepted under the peer's handle `h`. -/
def Session.NoneAsked (s : Session) (h : UInt32) : Prop := ∀ r a g, .ctl (.attachSender r a g) ∈ s.todo → a.handle ≠ h

theorem mem_enqueue {s : Session} {act : Action} {r : Ref} {a g : Attach}
    (h : .ctl (.attachSender r a g) ∈ (s.enqueue act).todo) :
    .ctl (.attachSender r a g) ∈ s.todo ∨ act = .attachSender r a g := by
  unfold enqueue at h
  split at h
  · exact .inl h
  · exact .inl h
  · rcases List.mem_append.mp h with h | h
    · exact .inl h
    · have := List.mem_singleton.mp h
      cases this
      exact .inr rfl

@[simp] theorem handleDetach_todo (s : Session) (f : Detach) : (s.handleDetach f).1.todo = s.todo := by
  unfold handleDetach detachEstablishedSender detachEstablishedReceiver failPending forget
  dsimp only
  repeat' split
  all_goals first | rfl | (simp; done)

theorem handleDetach_asks (s : Session) (f : Detach) (r : Ref) (a g : Attach) :
    (s.handleDetach f).2 ≠ .attachSender r a g := by
  unfold handleDetach detachEstablishedSender detachEstablishedReceiver
  dsimp only
  repeat' split
  all_goals first | (intro h; cases h; done) | (intro h; simp at h; done)

@[simp] theorem onAttach_todo (s : Session) (a : Attach) : (s.onAttach a).1.todo = s.todo := by
  have hh : (s.handleAttach a).1.todo = s.todo := by
    unfold handleAttach
    repeat' split
    all_goals rfl
  unfold onAttach
  split
  · next s' he => rw [he] at hh; exact hh
  · next s' he =>
    rw [he] at hh
    split
    · exact hh
    · exact hh

theorem onAttach_asks {s : Session} {a : Attach} {r : Ref} {b g : Attach}
    (h : (s.onAttach a).2 = .attachSender r b g) : b = a := by
  unfold onAttach at h
  split at h
  · cases h
  · split at h
    · cases h; rfl
    · cases h

theorem handleFrame_todo (s : Session) (f : Frame) : (s.handleFrame f).1.todo = s.todo := by
  unfold handleFrame
  repeat' split
  all_goals first
    | rfl
    | (simp; done)
    | (next he => have := congrArg (fun x => x.1.todo) he; simpa using this.symm)

theorem handleTransfer_asks {s : Session} {q : Ref} {t : Transfer} {r : Ref} {a g : Attach} :
    (s.handleTransfer q t).2 ≠ .attachSender r a g := by
  intro h
  unfold handleTransfer continueTransfer beginTransfer at h
  repeat' split at h
  all_goals (cases h; done)

theorem handleFrame_asks {s : Session} {f : Frame} {r : Ref} {a g : Attach}
    (h : (s.handleFrame f).2 = .ok (.attachSender r a g)) : False := by
  unfold handleFrame at h
  repeat' split at h
  all_goals first
    | (cases h; done)
    | (next he => cases h; exact handleDetach_asks _ _ _ _ _ (congrArg Prod.snd he))
    | (next he => cases h; exact handleTransfer_asks (congrArg Prod.snd he))

@[simp] theorem confirmSender_todo (s : Session) (a g : Attach) (r : Ref) : (s.confirmSender a g r).todo = s.todo := by
  unfold confirmSender registerSender
  split
  · dsimp only
    split <;> simp
  · rfl

/-- Only the peer's attach asks the application to accept a sender link. -/
theorem step_asks {s : Session} {st : Step} {r : Ref} {a g : Attach}
    (h : .ctl (.attachSender r a g) ∈ (s.step st).todo) :
    .ctl (.attachSender r a g) ∈ s.todo ∨ st = .peer (.attach a) := by
  cases st <;> unfold step at h
  case peer f =>
    have h : .ctl (.attachSender r a g) ∈ (s.onPeer f).todo := h
    unfold onPeer at h
    dsimp only at h
    split at h
    · next b =>
      split at h
      · exact .inl h
      · rcases mem_enqueue h with h | h
        · rw [onAttach_todo] at h
          exact .inl h
        · rw [onAttach_asks h]
          exact .inr rfl
    · split at h
      · exact .inl h
      · rcases mem_enqueue (s := ((s.note _).remoteEnd _).1) h with h | h
        · rw [remoteEnd, setError_todo] at h
          exact .inl h
        · cases h
    · left
      have hf : ((s.note (.peer f)).handleFrame f).1.todo = s.todo := handleFrame_todo _ f
      unfold finishFrame at h
      split at h
      · next s' act he =>
        rw [he] at hf
        rcases mem_enqueue h with h | h
        · rw [← hf]; exact h
        · exact (handleFrame_asks (by rw [he, h])).elim
      · next s' e he =>
        rw [he] at hf
        rw [← hf]; exact h
  case complete i edit e =>
    left
    dsimp only at h
    split at h
    · next t ht =>
      have h := List.mem_of_mem_eraseIdx h
      unfold onComplete at h
      repeat' split at h
      all_goals first | exact h | (simp at h; exact h)
    · exact h
  case settle d x => by_cases hf : s.free d <;> simp [hf] at h <;> exact .inl h
  case update d x => by_cases hf : s.free d <;> simp [hf] at h <;> exact .inl h
  case dropDelivery d => by_cases hf : s.free d <;> simp [hf] at h <;> exact .inl h
  case wait d => by_cases hf : s.held d <;> simp [hf] at h <;> exact .inl h
  case endConfirmed =>
    dsimp only at h
    split at h
    · exact .inl h
    · simp [remoteEnd] at h
      exact .inl h
  case attachSender a => exact .inl h
  case attachReceiver a => exact .inl h
  all_goals first | exact .inl h | (simp at h; exact .inl h)

theorem run_elsewhere (s : Session) (steps : List Step) {h : UInt32} (hs : ∀ st ∈ steps, st.Elsewhere h)
    (ha : s.NoneAsked h) : (s.run steps).remoteHandles.get h = s.remoteHandles.get h := by
  induction steps generalizing s with
  | nil => rfl
  | cons st rest ih =>
    have hst : st.Elsewhere h := hs st (by simp)
    have hr : ¬ s.Rebinds h st := by
      intro hr
      unfold Rebinds at hr
      split at hr
      · exact hst hr
      · exact hst hr
      · obtain ⟨r, a, g, hi, hh⟩ := hr
        exact ha r a g (List.mem_of_getElem? hi) hh
      · exact hr
    show ((s.step st).run rest).remoteHandles.get h = _
    rw [ih (s.step st) (fun x hx => hs x (by simp [hx])) ?_, step_handle s st hr]
    intro r a g hm
    rcases step_asks hm with hm | rfl
    · exact ha r a g hm
    · exact hst

/-! ## Effects on one receiver link only -/

/-- What happens to link `r` in slot `k` happens to no other link. -/
structure OnlyRcv (s s' : Session) (r : Ref) (k : Nat) : Prop where
  snds : s'.snds = s.snds
  rcvs : ∀ r', r' ≠ r → s'.rcv? r' = s.rcv? r'
  slots : ∀ k', k' ≠ k → s'.links.get k' = s.links.get k'

theorem OnlyRcv.trans {a b c : Session} {r : Ref} {k : Nat} (h : OnlyRcv a b r k) (h' : OnlyRcv b c r k) : OnlyRcv a c r k :=
  ⟨h'.snds.trans h.snds, fun r' hr => (h'.rcvs r' hr).trans (h.rcvs r' hr),
    fun k' hk => (h'.slots k' hk).trans (h.slots k' hk)⟩

theorem OnlyRcv.of_eq {a b : Session} (h₁ : b.snds = a.snds) (h₂ : b.rcvs = a.rcvs) (h₃ : b.links = a.links) (r : Ref)
    (k : Nat) : OnlyRcv a b r k :=
  ⟨h₁, fun _ _ => rcv?_congr h₂ _, fun _ _ => by rw [h₃]⟩

theorem OnlyRcv.modRcv (s : Session) (r : Ref) (k : Nat) (f : Rcv → Rcv) : OnlyRcv s (s.modRcv r f) r k :=
  ⟨rfl, fun r' hr => by rw [rcv?_modRcv, if_neg (Ne.symm hr)], fun _ _ => rfl⟩

theorem OnlyRcv.dropLink {s : Session} {r : Ref} (k : Nat) {x : Link} (hx : ∀ r', x = .rcv (.established r') → r' = r)
    (hs : ∀ r', x ≠ .snd (.established r')) : OnlyRcv s (s.dropLink x) r k := by
  unfold Session.dropLink
  split
  · next r' => exact absurd rfl (hs r')
  · next r' => rw [hx r' rfl]; exact .modRcv s r k _
  all_goals exact .of_eq (by rfl) (by rfl) (by rfl) r k

/-- The slot holds link `r` and nothing else. -/
def Holds (s : Session) (k : Nat) (r : Ref) : Prop :=
  ∀ x, s.links.get k = some x → (∀ r', x = .rcv (.established r') → r' = r) ∧ ∀ r', x ≠ .snd (.established r')

theorem OnlyRcv.setLink {s : Session} {r : Ref} {k : Nat} (h : Holds s k r) (x : Link) : OnlyRcv s (s.setLink k x) r k := by
  unfold Session.setLink
  split
  · next old ho =>
    refine OnlyRcv.trans (b := { s with links := s.links.set k x }) ⟨rfl, fun _ _ => rfl, ?_⟩ (.dropLink k (h old ho).1 (h old ho).2)
    intro k' hk
    show (s.links.set k x).get k' = _
    rw [Slab.get_set _ _ _ _ (by simp [Slab.contains, ho]), if_neg (Ne.symm hk)]
  · exact .of_eq (by rfl) (by rfl) (by rfl) r k

theorem OnlyRcv.removeLink {s : Session} {r : Ref} {k : Nat} (h : Holds s k r) : OnlyRcv s (s.removeLink k) r k := by
  unfold Session.removeLink
  split
  · next old ho =>
    refine OnlyRcv.trans (b := { s with links := s.links.remove k }) ⟨rfl, fun _ _ => rfl, ?_⟩ (.dropLink k (h old ho).1 (h old ho).2)
    intro k' hk
    show (s.links.remove k).get k' = _
    rw [Slab.get_remove, if_neg (Ne.symm hk)]
  · exact .of_eq (by rfl) (by rfl) (by rfl) r k

theorem OnlyRcv.detachReceiver {s : Session} {r : Ref} {id : UInt32} (h : Holds s id.toNat r) (c : Bool) (e : Option Error) :
    OnlyRcv s (s.detachReceiver id c e) r id.toNat := by
  unfold Session.detachReceiver
  dsimp only
  split
  · refine OnlyRcv.trans (.of_eq (b := (post _ _).note _) ?_ ?_ ?_ r _) (.removeLink ?_)
    all_goals first | (split <;> rfl) | skip
    intro x hx
    refine h x ?_
    rw [← hx]
    split <;> rfl
  · refine OnlyRcv.trans (b := s.newOp) ?_ (OnlyRcv.trans (OnlyRcv.setLink (s := s.newOp) h (.rcv (.closing (some s.ops)))) ?_)
    · exact .of_eq (by rfl) (by rfl) (by rfl) r _
    · exact .of_eq (by rfl) (by rfl) (by rfl) r _
  · exact OnlyRcv.trans (b := s.newOp.note _) (.of_eq (by rfl) (by rfl) (by rfl) r _) (.removeLink (s := s.newOp.note _) h)
  · exact .of_eq (by rfl) (by rfl) (by rfl) r _
  · exact .of_eq (by rfl) (by rfl) (by rfl) r _

theorem OnlyRcv.closeReceiver {s : Session} {r : Ref} {l : Rcv} (hl : s.rcv? r = some l) (h : Holds s l.handle.toNat r)
    (e : Option Error) : OnlyRcv s (s.closeReceiver r e) r l.handle.toNat := by
  unfold Session.closeReceiver
  rw [hl]
  dsimp only
  refine OnlyRcv.trans ?_ (.modRcv _ _ _ _)
  split
  · exact .of_eq (by rfl) (by rfl) (by rfl) r _
  · exact .detachReceiver h true e

theorem newRcv_same (s : Session) (id handle : UInt32) (tag : Bytes) (settled : Bool) :
    (s.newRcv id handle tag settled).1.snds = s.snds ∧ (s.newRcv id handle tag settled).1.rcvs = s.rcvs ∧
      (s.newRcv id handle tag settled).1.links = s.links := by
  unfold newRcv
  dsimp only
  repeat' split
  all_goals simp

theorem OnlyRcv.startDelivery (s : Session) (r : Ref) (k : Nat) (l : Rcv) (id : UInt32) (t : Transfer) :
    OnlyRcv s (s.startDelivery r l id t) r k := by
  have h := newRcv_same s id l.handle (t.head.deliveryTag.getD []) (t.head.settled.getD false)
  unfold Session.startDelivery
  exact OnlyRcv.trans (b := (s.newRcv id l.handle (t.head.deliveryTag.getD []) (t.head.settled.getD false)).1)
    (.of_eq h.1 h.2.1 h.2.2 r k) (.modRcv _ _ _ _)

theorem OnlyRcv.countDelivery (s : Session) (r : Ref) (k : Nat) (l : Rcv) : OnlyRcv s (s.countDelivery r l) r k := by
  unfold Session.countDelivery
  exact OnlyRcv.trans (b := s.checkAdd l.deliveryCount 1) (.of_eq (by unfold checkAdd; split <;> rfl) (by unfold checkAdd; split <;> rfl)
      (by unfold checkAdd; split <;> rfl) r k) (.modRcv _ _ _ _)

theorem OnlyRcv.charge (s : Session) (r : Ref) (k : Nat) (t : Transfer) : OnlyRcv s (s.charge r t) r k := by
  unfold Session.charge
  split
  · exact .of_eq rfl rfl rfl r k
  · exact .modRcv _ _ _ _

/-- The link keeps its handle and the slot its content. -/
structure Still (s s' : Session) (r : Ref) : Prop where
  links : s'.links = s.links
  rcv : ∀ l, s.rcv? r = some l → ∃ l', s'.rcv? r = some l' ∧ l'.handle = l.handle

theorem Still.close {s s' : Session} {r : Ref} {l : Rcv} (h : Still s s' r) (ho : OnlyRcv s s' r l.handle.toNat)
    (hl : s.rcv? r = some l) (hk : Holds s l.handle.toNat r) (e : Option Error) :
    OnlyRcv s (s'.closeReceiver r e) r l.handle.toNat := by
  obtain ⟨l', hl', hh⟩ := h.rcv l hl
  refine ho.trans ?_
  rw [← hh] at hk ⊢
  exact .closeReceiver hl' (fun x hx => hk x (by rw [← h.links]; exact hx)) e

theorem Still.trans {a b c : Session} {r : Ref} (h : Still a b r) (h' : Still b c r) : Still a c r := by
  refine ⟨h'.links.trans h.links, fun l hl => ?_⟩
  obtain ⟨l', hl', hh⟩ := h.rcv l hl
  obtain ⟨l'', hl'', hh'⟩ := h'.rcv l' hl'
  exact ⟨l'', hl'', hh'.trans hh⟩

theorem Still.of_eq {a b : Session} (h₂ : b.rcvs = a.rcvs) (h₃ : b.links = a.links) (r : Ref) : Still a b r :=
  ⟨h₃, fun l hl => ⟨l, by rw [rcv?_congr h₂]; exact hl, rfl⟩⟩

theorem Still.modRcv (s : Session) (r : Ref) {f : Rcv → Rcv} (hf : ∀ l, (f l).handle = l.handle) : Still s (s.modRcv r f) r :=
  ⟨rfl, fun l hl => ⟨f l, by rw [rcv?_modRcv, if_pos rfl, hl]; rfl, hf l⟩⟩

theorem Still.charge (s : Session) (r : Ref) (t : Transfer) : Still s (s.charge r t) r := by
  unfold Session.charge
  split
  · exact .of_eq rfl rfl r
  · exact .modRcv _ _ fun _ => rfl

theorem Still.countDelivery (s : Session) (r : Ref) (l : Rcv) : Still s (s.countDelivery r l) r := by
  unfold Session.countDelivery
  exact Still.trans (b := s.checkAdd l.deliveryCount 1) (.of_eq (by unfold checkAdd; split <;> rfl)
    (by unfold checkAdd; split <;> rfl) r) (.modRcv _ _ fun _ => rfl)

theorem OnlyRcv.handleTransfer {s : Session} {r : Ref} {l : Rcv} (hl : s.rcv? r = some l) (h : Holds s l.handle.toNat r)
    (t : Transfer) : OnlyRcv s (s.handleTransfer r t).1 r l.handle.toNat := by
  have note : ∀ (a : Session) e, OnlyRcv a (a.note e) r l.handle.toNat := fun a e => .of_eq (by rfl) (by rfl) (by rfl) r _
  have still : ∀ (a : Session) e, Still a (a.note e) r := fun a e => .of_eq (by rfl) (by rfl) r
  unfold Session.handleTransfer
  rw [hl]
  dsimp only
  split
  · exact (still _ _).close (note _ _) hl h _
  · split
    · next body _ =>
      have ho := OnlyRcv.charge s r l.handle.toNat t
      have hs := Still.charge s r t
      generalize s.charge r t = a at ho hs ⊢
      unfold continueTransfer
      split
      · exact (hs.trans (still _ _)).close (ho.trans (note _ _)) hl h _
      · split
        · exact (hs.trans (still _ _)).close (ho.trans (note _ _)) hl h _
        · dsimp only
          have ho := (ho.trans (note a (.received r t))).trans (.modRcv _ _ _ fun l =>
            { l with partialBody := some (body ++ optEnc TransferBody.tenc t.body) })
          have hs := (hs.trans (still a (.received r t))).trans (.modRcv _ _ (f := fun l =>
            { l with partialBody := some (body ++ optEnc TransferBody.tenc t.body) }) fun _ => rfl)
          split
          · exact ho
          · have ho := (ho.trans (.countDelivery _ _ _ l)).trans (.modRcv _ _ _ fun l => { l with partialBody := none })
            have hs := (hs.trans (.countDelivery _ _ l)).trans (.modRcv _ _ (f := fun l => { l with partialBody := none })
              fun _ => rfl)
            split
            · exact ho.trans (.modRcv _ _ _ _)
            · exact hs.close ho hl h _
    · have ho := OnlyRcv.charge s r l.handle.toNat t
      have hs := Still.charge s r t
      generalize s.charge r t = a at ho hs ⊢
      unfold beginTransfer
      split
      · split
        · exact ((ho.trans (note _ _)).trans (.modRcv _ _ _ _)).trans (.startDelivery _ _ _ _ _ _)
        · exact ((ho.trans (note _ _)).trans (.countDelivery _ _ _ _)).trans (.startDelivery _ _ _ _ _ _)
      · exact (hs.trans (still _ _)).close (ho.trans (note _ _)) hl h _

end Amqp.Rt
