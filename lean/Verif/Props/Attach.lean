import Verif.Lemmas.SessionAccept
import Verif.Lemmas.SessionAttach
import Verif.Model.Builder
import Verif.Props.Receiving
import Verif.Props.Routing
/-!
# Attaching links: C64
-/

namespace Amqp.Rt
open Session Examples

/-- **C64** Attaching a sender link posts the application's attach, and nothing else, under a handle that no link has. -/
theorem c64_local_sender {s : Session} (h : Reachable s) (a : Attach) : ∃ k, s.links.get k = none ∧
    (s.step (.attachSender a)).log = s.log ++ [.frame (.attach { a with handle := UInt32.ofNat k })] ∧
    (s.step (.attachSender a)).links.get k = some (.snd (.opening (some s.ops))) ∧
    (∀ j, j ≠ k → (s.step (.attachSender a)).links.get j = s.links.get j) ∧
    (s.step (.attachSender a)).linksByName.get a.name = some k := by
  refine ⟨s.links.vacantKey, h.linksWf.vacantKey, rfl, ?_, fun j hj => ?_, ?_⟩
  · exact (Slab.get_insert h.linksWf _ _).trans (if_pos rfl)
  · exact (Slab.get_insert h.linksWf _ _).trans (if_neg hj.symm)
  · exact (Map.get_insert _ _ _ _).trans (if_pos rfl)

/-- **C64** The same for a receiver link, which starts without credit and without messages. -/
theorem c64_local_receiver {s : Session} (h : Reachable s) (a : Attach) : ∃ k l, s.links.get k = none ∧
    (s.step (.attachReceiver a)).log = s.log ++ [.frame (.attach { a with handle := UInt32.ofNat k })] ∧
    (s.step (.attachReceiver a)).links.get k = some (.rcv (.openingLocal (some (s.rcvs.length, s.ops)))) ∧
    (∀ j, j ≠ k → (s.step (.attachReceiver a)).links.get j = s.links.get j) ∧
    (s.step (.attachReceiver a)).linksByName.get a.name = some k ∧
    (s.step (.attachReceiver a)).rcv? s.rcvs.length = some l ∧ l.name = a.name ∧ l.handle = UInt32.ofNat k ∧ l.credit = 0 ∧
    l.error = none ∧ l.closed = false ∧ l.queue = [] ∧ l.partialBody = none := by
  refine ⟨s.links.vacantKey, _, h.linksWf.vacantKey, rfl, ?_, fun j hj => ?_, ?_, List.getElem?_concat_length, rfl, rfl, rfl,
    rfl, rfl, rfl, rfl⟩
  · exact (Slab.get_insert h.linksWf _ _).trans (if_pos rfl)
  · exact (Slab.get_insert h.linksWf _ _).trans (if_neg hj.symm)
  · exact (Map.get_insert _ _ _ _).trans (if_pos rfl)

/-- What the peer's attach does to a session that is not ended. -/
theorem peer_attach {s : Session} {a : Attach} (he : s.error = none) : s.step (.peer (.attach a)) =
    ((s.note (.peer (.attach a))).onAttach a).1.enqueue ((s.note (.peer (.attach a))).onAttach a).2 := by
  show onPeer s (.attach a) = _
  unfold onPeer
  dsimp only
  rw [if_neg (by simp [note, he])]

theorem get_set_self {s : Slab Link} {k : Nat} {l x : Link} (h : s.get k = some l) : (s.set k x).get k = some x := by
  rw [Slab.get_set _ _ _ _ (by simp [Slab.contains, h]), if_pos rfl]

/-- **C64** The peer's attach that answers a local sender link: the link is established with the parameters of the peer's
attach, the application gets it, and the peer's handle names it from now on.  Nothing is sent, no other link changes. -/
theorem c64_answered_sender {s : Session} {a : Attach} {k : Nat} {op : Ref} (he : s.error = none)
    (hn : s.linksByName.get a.name = some k) (hk : s.links.get k = some (.snd (.opening (some op)))) :
    ∃ r l, s.snd? r = none ∧ (s.step (.peer (.attach a))).snd? r = some l ∧ SenderOf a l ∧ l.id = k ∧ l.name = a.name ∧
      (s.step (.peer (.attach a))).links.get k = some (.snd (.established r)) ∧
      (∀ j, j ≠ k → (s.step (.peer (.attach a))).links.get j = s.links.get j) ∧
      (s.step (.peer (.attach a))).remoteHandles.get a.handle = some k ∧
      (s.step (.peer (.attach a))).log = s.log ++ [.peer (.attach a), .attached op (.inl r)] ∧
      (s.step (.peer (.attach a))).todo = s.todo := by
  have h₁ : s.step (.peer (.attach a)) = { s with
      remoteHandles := s.remoteHandles.insert a.handle k
      snds := s.snds ++ [sndNew k a.name a.handle (a.initialDeliveryCount.getD 0) (a.maxMessageSize.map clampU32)]
      links := s.links.set k (.snd (.established s.snds.length))
      log := s.log ++ [.peer (.attach a), .attached op (.inl s.snds.length)] } := by
    rw [peer_attach he]
    unfold onAttach handleAttach
    rw [show (s.note (.peer (.attach a))).linksByName = s.linksByName from rfl, hn]
    dsimp only
    rw [show (s.note (.peer (.attach a))).links = s.links from rfl, hk]
    simp [note, enqueue]
  rw [h₁]
  refine ⟨s.snds.length, _, by simp [snd?], List.getElem?_concat_length, sndNew_of k a.name a, rfl, rfl, get_set_self hk,
    fun j hj => ?_, ?_, rfl, rfl⟩
  · exact (Slab.get_set _ _ _ _ (by simp [Slab.contains, hk])).trans (if_neg hj.symm)
  · exact (Map.get_insert _ _ _ _).trans (if_pos rfl)

/-- **C64** The peer's attach that answers a local receiver link. -/
theorem c64_answered_receiver {s : Session} {a : Attach} {k : Nat} {r : Ref} {op : Ref} (he : s.error = none)
    (hn : s.linksByName.get a.name = some k) (hk : s.links.get k = some (.rcv (.openingLocal (some (r, op))))) :
    (s.step (.peer (.attach a))).links.get k = some (.rcv (.established r)) ∧
      (∀ j, j ≠ k → (s.step (.peer (.attach a))).links.get j = s.links.get j) ∧
      (s.step (.peer (.attach a))).remoteHandles.get a.handle = some k ∧
      (s.step (.peer (.attach a))).log = s.log ++ [.peer (.attach a), .attached op (.inr r)] ∧
      (s.step (.peer (.attach a))).rcvs = s.rcvs ∧ (s.step (.peer (.attach a))).todo = s.todo := by
  have h₁ : s.step (.peer (.attach a)) = { s with
      remoteHandles := s.remoteHandles.insert a.handle k
      links := s.links.set k (.rcv (.established r))
      log := s.log ++ [.peer (.attach a), .attached op (.inr r)] } := by
    rw [peer_attach he]
    unfold onAttach handleAttach
    rw [show (s.note (.peer (.attach a))).linksByName = s.linksByName from rfl, hn]
    dsimp only
    rw [show (s.note (.peer (.attach a))).links = s.links from rfl, hk]
    simp [note, enqueue]
  rw [h₁]
  refine ⟨get_set_self hk, fun j hj => ?_, ?_, rfl, rfl, rfl⟩
  · exact (Slab.get_set _ _ _ _ (by simp [Slab.contains, hk])).trans (if_neg hj.symm)
  · exact (Map.get_insert _ _ _ _).trans (if_pos rfl)

/-- **C64** A peer that attaches a receiver under a new name: a sender link with its parameters takes a free handle, and the
control service is asked, with an answer to the attach under that handle.  Nothing is sent yet. -/
theorem c64_asked_sender {s : Session} (h : Reachable s) {a : Attach} (he : s.error = none)
    (hn : s.linksByName.get a.name = none) (hr : a.role = .receiver) :
    ∃ r k l g, s.links.get k = none ∧ (s.step (.peer (.attach a))).links.get k = some (.snd .openingRemote) ∧
      (∀ j, j ≠ k → (s.step (.peer (.attach a))).links.get j = s.links.get j) ∧
      (s.step (.peer (.attach a))).snd? r = some l ∧ SenderOf a l ∧ l.id = k ∧
      (s.step (.peer (.attach a))).todo = s.todo ++ [.ctl (.attachSender r a g)] ∧ Answers a g ∧ g.handle = UInt32.ofNat k ∧
      (s.step (.peer (.attach a))).log = s.log ++ [.peer (.attach a)] := by
  have h₁ : s.step (.peer (.attach a)) = { s with
      snds := s.snds ++ [sndWith s.links.vacantKey a]
      links := s.links.insert (.snd .openingRemote)
      todo := s.todo ++ [.ctl (.attachSender s.snds.length a (senderResponse s.links.vacantKey a))]
      log := s.log ++ [.peer (.attach a)] } := by
    rw [peer_attach he]
    unfold onAttach handleAttach
    rw [show (s.note (.peer (.attach a))).linksByName = s.linksByName from rfl, hn]
    dsimp only
    rw [hr]
    rfl
  rw [h₁]
  refine ⟨s.snds.length, s.links.vacantKey, _, _, h.linksWf.vacantKey, ?_, fun j hj => ?_, List.getElem?_concat_length,
    sndWith_of _ a, rfl, rfl, senderResponse_answers _ hr, rfl, rfl⟩
  · exact (Slab.get_insert h.linksWf _ _).trans (if_pos rfl)
  · exact (Slab.get_insert h.linksWf _ _).trans (if_neg hj.symm)

/-- **C64** A peer that attaches a sender under a new name.  Its handle names the link at once. -/
theorem c64_asked_receiver {s : Session} (h : Reachable s) {a : Attach} (he : s.error = none)
    (hn : s.linksByName.get a.name = none) (hr : a.role = .sender) :
    ∃ r k l g, s.links.get k = none ∧
      (s.step (.peer (.attach a))).links.get k = some (.rcv (.opening (some (r, a.source)))) ∧
      (∀ j, j ≠ k → (s.step (.peer (.attach a))).links.get j = s.links.get j) ∧
      (s.step (.peer (.attach a))).rcv? r = some l ∧ ReceiverOf a l ∧ l.handle = UInt32.ofNat k ∧
      (s.step (.peer (.attach a))).todo = s.todo ++ [.ctl (.attachReceiver r a g)] ∧ Answers a g ∧
      g.handle = UInt32.ofNat k ∧ (s.step (.peer (.attach a))).remoteHandles.get a.handle = some k ∧
      (s.step (.peer (.attach a))).log = s.log ++ [.peer (.attach a)] := by
  have h₁ : s.step (.peer (.attach a)) = { s with
      rcvs := s.rcvs ++ [rcvNew (UInt32.ofNat s.links.vacantKey) a.handle a]
      links := s.links.insert (.rcv (.opening (some (s.rcvs.length, a.source))))
      remoteHandles := s.remoteHandles.insert a.handle s.links.vacantKey
      todo := s.todo ++ [.ctl (.attachReceiver s.rcvs.length a (receiverResponse s.links.vacantKey a))]
      log := s.log ++ [.peer (.attach a)] } := by
    rw [peer_attach he]
    unfold onAttach handleAttach
    rw [show (s.note (.peer (.attach a))).linksByName = s.linksByName from rfl, hn]
    dsimp only
    rw [hr]
    rfl
  rw [h₁]
  refine ⟨s.rcvs.length, s.links.vacantKey, _, _, h.linksWf.vacantKey, ?_, fun j hj => ?_, List.getElem?_concat_length,
    ⟨rfl, rfl, rfl, rfl, rfl, rfl, rfl, rfl⟩, rfl, rfl, receiverResponse_answers _ hr, rfl, ?_, rfl⟩
  · exact (Slab.get_insert h.linksWf _ _).trans (if_pos rfl)
  · exact (Slab.get_insert h.linksWf _ _).trans (if_neg hj.symm)
  · exact (Map.get_insert _ _ _ _).trans (if_pos rfl)

/-- **C64** When the control service accepts, the answer (as it may have edited it) is sent once, under the link's handle and
with the link's limit; the link is established and the peer's handle names it. -/
theorem c64_accepted_sender {s : Session} {i : Nat} {r : Ref} {a g : Attach} {l : Snd}
    (ht : s.todo[i]? = some (.ctl (.attachSender r a g))) (hl : s.snd? r = some l)
    (hk : s.links.get l.id = some (.snd .openingRemote)) (edit : Attach → Attach) :
    (s.step (.complete i edit none)).log = s.log ++ [.frame (.attach
      { edit g with handle := UInt32.ofNat l.id, maxMessageSize := l.maxMessageSize.map UInt32.toUInt64 })] ∧
    (s.step (.complete i edit none)).links.get l.id = some (.snd (.established r)) ∧
    (∀ j, j ≠ l.id → (s.step (.complete i edit none)).links.get j = s.links.get j) ∧
    (s.step (.complete i edit none)).remoteHandles.get a.handle = some l.id ∧
    (s.step (.complete i edit none)).snds = s.snds ∧ (s.step (.complete i edit none)).todo = s.todo.eraseIdx i := by
  have h₁ : s.step (.complete i edit none) = { s with
      linksByName := (s.registerSender a l.id).linksByName
      remoteHandles := s.remoteHandles.insert a.handle l.id
      links := s.links.set l.id (.snd (.established r))
      log := s.log ++ [.frame (.attach
        { edit g with handle := UInt32.ofNat l.id, maxMessageSize := l.maxMessageSize.map UInt32.toUInt64 })]
      todo := s.todo.eraseIdx i } := by
    simp only [step, ht, onComplete, confirmSender, hl]
    rw [if_pos (by simp [Slab.contains, registerSender, hk])]
    simp only [setLink, registerSender, hk, dropLink, post, note]
  rw [h₁]
  refine ⟨rfl, get_set_self hk, fun j hj => ?_, ?_, rfl, rfl⟩
  · exact (Slab.get_set _ _ _ _ (by simp [Slab.contains, hk])).trans (if_neg hj.symm)
  · exact (Map.get_insert _ _ _ _).trans (if_pos rfl)

/-- **C64** Whatever happened since the peer asked, the answer still is one to its attach, and names the link by its handle
and its initial delivery-count. -/
theorem c64_answer_sender {s : Session} (h : Reachable s) {i : Nat} {r : Ref} {a g : Attach}
    (ht : s.todo[i]? = some (.ctl (.attachSender r a g))) : .peer (.attach a) ∈ s.log ∧ a.role = .receiver ∧
      ∃ l, s.snd? r = some l ∧ l.remoteHandle = a.handle ∧ Answers a g ∧ g.handle = UInt32.ofNat l.id ∧
        g.initialDeliveryCount = some (a.initialDeliveryCount.getD 0) := by
  obtain ⟨h₁, h₂, l, hl, h₃, rfl⟩ := h.asked.sender r a g (List.mem_of_getElem? ht)
  exact ⟨h₁, h₂, l, hl, h₃, senderResponse_answers _ h₂, rfl, rfl⟩

/-- **C64** When the control service refuses a sender link, the peer gets an attach without source and target, then a detach
that closes the link with the error, both under the link's handle; the handle is free again (AMQP 1.0 §2.6.3).  Not covered:
the role in that attach, see below. -/
theorem c64_refused_sender_partial {s : Session} {i : Nat} {r : Ref} {a g : Attach} {l : Snd}
    (ht : s.todo[i]? = some (.ctl (.attachSender r a g))) (hl : s.snd? r = some l)
    (hk : s.links.get l.id = some (.snd .openingRemote)) (edit : Attach → Attach) (e : Error) :
    ∃ f, (s.step (.complete i edit (some e))).log = s.log ++ [.frame (.attach f),
        .frame (.detach { handle := UInt32.ofNat l.id, closed := true, error := some e })] ∧
      f.name = a.name ∧ f.handle = UInt32.ofNat l.id ∧ f.source = none ∧ f.target = none ∧ f.unsettled = none ∧
      (s.step (.complete i edit (some e))).links.get l.id = none ∧
      (∀ j, j ≠ l.id → (s.step (.complete i edit (some e))).links.get j = s.links.get j) := by
  let f : Attach :=
    { name := a.name, handle := UInt32.ofNat l.id, role := a.role, sndSettleMode := .unsettled, rcvSettleMode := .first,
      source := none, target := none, unsettled := none, incompleteUnsettled := false, initialDeliveryCount := none,
      maxMessageSize := none, offeredCapabilities := none, desiredCapabilities := none, properties := none }
  have h₁ : s.step (.complete i edit (some e)) = { s with
      links := s.links.remove l.id
      log := s.log ++ [.frame (.attach f),
        .frame (.detach { handle := UInt32.ofNat l.id, closed := true, error := some e })]
      todo := s.todo.eraseIdx i } := by
    simp only [step, ht, onComplete, refuseSender, hl]
    simp [removeLink, post, note, hk, dropLink, f]
  rw [h₁]
  refine ⟨f, rfl, rfl, rfl, rfl, rfl, rfl, ?_, fun j hj => ?_⟩
  · exact (Slab.get_remove _ _ _).trans (if_pos rfl)
  · exact (Slab.get_remove _ _ _).trans (if_neg hj.symm)

/-- **C64** A receiver link is offered to two services in turn.  The first one accepting changes nothing but what is asked
next. -/
theorem c64_accepted_receiver_control {s : Session} {i : Nat} {r : Ref} {a g : Attach}
    (ht : s.todo[i]? = some (.ctl (.attachReceiver r a g))) (edit : Attach → Attach) :
    s.step (.complete i edit none) = { s with todo := s.todo.eraseIdx i ++ [.attached r (edit g)] } := by
  simp only [step, ht, onComplete]
  rw [List.eraseIdx_append_of_lt_length (List.getElem?_eq_some_iff.mp ht).1]

/-- **C64** When the second one accepts, the answer is sent, announcing the link's limit (none if the limit is 0), then 50
credits; the link is established. -/
theorem c64_accepted_receiver {s : Session} {i : Nat} {r : Ref} {g : Attach} {l : Rcv} {src : Option Source}
    (ht : s.todo[i]? = some (.attached r g)) (hl : s.rcv? r = some l)
    (hk : s.links.get l.handle.toNat = some (.rcv (.opening (some (r, src))))) (edit : Attach → Attach) :
    ∃ f evs limit, (s.step (.complete i edit none)).log =
        s.log ++ [.frame (.attach { g with maxMessageSize := limit })] ++ evs ++ [.frame (.flow f)] ∧
      (∀ e ∈ evs, ∀ f, e ≠ .frame f) ∧ (limit = some l.maxMessageSize ∧ l.maxMessageSize ≠ 0 ∨ limit = none ∧ l.maxMessageSize = 0) ∧
      f.handle = some l.handle ∧ f.deliveryCount = some l.deliveryCount ∧ f.linkCredit = some 50 ∧
      (s.step (.complete i edit none)).links.get l.handle.toNat = some (.rcv (.established r)) ∧
      (∀ j, j ≠ l.handle.toNat → (s.step (.complete i edit none)).links.get j = s.links.get j) ∧
      (s.step (.complete i edit none)).rcv? r = some { l with credit := l.credit + 50 } := by
  let g' : Attach := { g with maxMessageSize := if l.maxMessageSize ≠ 0 then some l.maxMessageSize else none }
  let s₁ : Session := { s with
    links := s.links.set l.handle.toNat (.rcv (.established r))
    log := s.log ++ [.frame (.attach g')] }
  have h₁ : s.confirmReceiver r g = s₁ := by
    simp only [confirmReceiver, hl, hk]
    simp only [setLink, hk, dropLink, post, note]
    rfl
  obtain ⟨f, evs, h₂, h₃, h₄, h₅, h₆, h₇, h₈⟩ := grant_eq (s := s₁) (r := r) (l := l) hl 50
  have h₀ : s.step (.complete i edit none) =
      { s₁.step (.grant r 50) with todo := (s₁.step (.grant r 50)).todo.eraseIdx i } := by
    simp only [step, ht, onComplete, h₁]
  rw [h₀]
  refine ⟨f, evs, _, h₂, h₈, ?_, h₃, h₄, h₅, ?_, fun j hj => ?_, h₆⟩
  · by_cases hz : l.maxMessageSize = 0
    · exact .inr ⟨if_neg (by simpa using hz), hz⟩
    · exact .inl ⟨if_pos hz, hz⟩
  · show (s₁.step (.grant r 50)).links.get _ = _
    rw [h₇]
    exact get_set_self hk
  · show (s₁.step (.grant r 50)).links.get _ = _
    rw [h₇]
    exact (Slab.get_set _ _ _ _ (by simp [Slab.contains, hk])).trans (if_neg hj.symm)

/-- **C64** Whatever happened since the peer asked, the answer is one to its attach, under the handle of the link. -/
theorem c64_answer_receiver {s : Session} (h : Reachable s) {i : Nat} {r : Ref} {a g : Attach}
    (ht : s.todo[i]? = some (.ctl (.attachReceiver r a g))) : .peer (.attach a) ∈ s.log ∧ a.role = .sender ∧
      ∃ l, s.rcv? r = some l ∧ l.remoteHandle = a.handle ∧ Answers a g ∧ g.handle = l.handle := by
  obtain ⟨h₁, h₂, l, k, hl, h₃, h₄, rfl⟩ := h.asked.receiver r a g (List.mem_of_getElem? ht)
  exact ⟨h₁, h₂, l, hl, h₄, receiverResponse_answers _ h₂, h₃.symm⟩

/-- **C64** When a service refuses a receiver link that nobody closed before, the peer gets an attach without target, then a
detach that closes the link with the error; the handle is free again. -/
theorem c64_refused_receiver {s : Session} {i : Nat} {r : Ref} {l : Rcv} {src : Option Source} {t : Todo}
    (ht : s.todo[i]? = some t) (hr : (∃ a g, t = .ctl (.attachReceiver r a g)) ∨ ∃ g, t = .attached r g)
    (hl : s.rcv? r = some l) (hc : l.closed = false)
    (hk : s.links.get l.handle.toNat = some (.rcv (.opening (some (r, src))))) (edit : Attach → Attach) (e : Error) :
    ∃ f, (s.step (.complete i edit (some e))).log = s.log ++ [.frame (.attach f),
        .frame (.detach { handle := l.handle, closed := true, error := some e }), .detached s.ops (.ok ())] ∧
      f.name = l.name ∧ f.role = .receiver ∧ f.handle = l.handle ∧ f.source = src ∧ f.target = none ∧ f.unsettled = none ∧
      (s.step (.complete i edit (some e))).links.get l.handle.toNat = none ∧
      (∀ j, j ≠ l.handle.toNat → (s.step (.complete i edit (some e))).links.get j = s.links.get j) ∧
      (s.step (.complete i edit (some e))).rcv? r = some { l with closed := true } := by
  let f : Attach :=
    { name := l.name, handle := l.handle, role := .receiver, sndSettleMode := .mixed, rcvSettleMode := .first, source := src,
      target := none, unsettled := none, incompleteUnsettled := false, initialDeliveryCount := some 0,
      maxMessageSize := none, offeredCapabilities := none, desiredCapabilities := none, properties := none }
  have h₀ : s.step (.complete i edit (some e)) =
      { s.closeReceiver r (some e) with todo := (s.closeReceiver r (some e)).todo.eraseIdx i } := by
    rcases hr with ⟨a, g, rfl⟩ | ⟨g, rfl⟩ <;> simp only [step, ht, onComplete]
  have h₁ : s.closeReceiver r (some e) = modRcv { s with
      ops := s.ops + 1
      links := s.links.remove l.handle.toNat
      log := s.log ++ [.frame (.attach f),
        .frame (.detach { handle := l.handle, closed := true, error := some e }), .detached s.ops (.ok ())] } r
      fun l => { l with closed := true } := by
    have hk' : s.newOp.links.get l.handle.toNat = some (.rcv (.opening (some (r, src)))) := hk
    have hl' : s.newOp.rcv? r = some l := hl
    simp only [closeReceiver, hl, hc, detachReceiver, hk', hl']
    simp [removeLink, post, note, newOp, hk, dropLink, f]
  rw [h₀, h₁]
  refine ⟨f, rfl, rfl, rfl, rfl, rfl, rfl, rfl, ?_, fun j hj => ?_, ?_⟩
  · exact (Slab.get_remove _ _ _).trans (if_pos rfl)
  · exact (Slab.get_remove _ _ _).trans (if_neg hj.symm)
  · show (modRcv _ _ _).rcv? r = _
    rw [rcv?_modRcv, if_pos rfl]
    show (s.rcv? r).map _ = _
    rw [hl]
    rfl

/-- **C64** At any time, a sender link is one the peer has attached: it is named to the peer by the handle of the peer's
attach, and its delivery-count is the initial one of that attach plus the messages that have taken credit since. -/
theorem c64_sender_parameters {s : Session} (h : Reachable s) {r : Ref} {l : Snd} (hl : s.snd? r = some l) :
    ∃ a, .peer (.attach a) ∈ s.log ∧ l.remoteHandle = a.handle ∧
      l.deliveryCount = a.initialDeliveryCount.getD 0 + UInt32.ofNat (taken r s.log) := h.sndBorn r l hl

/-- **C64** The frames the builders start from. -/
theorem c64_builders (name address : Str) :
    (senderBuilder name address).name = name ∧ (senderBuilder name address).role = .sender ∧
    ((senderBuilder name address).target.bind Target.address) = some address ∧ (senderBuilder name address).source = none ∧
    (receiverBuilder name address).name = name ∧ (receiverBuilder name address).role = .receiver ∧
    ((receiverBuilder name address).source.bind Source.address) = some address ∧ (receiverBuilder name address).target = none ∧
    (∀ caps, ∃ f, withCapabilities (receiverBuilder name address) caps = some f ∧
      (f.source.bind Source.capabilities) = some caps ∧ f.name = name ∧ (f.source.bind Source.address) = some address) :=
  ⟨rfl, rfl, rfl, rfl, rfl, rfl, rfl, rfl, fun _ => ⟨_, rfl, rfl, rfl, rfl⟩⟩

/-- **C64** What the builders do not set has its default of the standard (AMQP 1.0 §2.7.3, §3.5.3, §3.5.4): both settle
modes, and of the terminus the durability, the expiry policy, the timeout, and that no node is to be created. -/
theorem c64_builder_defaults (name address : Str) :
    (∀ f ∈ [senderBuilder name address, receiverBuilder name address], f.sndSettleMode = .mixed ∧ f.rcvSettleMode = .first ∧
      f.unsettled = none ∧ f.incompleteUnsettled = false ∧ f.initialDeliveryCount = none ∧ f.offeredCapabilities = none ∧
      f.desiredCapabilities = none ∧ f.properties = none) ∧
    (∃ t, (senderBuilder name address).target = some t ∧ t.durable = .none ∧ t.expiryPolicy = .sessionEnd ∧ t.timeout = 0 ∧
      t.dynamic = false ∧ t.dynamicNodeProperties = none ∧ t.capabilities = none) ∧
    ∃ t, (receiverBuilder name address).source = some t ∧ t.durable = .none ∧ t.expiryPolicy = .sessionEnd ∧ t.timeout = 0 ∧
      t.dynamic = false ∧ t.dynamicNodeProperties = none ∧ t.distributionMode = none ∧ t.filter = none ∧
      t.defaultOutcome = none ∧ t.outcomes = none ∧ t.capabilities = none := by
  refine ⟨fun f hf => ?_, ⟨_, rfl, rfl, rfl, rfl, rfl, rfl, rfl⟩, _, rfl, rfl, rfl, rfl, rfl, rfl, rfl, rfl, rfl, rfl, rfl⟩
  rcases List.mem_cons.mp hf with rfl | hf
  · exact ⟨rfl, rfl, rfl, rfl, rfl, rfl, rfl, rfl⟩
  · obtain rfl := List.mem_singleton.mp hf
    exact ⟨rfl, rfl, rfl, rfl, rfl, rfl, rfl, rfl⟩

/-! ## Concrete executions -/

/-- A local sender under our handle 0, answered under the peer's handle 7 with a limit and a count. -/
example : let s := (start 100).run [.attachSender (senderBuilder (text "a") (text "q")),
      .peer (.attach { anAttach "a" 7 .receiver with initialDeliveryCount := some 3, maxMessageSize := some 0x100000005 })]
    Reachable s ∧ s.links.get 0 = some (.snd (.established 0)) ∧ s.remoteHandles.get 7 = some 0 ∧
    ∃ l, s.snd? 0 = some l ∧ l.deliveryCount = 3 ∧ l.maxMessageSize = some 0xffffffff :=
  ⟨reachable _ _ _, rfl, rfl, _, rfl, rfl, rfl⟩

example : let s := (start 100).run [.attachReceiver (receiverBuilder (text "a") (text "q")),
      .peer (.attach (anAttach "a" 7 .sender))]
    Reachable s ∧ s.links.get 0 = some (.rcv (.established 0)) ∧ s.remoteHandles.get 7 = some 0 :=
  ⟨reachable _ _ _, rfl, rfl⟩

/-- The premises of the theorems about the peer's links. -/
example : let s := (start 100).run [.peer (.attach (anAttach "q" 5 .receiver))]
    ∃ a g l, Reachable s ∧ s.todo[0]? = some (.ctl (.attachSender 0 a g)) ∧ s.snd? 0 = some l ∧
      s.links.get l.id = some (.snd .openingRemote) :=
  ⟨_, _, _, reachable _ _ _, rfl, rfl, rfl⟩

example : let s := (start 100).run [.peer (.attach (anAttach "q" 5 .sender))]
    ∃ a g, Reachable s ∧ s.todo[0]? = some (.ctl (.attachReceiver 0 a g)) := ⟨_, _, reachable _ _ _, rfl⟩

example : let s := (start 100).run [.peer (.attach (anAttach "q" 5 .sender)), pass 0]
    ∃ g l src, Reachable s ∧ s.todo[0]? = some (.attached 0 g) ∧ s.rcv? 0 = some l ∧ l.closed = false ∧
      s.links.get l.handle.toNat = some (.rcv (.opening (some (0, src)))) :=
  ⟨_, _, _, reachable _ _ _, rfl, rfl, rfl, rfl⟩

/-- **C64** Violated: the attach that refuses a sender link carries the peer's own role: both ends call themselves the
receiver. -/
theorem c64_refusal_has_peers_role : ∃ (s : Session) (f : Attach), Reachable s ∧
    s.log = [.peer (.attach (anAttach "q" 5 .receiver)), .frame (.attach f),
      .frame (.detach { handle := 0, closed := true, error := some refusal })] ∧ f.name = text "q" ∧ f.role = .receiver :=
  ⟨(start 100).run [.peer (.attach (anAttach "q" 5 .receiver)), .complete 0 (fun a => a) (some refusal)], _,
    reachable _ _ _, rfl, rfl, rfl⟩

/-- The peer's receiver "x" from address "q". -/
def fromQ : Attach := { anAttach "x" 5 .receiver with source := (receiverBuilder (text "x") (text "q")).source }

/-- **C64** Violated: links of the peer are registered under their source address, among the names of our links.  An attach
of a new link whose name is such an address is dropped: no service is asked, nothing is sent, no handle is known. -/
theorem c64_attach_ignored : ∃ s : Session, Reachable s ∧
    (∀ f, .peer (.attach f) ∈ s.log → f.name = text "x") ∧ (∀ f, .frame (.attach f) ∈ s.log → f.name = text "x") ∧
    (s.step (.peer (.attach (anAttach "q" 6 .receiver)))).log = s.log ++ [.peer (.attach (anAttach "q" 6 .receiver))] ∧
    (s.step (.peer (.attach (anAttach "q" 6 .receiver)))).todo = [] ∧
    (s.step (.peer (.attach (anAttach "q" 6 .receiver)))).remoteHandles.get 6 = none := by
  refine ⟨(start 100).run [.peer (.attach fromQ), pass 0], reachable _ _ _, ?_, ?_, rfl, rfl, rfl⟩
  · intro f hf
    have : f = fromQ := by
      rw [show ((start 100).run [.peer (.attach fromQ), pass 0]).log =
        [.peer (.attach fromQ), .frame (.attach { senderResponse 0 fromQ with maxMessageSize := none })] from rfl] at hf
      simpa using hf
    rw [this]
    rfl
  · intro f hf
    have : f = { senderResponse 0 fromQ with maxMessageSize := none } := by
      rw [show ((start 100).run [.peer (.attach fromQ), pass 0]).log =
        [.peer (.attach fromQ), .frame (.attach { senderResponse 0 fromQ with maxMessageSize := none })] from rfl] at hf
      simpa using hf
    rw [this]
    rfl

/-- **C64** Violated: the role in the peer's answer is not looked at.  A local sender is established with a peer that calls
itself the sender too. -/
theorem c64_role_not_checked : ∃ s : Session, Reachable s ∧ .frame (.attach (anAttach "a" 0 .sender)) ∈ s.log ∧
    .peer (.attach (anAttach "a" 7 .sender)) ∈ s.log ∧ .attached 0 (.inl 0) ∈ s.log ∧
    s.links.get 0 = some (.snd (.established 0)) := by
  refine ⟨(start 100).run [.attachSender (anAttach "a" 0 .sender), .peer (.attach (anAttach "a" 7 .sender))],
    reachable _ _ _, ?_, ?_, ?_, rfl⟩
  · exact List.mem_of_getElem? (i := 0) rfl
  · exact List.mem_of_getElem? (i := 1) rfl
  · exact List.mem_of_getElem? (i := 2) rfl

/-- **C64** Violated: a sender and a receiver of the same name are two links (AMQP 1.0 §2.6.1: a link is identified by its
name and its direction).  Here the peer's answer to the sender establishes the receiver, under the handle of the peer's
receiver; its answer to the receiver is ignored; the sender stays unanswered. -/
theorem c64_both_directions : ∃ s : Session, Reachable s ∧ s.log =
      [.frame (.attach (anAttach "a" 0 .sender)), .frame (.attach (anAttach "a" 1 .receiver)),
       .peer (.attach (anAttach "a" 7 .receiver)), .attached 1 (.inr 0), .peer (.attach (anAttach "a" 8 .sender))] ∧
    s.links.get 0 = some (.snd (.opening (some 0))) ∧ s.links.get 1 = some (.rcv (.established 0)) ∧
    s.remoteHandles.get 7 = some 1 ∧ s.remoteHandles.get 8 = none :=
  ⟨(start 100).run [.attachSender (anAttach "a" 0 .sender), .attachReceiver (anAttach "a" 0 .receiver),
    .peer (.attach (anAttach "a" 7 .receiver)), .peer (.attach (anAttach "a" 8 .sender))], reachable _ _ _, rfl, rfl, rfl,
    rfl, rfl⟩

/-- **C64** Violated: a sender's attach must have an initial delivery-count (AMQP 1.0 §2.7.3: "This MUST NOT be null if role
is sender").  Those of `build_sender_link` have none. -/
theorem c64_builder_no_count (s : Session) (name address : Str) : ∃ f,
    (s.step (.attachSender (senderBuilder name address))).log = s.log ++ [.frame (.attach f)] ∧ f.role = .sender ∧
      f.initialDeliveryCount = none := ⟨_, rfl, rfl, rfl⟩

/-- **C64** Violated: the limit a local receiver announces is not the one it keeps: whatever `max_message_size` was set to, the
link enforces 262144 bytes. -/
theorem c64_announced_limit (s : Session) (name address : Str) (n : UInt64) : ∃ f l,
    (s.step (.attachReceiver (withMaxMessageSize (receiverBuilder name address) n))).log = s.log ++ [.frame (.attach f)] ∧
      f.maxMessageSize = some n ∧
      (s.step (.attachReceiver (withMaxMessageSize (receiverBuilder name address) n))).rcv? s.rcvs.length = some l ∧
      l.maxMessageSize = 262144 := ⟨_, _, rfl, rfl, List.getElem?_concat_length, rfl⟩

/-- **C64** Violated: so a message of 5 bytes arrives on a link that announced a limit of 4. -/
theorem c64_announced_limit_exceeded : ∃ (s : Session) (f : Attach) (t : Transfer), Reachable s ∧ .frame (.attach f) ∈ s.log ∧
    f.role = .receiver ∧ f.handle = 0 ∧ f.maxMessageSize = some 4 ∧ .handed 0 0 t ∈ s.log ∧
    t.body = some (.data [1, 2, 3, 4, 5]) := by
  refine ⟨(start 100).run [.attachReceiver (withMaxMessageSize (receiverBuilder (text "a") (text "q")) 4),
    .peer (.attach (anAttach "a" 7 .sender)), .grant 0 1, .peer (.transfer (aTransfer 7 (some 0) true [1, 2, 3])),
    .peer (.transfer (aTransfer 7 none false [4, 5])), .take 0], _, _, reachable _ _ _,
    List.mem_of_getElem? (i := 0) rfl, rfl, rfl, rfl, List.mem_of_getElem? (i := 9) rfl, rfl⟩

/-- **C64** Violated: a limit of 0 means that there is none (AMQP 1.0 §2.7.3).  A sender link whose peer announces 0 refuses
every message that is not empty. -/
theorem c64_zero_limit : ∃ (s : Session) (a : Attach), Reachable s ∧ .peer (.attach a) ∈ s.log ∧ a.maxMessageSize = some 0 ∧
    (s.sends[0]?.map SendTask.st) = some (.done (.error .bodyTooLarge)) ∧ (s.sends[0]?.map fun t => t.req.body) = some (.data [1]) := by
  refine ⟨(start 100).run [.attachSender (anAttach "a" 0 .sender),
    .peer (.attach { anAttach "a" 7 .receiver with maxMessageSize := some 0 }), .send (aSend 0 [1] true)], _, reachable _ _ _,
    List.mem_of_getElem? (i := 1) rfl, rfl, rfl, rfl⟩

end Amqp.Rt
