import Verif.Lemmas.SessionFlow
import Verif.Spec.Examples
/-!
# What the flow frames of a session say: C53
-/

namespace Amqp.Rt
open Session Examples

/-- **C53** Every flow frame a session posts, in every execution, states the id of the session's next delivery and what is
left of the window the peer opened, as they are at that moment, and an unlimited incoming window; it never asks for an echo. -/
theorem c53_counters (id isLocal mfs ch b) (steps : List Step) (pre post : List Ev) (f : Flow)
    (h : ((Session.new id isLocal mfs ch b).run steps).log = pre ++ .frame (.flow f) :: post) :
    f.nextOutgoingId = UInt32.ofNat (begun pre + 1) ∧ f.outgoingWindow = windowLeft b.incomingWindow pre ∧
      f.incomingWindow = 0xffffffff ∧ f.echo = false := by
  have ht := (flowInv_run id isLocal mfs ch b steps).told pre f post h
  exact ⟨by rw [ht.out, UInt32.ofNat_add, UInt32.add_comm]; rfl, ht.window, ht.incWindow, ht.noEcho⟩

/-- Two deliveries go out, the third waits for the window; the peer asks for the state. -/
def echoDemo : List Step :=
  attachOne ++ flow (aFlow (some 7) (some 0) (some 5) (some 1) 2) ++
    [.send (aSend 0 [1] false), .send (aSend 0 [2] false), .send (aSend 0 [3] false),
      .peer (.flow { aFlow none none none (some 2) 9 with echo := true })]

/-- The flow frame it is answered with. -/
def echoReply : Flow :=
  { nextIncomingId := some 1, incomingWindow := 0xffffffff, nextOutgoingId := 3, outgoingWindow := 8, handle := none,
    deliveryCount := none, linkCredit := none, available := none, drain := false, echo := false, properties := none }

example : ((start 2).run echoDemo).log.getLast? = some (.frame (.flow echoReply)) ∧
    begun ((start 2).run echoDemo).log = 2 ∧ windowLeft 2 ((start 2).run echoDemo).log = 8 := ⟨rfl, rfl, rfl⟩

/-- **C53** A flow frame that names a link names a receiver link of the session by its handle, with the delivery-count it had
at that moment: the one it has now less the deliveries completed since.  Other flow frames carry no link state. -/
theorem c53_link (id isLocal mfs ch b) (steps : List Step) (pre post : List Ev) (f : Flow)
    (h : ((Session.new id isLocal mfs ch b).run steps).log = pre ++ .frame (.flow f) :: post) :
    (f.handle = none ∧ f.deliveryCount = none ∧ f.linkCredit = none) ∨
      ∃ r l, ((Session.new id isLocal mfs ch b).run steps).rcv? r = some l ∧ f.handle = some l.handle ∧
        f.linkCredit.isSome ∧ f.deliveryCount = some (l.deliveryCount - UInt32.ofNat (completedOn r post)) := by
  rcases ((flowInv_run id isLocal mfs ch b steps).told pre f post h).link with hl | ⟨r, l, hl, h₁, h₂, h₃⟩
  · exact .inl hl
  · refine .inr ⟨r, l, hl, h₁, h₂, ?_⟩
    rw [h₃, baseCount, hl, Option.map_some, Option.map_some, h, completedOn_append,
      show completedOn r (Ev.frame (.flow f) :: post) = completedOn r post from rfl, UInt32.ofNat_add]
    congr 1
    generalize UInt32.ofNat (completedOn r pre) = x
    generalize UInt32.ofNat (completedOn r post) = y
    grind

/-- A receiver link is granted 2, takes in a delivery, and is granted 1 more. -/
def regrantDemo : List Step :=
  [.attachReceiver (anAttach "q" 0 .receiver), .peer (.attach (anAttach "q" 5 .sender)), .grant 0 2,
    .peer (.transfer (aTransfer 5 (some 1) false [1])), .grant 0 1]

/-- The flow frame of the second grant. -/
def regrantFlow : Flow :=
  { nextIncomingId := some 1, incomingWindow := 0xffffffff, nextOutgoingId := 1, outgoingWindow := 9, handle := some 0,
    deliveryCount := some 1, linkCredit := some 1, available := none, drain := false, echo := false, properties := none }

example : ((start 9).run regrantDemo).log.getLast? = some (.frame (.flow regrantFlow)) := rfl

/-- **C53** The next-incoming-id of a flow frame, when there is one, is the id the peer stated last: in the last flow frame
taken into account, or when the session began.  There is one in every flow frame of a session begun by the application, and
in every flow frame that grants credit.

Missing for the full property: the id should count the transfers that arrived since, and should never be left out; see the
witnesses below. -/
theorem c53_incoming_partial (id isLocal mfs ch b) (steps : List Step) (pre post : List Ev) (f : Flow)
    (h : ((Session.new id isLocal mfs ch b).run steps).log = pre ++ .frame (.flow f) :: post) :
    f.nextIncomingId = some (peerStated b.nextOutgoingId pre) ∨ f.nextIncomingId = none ∧ isLocal = false := by
  have hloc : ((Session.new id isLocal mfs ch b).run steps).isLocal = isLocal :=
    (run_micros (Session.new id isLocal mfs ch b) steps).invariant (P := fun s => s.isLocal = isLocal)
      (fun _ _ m h => m.isLocal.trans h) rfl
  have := ((flowInv_run id isLocal mfs ch b steps).told pre f post h).inc
  rwa [hloc] at this

/-- **C53** Violated: transfers are not counted (session.rs:847 computes the next id and drops it).  The peer began with id 1
and sent one transfer; the flow frame posted then still states 1, where 2 comes next. -/
theorem c53_incoming_stale : ∃ (s : Session) (f : Flow), Reachable s ∧ s.log.getLast? = some (.frame (.flow f)) ∧
    f.nextIncomingId = some 1 ∧ peerNext 1 s.log = 2 :=
  ⟨(start 9).run regrantDemo, regrantFlow, reachable _ _ _, rfl, rfl, rfl⟩

/-- **C53** Violated: in a session the peer began, the answer to a flow frame with `echo` leaves the next-incoming-id out,
which is mandatory once the peer's begin has arrived (AMQP 1.0 §2.7.4). -/
theorem c53_incoming_missing : ∃ (s : Session) (f : Flow), Reachable s ∧ s.isLocal = false ∧
    s.log.getLast? = some (.frame (.flow f)) ∧ f.nextIncomingId = none :=
  ⟨(Session.new 0 false 65535 0 (aBegin 9)).run [.peer (.flow { aFlow none none none (some 1) 9 with echo := true })],
    { echoReply with nextIncomingId := none, nextOutgoingId := 1, outgoingWindow := 9 },
    ⟨_, _, ⟨0, false, 65535, 0, aBegin 9, rfl⟩, rfl⟩, rfl, rfl, rfl⟩

theorem handleFlow_log (s : Session) (f : Flow) (link : Option Ref) : ∃ g : Flow,
    (s.handleFlow f link).log = s.log ++ .windowed f :: (if f.echo then [.frame (.flow g)] else []) ++
      (match link with | some r => [.applied r f] | none => []) := by
  have hg : ∀ s' : Session, ∃ g, s'.echoFlow = .flow g := fun s' => ⟨_, rfl⟩
  unfold handleFlow
  dsimp only
  generalize hd : Session.drainPending _ _ = s'
  have hl : s'.log = s.log ++ [.windowed f] := by rw [← hd]; simp [drainPending, note]
  obtain ⟨g, hg⟩ := hg s'
  refine ⟨g, ?_⟩
  rw [hg]
  cases f.echo <;> cases link <;> simp [hl]

/-- **C53** A flow frame about the session is answered with exactly one flow frame if it asks for an echo, and with nothing
if it does not. -/
theorem c53_echo (s : Session) (f : Flow) (he : s.error = none) (hh : f.handle = none) : ∃ g : Flow,
    (s.step (.peer (.flow f))).log =
      s.log ++ [.peer (.flow f), .windowed f] ++ if f.echo then [.frame (.flow g)] else [] := by
  obtain ⟨g, hg⟩ := handleFlow_log (s.note (.peer (.flow f))) f none
  refine ⟨g, ?_⟩
  have : s.step (.peer (.flow f)) = (s.note (.peer (.flow f))).handleFlow f none := by
    simp [step, onPeer, handleFrame, note, he, hh, finishFrame, enqueue]
  rw [this, hg]
  simp

/-- **C53** So is a flow frame about a sender link, once the control service has let it pass; then it is applied to the
link. -/
theorem c53_echo_link (s : Session) (i : Nat) (r : Ref) (f : Flow) (edit : Attach → Attach)
    (hi : s.todo[i]? = some (.ctl (.flow r f))) : ∃ g : Flow,
    (s.step (.complete i edit none)).log =
      s.log ++ .windowed f :: (if f.echo then [.frame (.flow g)] else []) ++ [.applied r f] := by
  obtain ⟨g, hg⟩ := handleFlow_log s f (some r)
  refine ⟨g, ?_⟩
  have : (s.step (.complete i edit none)).log = (s.handleFlow f (some r)).log := by
    unfold step
    dsimp only
    rw [hi]
    rfl
  rw [this, hg]

example : ∃ (s : Session) (r : Ref) (f : Flow), Reachable s ∧ f.echo = true ∧ s.todo[0]? = some (.ctl (.flow r f)) :=
  ⟨(start 0).run (attachOne ++ [.peer (.flow { aFlow (some 7) (some 0) (some 5) (some 1) 0 with echo := true })]), 0,
    { aFlow (some 7) (some 0) (some 5) (some 1) 0 with echo := true }, reachable _ _ _, rfl, rfl⟩

end Amqp.Rt
