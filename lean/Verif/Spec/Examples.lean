import Verif.Model.SessionStep
/-!
# Concrete executions

Ingredients of the witnesses used beside the theorems: small frames, and sessions driven by explicit steps.
-/

namespace Amqp.Rt.Examples
open Session

def aBegin (window : UInt32) : Begin :=
  { remoteChannel := none, nextOutgoingId := 1, incomingWindow := window, outgoingWindow := 100, handleMax := 100,
    offeredCapabilities := none, desiredCapabilities := none, properties := none }

def anAttach (name : String) (handle : UInt32) (role : Role) : Attach :=
  { name := text name, handle, role, sndSettleMode := .mixed, rcvSettleMode := .first, source := none, target := none,
    unsettled := none, incompleteUnsettled := false, initialDeliveryCount := none, maxMessageSize := none,
    offeredCapabilities := none, desiredCapabilities := none, properties := none }

/-- A flow frame for a link. -/
def aFlow (handle : Option UInt32) (count credit : Option UInt32) (nextIncoming : Option UInt32) (window : UInt32) : Flow :=
  { nextIncomingId := nextIncoming, incomingWindow := window, nextOutgoingId := 1, outgoingWindow := 100, handle,
    deliveryCount := count, linkCredit := credit, available := none, drain := false, echo := false, properties := none }

def aSend (link : Ref) (body : Bytes) (settled : Bool) : SendReq :=
  { link, body := .data body, tag := some [1], settled, format := none }

def aTransfer (handle : UInt32) (id : Option UInt32) (more : Bool) (body : Bytes) : Transfer :=
  { head := { emptyTransfer with handle, deliveryId := id, deliveryTag := id.map fun _ => [1], more }
    body := some (.data body) }

/-- The control service lets the `i`-th call pass. -/
def pass (i : Nat) : Step := .complete i (fun a => a) none

/-- A session whose peer opened `window`. -/
def start (window : UInt32) (mfs : UInt32 := 65535) : Session := Session.new 0 true mfs 0 (aBegin window)

/-- The application attaches sender link 0; the peer answers under its handle 7. -/
def attachOne : List Step := [.attachSender (anAttach "a" 0 .sender), .peer (.attach (anAttach "a" 7 .receiver))]

/-- A flow frame arrives and the control service lets it pass. -/
def flow (f : Flow) : List Step := [.peer (.flow f), pass 0]

theorem reachable (w mfs : UInt32) (steps : List Step) : Reachable ((start w mfs).run steps) :=
  ⟨_, steps, ⟨0, true, mfs, 0, aBegin w, rfl⟩, rfl⟩

end Amqp.Rt.Examples
