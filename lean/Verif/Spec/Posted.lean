import Verif.Model.Net
import Verif.Model.SessionStep
import Verif.Spec.Frame
import Verif.Spec.Structs
/-! What may be put into the frames of a session, and what the frames then are. -/

namespace Amqp

/-- Well formed, and less than 2^28 bytes long when written. -/
def Fit [Wire α] [WF α] (v : α) : Prop := wf v ∧ (enc v).length < 2 ^ 28

/-- The parts of an attach that have no fixed size are `Fit`. -/
structure Attach.Fit (a : Attach) : Prop where
  name : Amqp.Fit a.name
  source : Amqp.Fit a.source
  target : Amqp.Fit a.target
  unsettled : Amqp.Fit a.unsettled
  offered : Amqp.Fit a.offeredCapabilities
  desired : Amqp.Fit a.desiredCapabilities
  properties : Amqp.Fit a.properties

/-- The parts of a frame that have no fixed size are `Fit`; a transfer is well formed and its length fits the length
prefix. -/
def Frame.Fit : Frame → Prop
  | .attach a => a.Fit
  | .detach d => Amqp.Fit d.error
  | .flow f => Amqp.Fit f.properties
  | .disposition d => Amqp.Fit d.state
  | .end_ e => Amqp.Fit e.error
  | f => wf f ∧ f.encode.length + 8 < U32

namespace Rt

/-- What the application, the control service and the peer put in is `Fit`. -/
def Step.Fit : Step → Prop
  | .peer (.attach a) => a.Fit
  | .peer (.detach d) => Amqp.Fit d.error
  | .complete _ edit e => (∀ a : Attach, a.Fit → (edit a).Fit) ∧ Amqp.Fit e
  | .attachSender a | .attachReceiver a => a.Fit
  | .closeSender _ e | .detachSender _ e | .closeReceiver _ e | .detachReceiver _ e => Amqp.Fit e
  | .settle _ st | .update _ st => Amqp.Fit st
  | _ => True

/-- The messages given to `send` have an honest size, and tags of at most 1996 bytes (AMQP allows 32). -/
def Session.Honest (s : Session) : Prop :=
  ∀ x ∈ s.sends, x.req.body.coherent ∧ ∀ g, x.req.tag = some g → g.length ≤ 1996

/-- What the application and the peer put into the frames of a connection and of its sessions is `Fit`. -/
def CStep.Fit : CStep → Prop
  | .recv _ f => (Step.peer f).Fit
  | .local _ st => st.Fit
  | .openSession off des props => Amqp.Fit off ∧ Amqp.Fit des ∧ Amqp.Fit props
  | .close e => Amqp.Fit e
  | _ => True

/-- What the two applications put in is `Fit`.  Nothing is asked of the frames that arrive. -/
def NStep.Fit : NStep → Prop
  | .left st | .right st => st.Fit
  | _ => True

/-- The messages given to every session are honest. -/
def Conn.Honest (c : Conn) : Prop := ∀ x ∈ c.objs, x.Honest

end Rt
end Amqp
