import Verif.Model.Incoming
import Verif.Spec.EndToEnd
/-! Spec: the order in which a server sets up a connection. -/

namespace Amqp.Rt

/-- What has happened when the task is there: each service is asked for once, the control service after the publish service
has been made, and the dispatcher starts when both have been; after a failure the transport is dropped and nothing follows. -/
def Task.story : Task → List TEv
  | .shaking => []
  | .failed (.handshake _) => [.dropped]
  | .publish => [.publishAsked]
  | .failed .publish => [.publishAsked, .publishFailed, .dropped]
  | .control => [.publishAsked, .publishMade, .controlAsked]
  | .failed .control => [.publishAsked, .publishMade, .controlAsked, .controlFailed, .dropped]
  | .serving => [.publishAsked, .publishMade, .controlAsked, .controlMade, .started]

/-- The result the handshake must have by then. -/
def Task.Result : Task → Hs.Prog Hs.Opened → Prop
  | .shaking, p => ∀ r, p ≠ .done r
  | .failed (.handshake e), p => p = .done (.error e)
  | _, p => ∃ o, p = .done (.ok o)

/-- All bytes that arrived. -/
def arrivedBytes (steps : List IStep) : Bytes := steps.flatMap fun
  | .bytes b => b
  | _ => []

/-- What the two applications put in is `Fit`. -/
def VStep.Fit : VStep → Prop
  | .client st | .server (.own st) => st.Fit
  | _ => True

end Amqp.Rt
