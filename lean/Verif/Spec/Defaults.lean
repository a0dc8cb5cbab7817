import Verif.Spec.Serve
/-! What is asked of services that answer at once, as the default ones do (default.rs:49-73, client/connection.rs:64-73). -/

namespace Amqp.Rt

/-- Every call is answered by the time the dispatcher is polled. -/
def Instant (ready : Nat → Option Answer) : Prop := ∀ id, (ready id).isSome = true

/-- The order in which `swap_remove` works through a vector all of whose entries are ready: the first, then from the last
to the second. -/
def backwards : List α → List α
  | [] => []
  | a :: l => a :: l.reverse

def Call.isError : Call → Bool
  | .protocolError _ => true
  | _ => false

/-- Neither side closes, the transport reports no error, and the services are always ready. -/
def SStep.Quiet : SStep → Prop
  | .ready p c => (∀ e, p ≠ .failed e) ∧ ∀ e, c ≠ .failed e
  | .disp (.recv _ (.close _)) | .disp (.own (.stop (some _))) | .disp (.own (.close _)) => False
  | _ => True

end Amqp.Rt
