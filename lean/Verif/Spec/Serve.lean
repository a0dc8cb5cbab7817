import Verif.Model.Net
import Verif.Model.Serve
/-! What is asked of the end of a connection. -/

namespace Amqp.Rt

/-- The `Close` frames posted. -/
def closesIn (log : List CEv) : List Close := log.filterMap fun
  | .frame _ (.close c) | .ses _ (.frame (.close c)) => some c
  | _ => none

/-- The `Close` frames received. -/
def peerCloses (log : List CEv) : List Close := log.filterMap fun
  | .peer _ (.close c) => some c
  | _ => none

/-- The application closes the connection. -/
def SStep.closes : SStep → Bool
  | .disp (.own (.close _)) => true
  | _ => false

/-- `Close` frames the dispatcher posts when it stops. -/
def Stopped.closes : Option Stopped → Nat
  | some (.control _) | some (.service _) => 1
  | _ => 0

namespace Serve

/-- A state some execution reaches. -/
def Reachable (σ : Serve) : Prop := ∃ cfg steps, σ = (new cfg).run steps

end Serve
end Amqp.Rt
