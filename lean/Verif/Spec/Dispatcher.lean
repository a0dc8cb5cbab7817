import Verif.Model.Dispatcher
/-!
# Reading the dispatcher's vector
-/

namespace Amqp.Rt

/-- An entry is about a control frame. -/
def Call.About : Call → CtlFrame → Prop
  | .action s _ t, .action s' t' => s = s' ∧ t = t'
  | .protocolError e, .protocolError e' => e = e'
  | .disconnected, .disconnected => True
  | .notice, .queued _ _ => True
  | .notice, .closed => True
  | _, _ => False

/-- Answers have taken effect in the order of the calls, and what is outstanding waits in that order. -/
def Disp.InOrder (d : Disp) : Prop := d.answered ++ d.futs.map Prod.fst = List.range d.calls

/-- Whenever the dispatcher is polled in this execution it holds at most two calls, and the service has answered the earlier
if it has answered the later. -/
def Disp.Tame (d : Disp) : List DStep → Prop
  | [] => True
  | .poll ready :: l =>
    ((d.advance .poll).futs.length ≤ 2 ∧
      ∀ p ∈ (d.advance .poll).futs, ∀ q ∈ (d.advance .poll).futs, p.1 < q.1 → (ready q.1).isSome → (ready p.1).isSome) ∧
    (d.step (.poll ready)).Tame l
  | st :: l => (d.step st).Tame l

end Amqp.Rt
