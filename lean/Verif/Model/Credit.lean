import Verif.Model.SessionStep
/-!
# Tasks that wait for credit

`SenderLink::ready` (sndlink.rs:86-103) waits on the condition `on_credit` of its link until the link is closed or has
credit.  The condition is notified where the link is closed, which is in three places (sndlink.rs:258-261, 271-273, 411-414:
there is no other assignment to `closed`), and by `apply_flow` if the flow frame leaves the link with credit
(sndlink.rs:320-322).  A notification wakes every task that waits.
-/

namespace Amqp.Rt
namespace Session

/-- One round of the loop of `ready`: its result, if there is one. -/
def readyNow (s : Session) (r : Ref) : Option Bool :=
  match s.snd? r with
  | some l => if l.closed then some false else if l.linkCredit = 0 then none else some true
  | none => none

/-- A flow frame that states a credit is among the events, and was applied to the link. -/
def appliedIn (r : Ref) (evs : List Ev) : Bool := evs.any fun
  | .applied r' f => r' == r && f.linkCredit.isSome
  | _ => false

/-- Whether the step from `s` to `s'` notifies `on_credit` of a link. -/
def notifiesCredit (s s' : Session) (r : Ref) : Bool :=
  match s.snd? r, s'.snd? r with
  | some l, some l' =>
    (!l.closed && l'.closed) || (appliedIn r (s'.log.drop s.log.length) && decide (l'.linkCredit ≠ 0))
  | _, _ => false

end Session

/-- A session and the tasks that wait for credit on its links. -/
structure Senders where
  sess : Session
  /-- The tasks whose `ready` is suspended and was not woken since. -/
  asleep : List (Ref × Nat)

inductive CreditStep where
  | sess (st : Step)
  /-- A task calls `ready`, or is polled in it after it was woken. -/
  | ready (r : Ref) (task : Nat)
  /-- The future is dropped. -/
  | cancel (r : Ref) (task : Nat)

namespace Senders

def new (s : Session) : Senders := ⟨s, []⟩

def step (w : Senders) : CreditStep → Senders
  | .sess st =>
    let s' := w.sess.step st
    ⟨s', w.asleep.filter fun x => !w.sess.notifiesCredit s' x.1⟩
  | .ready r task =>
    match w.sess.snd? r, w.sess.readyNow r with
    | some _, none => { w with asleep := (r, task) :: w.asleep }
    | _, _ => { w with asleep := w.asleep.filter (· ≠ (r, task)) }
  | .cancel r task => { w with asleep := w.asleep.filter (· ≠ (r, task)) }

def run (w : Senders) (steps : List CreditStep) : Senders := steps.foldl step w

def Reachable (w : Senders) : Prop := ∃ s steps, s.Fresh ∧ w = (new s).run steps

end Senders
end Amqp.Rt
