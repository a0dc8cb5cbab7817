import Verif.Spec.Frame
import Verif.Model.SessionStep
/-!
# Two sessions of the library connected to each other

The left session's frames reach the right one in the order they were posted, and the other way round, each when the
transport gets to it.  What a frame looks like on arrival is `Frame.asReceived` (C07): the payload of a transfer has become
plain bytes.  Channels, the connection and its failure are not part of this: a session fails by `Step.fail`, on either side.
-/

namespace Amqp.Rt

/-- The frames posted, oldest first. -/
def posted (log : List Ev) : List Frame := log.filterMap fun
  | .frame f => some f
  | _ => none

/-- A frame arrives at a session.  After it posted End a session is given the answering End only (connection.rs:458-480). -/
def Session.deliver (s : Session) (f : Frame) : Session :=
  if s.ending then
    match f with
    | .end_ e => s.step (.endConfirmed e)
    | _ => s
  else s.step (.peer f)

structure Pair where
  left : Session
  right : Session
  /-- How many of the left session's frames have arrived. -/
  toRight : Nat
  /-- How many of the right session's frames have arrived. -/
  toLeft : Nat

inductive PStep where
  /-- The application, a service or a future on the left acts, or the connection fails there. -/
  | left (st : Step)
  | right (st : Step)
  /-- The next frame from the left arrives at the right, if there is one. -/
  | arriveRight
  | arriveLeft

/-- Not a frame from the peer. -/
def Step.own : Step → Bool
  | .peer _ | .endConfirmed _ => false
  | _ => true

namespace Pair

/-- The next frame for the right session. -/
def nextRight (σ : Pair) : Option Frame := (posted σ.left.log)[σ.toRight]?.map Frame.asReceived
def nextLeft (σ : Pair) : Option Frame := (posted σ.right.log)[σ.toLeft]?.map Frame.asReceived

def step (σ : Pair) : PStep → Pair
  | .left st => if st.own then { σ with left := σ.left.step st } else σ
  | .right st => if st.own then { σ with right := σ.right.step st } else σ
  | .arriveRight =>
    match σ.nextRight with
    | some f => { σ with right := σ.right.deliver f, toRight := σ.toRight + 1 }
    | none => σ
  | .arriveLeft =>
    match σ.nextLeft with
    | some f => { σ with left := σ.left.deliver f, toLeft := σ.toLeft + 1 }
    | none => σ

def run (σ : Pair) (steps : List PStep) : Pair := steps.foldl step σ

/-- Nothing has happened yet on either side. -/
structure Fresh (σ : Pair) : Prop where
  left : Session.Fresh σ.left
  right : Session.Fresh σ.right
  toRight : σ.toRight = 0
  toLeft : σ.toLeft = 0

end Pair
end Amqp.Rt
