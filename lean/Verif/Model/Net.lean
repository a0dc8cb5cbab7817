import Verif.Model.Connection
import Verif.Model.Pair
/-!
# Two connections of the library connected to each other

The frames a connection posts, its own and those of its sessions, reach the other one in the order they were posted, each
when the transport gets to it and in the form the codec delivers it (C07, C22): the payload of a transfer has become plain
bytes.  A session posts on the channel that is its slab token (`SessionInner::post_frame`, session.rs:1332-1334).
-/

namespace Amqp.Rt

/-- The frames among some events, with their channels; `ids` are the channels the sessions post on. -/
def wireOf (ids : Ref → Option UInt16) (log : List CEv) : List (UInt16 × Frame) := log.filterMap fun
  | .frame ch f => some (ch, f)
  | .ses s (.frame f) => (ids s).map (·, f)
  | _ => none

/-- The channel a session posts on. -/
def Conn.chanOf (c : Conn) (s : Ref) : Option UInt16 := (c.obj? s).map fun x => UInt16.ofNat x.id

/-- The frames a connection has posted, with their channels, oldest first. -/
def Conn.wire (c : Conn) : List (UInt16 × Frame) := wireOf c.chanOf c.log

structure Net where
  left : Conn
  right : Conn
  /-- How many of the left connection's frames have arrived. -/
  toRight : Nat
  /-- How many of the right connection's frames have arrived. -/
  toLeft : Nat

inductive NStep where
  /-- Anything but the arrival of a frame happens on the left. -/
  | left (st : CStep)
  | right (st : CStep)
  /-- The next frame from the left arrives at the right, if there is one. -/
  | arriveRight
  | arriveLeft

/-- Not a frame from the peer. -/
def CStep.own : CStep → Bool
  | .recv _ _ => false
  | _ => true

namespace Net

def step (σ : Net) : NStep → Net
  | .left st => if st.own then { σ with left := σ.left.step st } else σ
  | .right st => if st.own then { σ with right := σ.right.step st } else σ
  | .arriveRight =>
    match σ.left.wire[σ.toRight]? with
    | some (ch, f) => { σ with right := σ.right.step (.recv ch f.asReceived), toRight := σ.toRight + 1 }
    | none => σ
  | .arriveLeft =>
    match σ.right.wire[σ.toLeft]? with
    | some (ch, f) => { σ with left := σ.left.step (.recv ch f.asReceived), toLeft := σ.toLeft + 1 }
    | none => σ

def run (σ : Net) (steps : List NStep) : Net := steps.foldl step σ

/-- Two new connections. -/
def Fresh (σ : Net) : Prop := ∃ cfg cfg', σ = ⟨Conn.new cfg, Conn.new cfg', 0, 0⟩

end Net
end Amqp.Rt
