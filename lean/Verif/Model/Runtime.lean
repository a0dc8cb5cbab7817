import Verif.Model.Frame
import Verif.Model.Io
/-!
# Containers and errors of the connection layer

Models the external `slab::Slab` and `HashMap` as far as the code observes them, and `AmqpProtocolError`
(`src/error.rs:36-67`).
-/

namespace Amqp.Rt

/-- `slab::Slab<T>` (external crate): vacated keys are reused last-in first-out, then fresh ones are taken. -/
structure Slab (α : Type) where
  slots : List (Option α)
  free : List Nat

namespace Slab

def empty : Slab α := ⟨[], []⟩

/-- `Slab::get`. -/
def get (s : Slab α) (k : Nat) : Option α := (s.slots[k]?).getD none

/-- `Slab::contains`. -/
def contains (s : Slab α) (k : Nat) : Bool := (s.get k).isSome

/-- `Slab::vacant_entry().key()`: the key the next insertion will use. -/
def vacantKey (s : Slab α) : Nat := s.free.headD s.slots.length

/-- `Slab::insert`. -/
def insert (s : Slab α) (a : α) : Slab α :=
  match s.free with
  | [] => ⟨s.slots ++ [some a], []⟩
  | k :: free => ⟨s.slots.set k (some a), free⟩

/-- `*slab.get_mut(k).unwrap() = a`, on an occupied key. -/
def set (s : Slab α) (k : Nat) (a : α) : Slab α :=
  if s.contains k then ⟨s.slots.set k (some a), s.free⟩ else s

/-- `if slab.contains(k) { slab.remove(k) }`: every use in the code is guarded like this. -/
def remove (s : Slab α) (k : Nat) : Slab α :=
  if s.contains k then ⟨s.slots.set k none, k :: s.free⟩ else s

/-- The occupied entries in key order (`Slab::iter`). -/
def values (s : Slab α) : List α := s.slots.filterMap id

/-- `Slab::len`. -/
def len (s : Slab α) : Nat := s.values.length

end Slab

/-- `HashMap<K, V>`: its entries, at most one per key.  Iteration order is not observable where the code iterates. -/
structure Map (K V : Type) where
  entries : List (K × V)

namespace Map
variable [DecidableEq K]

def empty : Map K V := ⟨[]⟩

/-- `HashMap::get`. -/
def get (m : Map K V) (k : K) : Option V := (m.entries.find? fun e => decide (e.1 = k)).map Prod.snd

/-- `HashMap::remove`. -/
def erase (m : Map K V) (k : K) : Map K V := ⟨m.entries.filter fun e => ¬ e.1 = k⟩

/-- `HashMap::insert`. -/
def insert (m : Map K V) (k : K) (v : V) : Map K V := ⟨(k, v) :: (m.erase k).entries⟩

/-- `for v in map.values_mut() { *v = f(v) }`, with the key in hand. -/
def mapVals (m : Map K V) (f : K → V → V) : Map K V := ⟨m.entries.map fun e => (e.1, f e.1 e.2)⟩

end Map

/-- `AmqpProtocolError` (src/error.rs:36-67). -/
inductive PErr where
  | codec (e : CodecError)
  | tooManyChannels
  | bodyTooLarge
  | keepAliveTimeout
  | readTimeout
  | disconnected
  | unknownSession (f : Frame)
  | unknownLink (f : Frame)
  | closed (e : Option Error)
  | sessionEnded (e : Option Error)
  | linkDetached (e : Option Error)
  | unexpectedOpeningState (f : Frame)
  | unexpected (f : Frame)
  | connectionDropped

end Amqp.Rt
