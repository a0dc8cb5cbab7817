import Verif.Model.Connection
/-!
# Requests and their answers

`attach()`, `close()`, `detach_sender_link`, `detach_receiver_link` and `open_session` make a one-shot channel and wait for
it.  A request is answered when its channel is sent a value or dropped; until then somebody must hold the channel, or the
future waits for ever.
-/

namespace Amqp.Rt

/-- The event answers request `op` of a session. -/
def Ev.answers (op : Ref) : Ev → Bool
  | .attached o _ | .attachFailed o _ | .detached o _ | .opDropped o => o == op
  | _ => false

/-- The entry of a link holds the channel of request `op`. -/
def Link.awaits (op : Ref) : Link → Bool
  | .snd (.opening (some o)) | .snd (.closing (some o)) | .rcv (.closing (some o)) | .rcv (.openingLocal (some (_, o))) => o == op
  | _ => false

/-- How often request `op` was answered. -/
def Session.answered (s : Session) (op : Ref) : Nat := s.log.countP (Ev.answers op)

/-- How many links hold the channel of request `op`. -/
def Session.awaiting (s : Session) (op : Ref) : Nat := s.links.values.countP (Link.awaits op)

/-- The event answers the `open_session` request `op`. -/
def CEv.answers (op : Ref) : CEv → Bool
  | .opened o _ | .openFailed o _ | .openDropped o => o == op
  | _ => false

/-- The entry of a session holds the channel of the `open_session` request `op`. -/
def SesState.awaits (op : Ref) : SesState → Bool
  | .opening o => o == op
  | _ => false

def Conn.answered (c : Conn) (op : Ref) : Nat := c.log.countP (CEv.answers op)

def Conn.awaiting (c : Conn) (op : Ref) : Nat := c.sessions.values.countP (SesState.awaits op)

end Amqp.Rt
