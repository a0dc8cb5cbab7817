import Verif.Model.Connection
/-!
# What the application can look up

`Connection::is_opened`, `on_close`, `get_session_by_local_id`, and the functions of `Session` that look for a link.
-/

namespace Amqp.Rt

/-- `get_sender_link` (session.rs:130-139). -/
def Session.senderNamed (s : Session) (name : Str) : Option Ref :=
  match (s.linksByName.get name).bind s.links.get with
  | some (.snd (.established r)) => some r
  | _ => none

/-- `get_sender_link_by_local_handle` (session.rs:593-600). -/
def Session.senderAt (s : Session) (h : UInt32) : Option Ref :=
  match s.links.get h.toNat with
  | some (.snd (.established r)) => some r
  | _ => none

/-- `get_sender_link_by_remote_handle` (session.rs:602-609). -/
def Session.senderOf (s : Session) (h : UInt32) : Option Ref :=
  match (s.remoteHandles.get h).bind s.links.get with
  | some (.snd (.established r)) => some r
  | _ => none

/-- `get_receiver_link_by_local_handle` (session.rs:771-779). -/
def Session.receiverAt (s : Session) (h : UInt32) : Option Ref :=
  match s.links.get h.toNat with
  | some (.rcv (.established r)) => some r
  | _ => none

/-- `get_receiver_link_by_remote_handle` (session.rs:781-788). -/
def Session.receiverOf (s : Session) (h : UInt32) : Option Ref :=
  match (s.remoteHandles.get h).bind s.links.get with
  | some (.rcv (.established r)) => some r
  | _ => none

namespace Conn

/-- `get_session_by_local_id` (connection.rs:147-155). -/
def sessionAt (c : Conn) (ch : UInt16) : Option Ref :=
  match c.sessions.get ch.toNat with
  | some (.established s) => some s
  | _ => none

/-- `is_opened` (connection.rs:128-134); whether the transport is closed is not part of the connection. -/
def isOpened (c : Conn) (ioClosed : Bool) : Bool := decide (c.state = .normal) && c.error.isNone && !ioClosed

/-- Whether a waiter of `on_close` (connection.rs:137-139) is completed: `set_error` has been called, the only place that
notifies the condition and locks it (connection.rs:235). -/
def closeSeen (c : Conn) : Bool := c.log.any fun | .failed _ => true | _ => false

end Conn
end Amqp.Rt
