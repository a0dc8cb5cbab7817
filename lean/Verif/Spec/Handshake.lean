import Verif.Model.Handshake
/-! What the handshake properties talk about. -/

namespace Amqp.Hs

/-- What has been received, in order. -/
def received (l : List Ev) : List Item :=
  l.filterMap fun e => match e with
    | .got x => some x
    | .sent _ => none

/-- What a client using SASL must receive next, given what it received before: the SASL header, the server's mechanisms,
an outcome with code ok, the AMQP header, the server's open. -/
def clientExpects : List Item → Item → Prop
  | [], y => y = .proto .amqpSasl
  | [_], y => ∃ m, y = .sasl (.saslMechanisms m)
  | [_, _], y => ∃ o, y = .sasl (.saslOutcome o) ∧ o.code = .ok
  | [_, _, _], y => y = .proto .amqp
  | [_, _, _, _], y => ∃ f o, y = .amqp f ∧ f.performative = .open_ o
  | _, _ => False

/-- The same, except that any SASL frame will do as the second item. -/
def clientAccepts : List Item → Item → Prop
  | [_], y => ∃ b, y = .sasl b
  | seen, y => clientExpects seen y

/-- The AMQP part of the conversation: the AMQP header and AMQP frames. -/
def Item.isAmqp : Item → Prop
  | .proto p => p = .amqp
  | .sasl _ => False
  | .amqp _ => True

/-- A successful SASL outcome. -/
def Item.isOk : Item → Prop
  | .sasl (.saslOutcome o) => o.code = .ok
  | _ => False

/-- The open frame. -/
def openFrame (ch : UInt16) (o : Open) : Item := .amqp { channel := ch, performative := .open_ o }

/-- The init of a client with these credentials: mechanism PLAIN, `authzid NUL authcid NUL password`. -/
def plainInit (cfg : Cfg) (a : Auth) : Item :=
  .sasl (.saslInit
    { mechanism := ⟨[0x50, 0x4c, 0x41, 0x49, 0x4e]⟩,
      initialResponse := some (a.authzId.bytes ++ 0 :: a.authnId.bytes ++ 0 :: a.password.bytes),
      hostname := cfg.hostname })

/-- The bytes of a sequence of items. -/
def stream (xs : List Item) : Bytes := xs.flatMap Item.encode

/-- The connection attempt has failed. -/
def Run.Failed (r : Run ρ) : Prop := ∃ e, r.prog = .done (.error e)

/-- The handshake is waiting for something from the peer. -/
def Run.Waiting (r : Run ρ) : Prop := ∀ x, r.prog ≠ .done x

/-- The three ways for a server to get to an open connection: without SASL; with SASL; with a SASL challenge. -/
inductive ServerPath (cfg : Cfg) (id : Str) (m : Multiple Symbol) (remote : Open) : List Ev → Prop
  | plain (ch) : ServerPath cfg id m remote
      [.got (.proto .amqp), .sent (.proto .amqp), .got (openFrame ch remote), .sent (openFrame 0 (cfg.toOpen id))]
  | sasl (i code ch) : ServerPath cfg id m remote
      [.got (.proto .amqpSasl), .sent (.proto .amqpSasl), .sent (.sasl (.saslMechanisms { saslServerMechanisms := m })),
        .got (.sasl (.saslInit i)), .sent (.sasl (.saslOutcome { code, additionalData := none })),
        .got (.proto .amqp), .sent (.proto .amqp), .got (openFrame ch remote), .sent (openFrame 0 (cfg.toOpen id))]
  | challenge (i b a code x ch) : ServerPath cfg id m remote
      [.got (.proto .amqpSasl), .sent (.proto .amqpSasl), .sent (.sasl (.saslMechanisms { saslServerMechanisms := m })),
        .got (.sasl (.saslInit i)), .sent (.sasl (.saslChallenge b)), .got (.sasl (.saslResponse a)),
        .sent (.sasl (.saslOutcome { code, additionalData := none })), .got (.sasl x),
        .got (.proto .amqp), .sent (.proto .amqp), .got (openFrame ch remote), .sent (openFrame 0 (cfg.toOpen id))]

/-- What the server can be given next, given what it received before: an AMQP or a SASL header; then, after an AMQP
header, an open; after a SASL header, an init; after that a response if there is a challenge; in the end the AMQP header
and the open.  (After a response the code wants another SASL frame, of any kind.) -/
def serverAccepts : List Item → Item → Prop
  | [], y => y = .proto .amqp ∨ y = .proto .amqpSasl
  | [.proto .amqp], y => ∃ ch o, y = openFrame ch o
  | [.proto .amqpSasl], y => ∃ i, y = .sasl (.saslInit i)
  | [_, _], y => (∃ r, y = .sasl (.saslResponse r)) ∨ y = .proto .amqp
  | [_, _, .sasl _], y => ∃ b, y = .sasl b
  | [_, _, _, .sasl _], y => y = .proto .amqp
  | [_, _, .proto .amqp], y => ∃ ch o, y = openFrame ch o
  | [_, _, _, _, .proto .amqp], y => ∃ ch o, y = openFrame ch o
  | _, _ => False

/-- A service that goes on after an outcome only if the code was ok. -/
def Service.Careful (svc : Service) : Prop :=
  (∀ i code, svc.onInit i = .outcome code true → code = .ok) ∧
  ∀ i b k r code, svc.onInit i = .challenge b k → k r = .outcome code true → code = .ok

end Amqp.Hs
