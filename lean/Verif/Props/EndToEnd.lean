import Verif.Lemmas.EndToEnd
import Verif.Props.Stream
/-!
# A client and a server from the first byte on: C76
-/

namespace Amqp.Rt
open Session Examples
open Hs (Opened Prog Meet)

/-! ## C76 -/

/-- **C76** When a client and a server that accept each other have both opened, they are where their two new connections come
to by an exchange of bytes: what a handshake has not used of its input is read by the connection, and nothing of the handshake
is. -/
theorem c76_refines {p q : Prog Opened} {oc os : Opened} (hm : Meet p q oc os) (steps : List XStep)
    (h : ∀ st ∈ steps, st.Fit) {φ : Duplex} (hφ : φ = (Duplex.start p q).run steps) {c c' : Conn} {r r' : Reader}
    (hc : φ.client.up = some (c, r)) (hs : φ.server.up = some (c', r')) :
    ∃ bs k k', (∀ st ∈ bs, BStep.Fit st) ∧ (bothOpened oc os).run bs = ⟨c, c', k, k', r', r⟩ := by
  obtain ⟨cs, ss, ag⟩ := meet_agree hm
  obtain ⟨⟨bs, hb, hr⟩, _⟩ := ag.refines steps h hφ hc hs
  exact ⟨bs, _, _, hb, hr⟩

/-- **C76** They do open: when no handshake has run out of time and all bytes have been carried over, both ends are up,
whatever the applications did meanwhile and however the bytes were cut up. -/
theorem c76_both_up {p q : Prog Opened} {oc os : Opened} (hm : Meet p q oc os) (steps : List XStep)
    (h : ∀ st ∈ steps, st.Fit) (hp : ∀ st ∈ steps, st.patient) {φ : Duplex} (hφ : φ = (Duplex.start p q).run steps)
    (hd : φ.Carried) : φ.client.up.isSome = true ∧ φ.server.up.isSome = true := by
  obtain ⟨cs, ss, ag⟩ := meet_agree hm
  exact ag.both_up steps h hp hφ hd.1 hd.2

/-- **C76** The same, drained: when all bytes have been carried over and neither codec has another frame, the exchange of bytes
is complete as well. -/
theorem c76_drained {p q : Prog Opened} {oc os : Opened} (hm : Meet p q oc os) (steps : List XStep)
    (h : ∀ st ∈ steps, st.Fit) {φ : Duplex} (hφ : φ = (Duplex.start p q).run steps) {c c' : Conn} {r r' : Reader}
    (hc : φ.client.up = some (c, r)) (hs : φ.server.up = some (c', r')) (hd : φ.Carried) (hr : r.Idle) (hr' : r'.Idle) :
    ∃ bs, (∀ st ∈ bs, BStep.Fit st) ∧ (bothOpened oc os).run bs = ⟨c, c', c.bytes.length, c'.bytes.length, r', r⟩ ∧
      ((bothOpened oc os).run bs).Drained := by
  obtain ⟨cs, ss, ag⟩ := meet_agree hm
  obtain ⟨⟨bs, hb, he⟩, e1, e2⟩ := ag.refines steps h hφ hc hs
  have l1 : φ.toServer - cs.length = c.bytes.length := by rw [hd.1, e1, List.length_append]; omega
  have l2 : φ.toClient - ss.length = c'.bytes.length := by rw [hd.2, e2, List.length_append]; omega
  rw [l1, l2] at he
  exact ⟨bs, hb, he, by rw [he]; exact ⟨rfl, rfl, hr', hr⟩⟩

theorem opened_fresh {p q : Prog Opened} {oc os : Opened} (hm : Meet p q oc os) : (bothOpened oc os).Fresh := by
  obtain ⟨cs, ss, ag⟩ := meet_agree hm
  exact ag.fresh

/-- **C76** So what holds of two connections connected by bytes holds of a client and a server from the first byte on.
Neither codec fails, and neither end refuses a frame. -/
theorem c76_no_refusal {p q : Prog Opened} {oc os : Opened} (hm : Meet p q oc os) (steps : List XStep)
    (h : ∀ st ∈ steps, st.Fit) {φ : Duplex} (hφ : φ = (Duplex.start p q).run steps) {c c' : Conn} {r r' : Reader}
    (hc : φ.client.up = some (c, r)) (hs : φ.server.up = some (c', r'))
    (hl : c.Legible r'.max) (hl' : c'.Legible r.max) (hu : (Net.mk c c' 0 0).Undisturbed) (e : PErr) :
    r.failed = none ∧ r'.failed = none ∧ CEv.refused e ∉ c.log ∧ CEv.refused e ∉ c'.log := by
  obtain ⟨bs, k, k', hb, he⟩ := c76_refines hm steps h hφ hc hs
  have h1 := c75_no_error (opened_fresh hm) bs hb he.symm ⟨hl, hl'⟩
  have h2 := c75_no_refusal (opened_fresh hm) bs hb he.symm ⟨hl, hl'⟩ hu e
  exact ⟨h1.2, h1.1, h2.1, h2.2⟩

/-- **C76** The messages the server's application takes from a receiver link are those the client's sent, in that order. -/
theorem c76_to_server {p q : Prog Opened} {oc os : Opened} (hm : Meet p q oc os) (steps : List XStep)
    (h : ∀ st ∈ steps, st.Fit) {φ : Duplex} (hφ : φ = (Duplex.start p q).run steps) {c c' : Conn} {r r' : Reader}
    (hc : φ.client.up = some (c, r)) (hs : φ.server.up = some (c', r'))
    (hl : c.Legible r'.max) (hl' : c'.Legible r.max) (hu : (Net.mk c c' 0 0).Undisturbed)
    {i j : Ref} {x y : Session} (hx : c.obj? i = some x) (hy : c'.obj? j = some y) (hj : Joined x y)
    {ra rb : Ref} {hdl : UInt32} (hr : SoleSender x hdl ra)
    (ht : receivedOn rb y.log <+: transfersOn hdl (arrived y.log)) :
    (handedOn rb y.log).length ≤ (sentOn ra x).length ∧
    ∀ (k : Nat) d t, (handedOn rb y.log)[k]? = some (d, t) → ∃ q, (sentOn ra x)[k]? = some q ∧ SameMessage q t.asArrival := by
  obtain ⟨bs, k, k', hb, he⟩ := c76_refines hm steps h hφ hc hs
  exact c75_messages_in_order (β := ⟨c, c', k, k', r', r⟩) (opened_fresh hm) bs hb he.symm ⟨hl, hl'⟩ hu hx hy hj hr ht

/-- **C76** When all bytes have been carried over and read, all messages the client's application has sent on a link are there
for the server's. -/
theorem c76_nothing_missing {p q : Prog Opened} {oc os : Opened} (hm : Meet p q oc os) (steps : List XStep)
    (h : ∀ st ∈ steps, st.Fit) {φ : Duplex} (hφ : φ = (Duplex.start p q).run steps) {c c' : Conn} {r r' : Reader}
    (hc : φ.client.up = some (c, r)) (hs : φ.server.up = some (c', r'))
    (hl : c.Legible r'.max) (hl' : c'.Legible r.max) (hu : (Net.mk c c' 0 0).Undisturbed)
    (hd : φ.Carried) (hi : r.Idle) (hi' : r'.Idle)
    {i j : Ref} {x y : Session} (hx : c.obj? i = some x) (hy : c'.obj? j = some y) (hj : Joined x y)
    {ra rb : Ref} {hdl : UInt32} (hr : SoleSender x hdl ra) (ht : receivedOn rb y.log = transfersOn hdl (arrived y.log)) :
    (assemble (receivedOn rb y.log)).open_ = none ∧
    (assemble (receivedOn rb y.log)).done.length = (sentOn ra x).length ∧
    ∀ (k : Nat) q a, (sentOn ra x)[k]? = some q → (assemble (receivedOn rb y.log)).done[k]? = some a → SameMessage q a := by
  obtain ⟨bs, hb, he, hdr⟩ := c76_drained hm steps h hφ hc hs hd hi hi'
  rw [he] at hdr
  exact c75_nothing_missing (β := ⟨c, c', _, _, r', r⟩) (opened_fresh hm) bs hb he.symm ⟨hl, hl'⟩ hu hdr hx hy hj hr ht

/-! ## Non-vacuity -/

theorem answering_mechanisms : wf (SaslFrame.mk (.saslMechanisms ⟨(Hs.answering .ok).mechanisms⟩)) := by
  refine ⟨⟨⟨fun x hx => ?_, by decide⟩, by decide⟩, by decide⟩
  simp only [Hs.answering, List.mem_singleton] at hx
  subst hx
  exact ⟨by decide, by decide⟩

/-- A client and a server that accept each other, with SASL and without. -/
theorem aMeeting : Meet (Hs.clientSasl Hs.aCfg Hs.anAuth (Hs.str "x") none) (Hs.server Hs.aCfg (Hs.str "x") (Hs.answering .ok))
    ⟨.new (Hs.aCfg.connCfg Hs.anOpen), 65535, Hs.anOpen⟩ ⟨.new (Hs.aCfg.connCfg Hs.anOpen), 0, Hs.anOpen⟩ :=
  .sasl Hs.aCfg Hs.aCfg Hs.anAuth (Hs.str "x") (Hs.str "x") none (Hs.answering .ok)
    ⟨rfl, rfl, rfl, answering_mechanisms, Hs.anInit_wf, Hs.anOpen_wf, Hs.anOpen_wf, .inr (by decide)⟩

theorem aPlainMeeting : Meet (Hs.clientPlain Hs.aCfg (Hs.str "x") none) (Hs.server Hs.aCfg (Hs.str "x") (Hs.answering .ok))
    ⟨.new (Hs.aCfg.connCfg Hs.anOpen), 65535, Hs.anOpen⟩ ⟨.new (Hs.aCfg.connCfg Hs.anOpen), 0, Hs.anOpen⟩ :=
  .plain Hs.aCfg Hs.aCfg (Hs.str "x") (Hs.str "x") none (Hs.answering .ok)
    ⟨rfl, rfl, Hs.anOpen_wf, Hs.anOpen_wf, .inr (by decide)⟩

def asX : BStep → XStep
  | .left st => .client st
  | .right st => .server st
  | .carryRight n => .carryToServer n
  | .carryLeft n => .carryToClient n
  | .readRight => .serverReads
  | .readLeft => .clientReads

/-- The handshakes, the bytes of which are carried in pieces that do not end where the items do, then the exchange of C70. -/
def fromTheStart : List XStep :=
  [.carryToServer 5, .serverReads, .carryToServer 1000, .carryToClient 11, .carryToClient 1000, .carryToServer 1000,
    .carryToClient 3, .carryToClient 1000, .carryToServer 13, .carryToServer 1000, .carryToClient 1000, .carryToServer 1000,
    .carryToClient 1000] ++ sendBytes.map asX

theorem fromTheStart_fit : ∀ st ∈ fromTheStart, st.Fit := by
  intro st hm
  rcases List.mem_append.1 hm with hm | hm
  · simp only [List.mem_cons, List.not_mem_nil, or_false] at hm
    rcases hm with rfl | rfl | rfl | rfl | rfl | rfl | rfl | rfl | rfl | rfl | rfl | rfl | rfl <;> exact True.intro
  · obtain ⟨a, ha, rfl⟩ := List.mem_map.1 hm
    have hf := sendBytes_fit a ha
    cases a <;> exact hf

def aDuplex : Duplex := (Duplex.start (Hs.clientSasl Hs.aCfg Hs.anAuth (Hs.str "x") none)
  (Hs.server Hs.aCfg (Hs.str "x") (Hs.answering .ok))).run fromTheStart

/-- The message has gone from the client to the server. -/
example : (aDuplex.client.up.bind fun x => x.1.obj? 0).map (fun x => (sentOn 0 x).map (·.body.tenc)) = some [[7]] ∧
    (aDuplex.server.up.bind fun y => y.1.obj? 0).map (fun y => (assemble (receivedOn 0 y.log)).done.length) = some 1 ∧
    aDuplex.toServer = aDuplex.client.bytes.length ∧ aDuplex.toClient = aDuplex.server.bytes.length := by
  decide +kernel

end Amqp.Rt
