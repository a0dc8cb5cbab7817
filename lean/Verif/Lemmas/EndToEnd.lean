import Verif.Lemmas.Stream
import Verif.Props.HandshakeDuplex
import Verif.Spec.EndToEnd
/-!
# From the handshake to the connection

Two handshakes that fit together (`Agree`), each fed the bytes the other has sent.  While a handshake lasts the bytes sent
are a part of what it sends in all; what arrives after it is what the other connection has written.  So every step is a
step of a network of bytes (`BNet`) of the two connections the handshakes make, or none.
-/

namespace Amqp.Hs

/-- A handshake that has all of `need` succeeds with `o`, having sent `said`, and leaves what follows. -/
def Needs (p : Prog Opened) (need said : Bytes) (o : Opened) : Prop :=
  ∃ l, out l = said ∧ ∀ t, p.run .frameHeader (need ++ t) = (l, .done (.ok o), .frameHeader, t)

theorem out_append (l l' : List Ev) : out (l ++ l') = out l ++ out l' := by simp [out, stream]

theorem Needs.prefix {p : Prog Opened} {need said : Bytes} {o : Opened} (h : Needs p need said o) {b : Bytes}
    (hb : b <+: need) : out (p.run .frameHeader b).1 <+: said := by
  obtain ⟨l, rfl, h⟩ := h
  obtain ⟨more, rfl⟩ := hb
  have := congrArg (fun x => out x.1) (h [])
  rw [List.append_nil, run_append] at this
  dsimp only at this
  rw [out_append] at this
  exact ⟨_, this⟩

theorem run_grow (p : Prog Opened) (b more : Bytes) :
    out (p.run .frameHeader b).1 <+: out (p.run .frameHeader (b ++ more)).1 := by
  rw [run_append, out_append]
  exact ⟨_, rfl⟩

/-- It does not succeed, or fail, with less. -/
theorem Needs.waits {p : Prog Opened} {need said : Bytes} {o : Opened} (h : Needs p need said o) {b : Bytes}
    (hb : b <+: need) (hlt : b.length < need.length) (r : Except Err Opened) : (p.run .frameHeader b).2.1 ≠ .done r := by
  intro hr
  obtain ⟨l, _, h⟩ := h
  obtain ⟨more, rfl⟩ := hb
  have := congrArg (fun x => x.2.2.2) (h [])
  rw [List.append_nil, run_append, hr, run_done] at this
  dsimp only at this
  rw [(List.append_eq_nil_iff.1 this).2, List.append_nil] at hlt
  omega

end Amqp.Hs

namespace Amqp.Rt
open Hs

/-- An end that has been given `inp`: in its handshake still, or with a connection.  `c` and `r` are the connection and the
reader it has or is going to have. -/
def End.At (e : End) (p : Prog Opened) (inp need said : Bytes) (o : Opened) (c : Conn) (r : Reader) : Prop :=
  (inp <+: need ∧ inp.length < need.length ∧ e = ⟨Run.of p inp, none⟩ ∧ c = o.conn ∧ r = { max := o.codecMax }) ∨
  (need.length ≤ inp.length ∧ e.up = some (c, r) ∧ stream e.shake.sent = said)

theorem End.bytes_none {e : End} (h : e.up = none) : e.bytes = stream e.shake.sent := by
  unfold End.bytes; rw [h]; exact List.append_nil _

theorem End.bytes_some {e : End} {c : Conn} {r : Reader} (h : e.up = some (c, r)) : e.bytes = stream e.shake.sent ++ c.bytes := by
  unfold End.bytes; rw [h]; rfl

/-- What an end has sent is a part of its handshake, or all of it and what the connection has written. -/
theorem End.At.bytes {e : End} {p : Prog Opened} {inp need said : Bytes} {o : Opened} {c : Conn} {r : Reader}
    (h : e.At p inp need said o c r) (hp : Needs p need said o) :
    (e.up = none ∧ e.bytes <+: said) ∨ (e.up = some (c, r) ∧ e.bytes = said ++ c.bytes) := by
  rcases h with ⟨h1, _, rfl, _, _⟩ | ⟨_, h2, h3⟩
  · exact .inl ⟨rfl, by rw [End.bytes_none rfl]; exact hp.prefix h1⟩
  · exact .inr ⟨h2, by rw [End.bytes_some h2, h3]⟩

/-- Bytes arrive at an end: the reader, the present or the future one, is given those that do not belong to the handshake. -/
theorem End.At.take {e : End} {p : Prog Opened} {inp need said : Bytes} {o : Opened} {c : Conn} {r : Reader}
    (h : e.At p inp need said o c r) (hp : Needs p need said o) {more W : Bytes}
    (hW : W <+: need ∨ ∃ B, W = need ++ B) (hm : inp ++ more <+: W) :
    (e.take more).At p (inp ++ more) need said o c (r.fill ((inp ++ more).drop (max need.length inp.length))) ∧
    e.bytes <+: (e.take more).bytes := by
  rcases h with ⟨h1, h2, rfl, rfl, rfl⟩ | ⟨h1, h2, h3⟩
  · have hst : (End.mk (Run.of p inp) none).take more = End.settle ⟨Run.of p (inp ++ more), none⟩ := by
      unfold End.take; dsimp only; rw [of_step]
    rw [hst]
    have hgrow : (End.mk (Run.of p inp) none).bytes <+: stream (Run.of p (inp ++ more)).sent := by
      rw [End.bytes_none rfl]; exact run_grow p inp more
    by_cases hlt : (inp ++ more).length < need.length
    · have hpre : inp ++ more <+: need := by
        rcases hW with hW | ⟨B, rfl⟩
        · exact hm.trans hW
        · exact List.prefix_of_prefix_length_le hm (List.prefix_append _ _) (Nat.le_of_lt hlt)
      have hset : End.settle ⟨Run.of p (inp ++ more), none⟩ = ⟨Run.of p (inp ++ more), none⟩ := by
        have hw := hp.waits hpre hlt
        unfold End.settle
        split
        · next hd => exact absurd hd (hw _)
        · rfl
      rw [hset]
      refine ⟨.inl ⟨hpre, hlt, rfl, rfl, ?_⟩, by rw [End.bytes_none (e := ⟨Run.of p (inp ++ more), none⟩) rfl]; exact hgrow⟩
      rw [List.drop_eq_nil_of_le (by omega)]
      rfl
    · obtain ⟨t, ht⟩ : ∃ t, inp ++ more = need ++ t := by
        have hle : need.length ≤ (inp ++ more).length := by omega
        have : need <+: inp ++ more := by
          rcases hW with hW | ⟨B, rfl⟩
          · have hl := (hm.trans hW).length_le
            exact ((hm.trans hW).eq_of_length (by omega)) ▸ List.prefix_rfl
          · exact List.prefix_of_prefix_length_le (List.prefix_append _ _) hm hle
        obtain ⟨t, ht⟩ := this
        exact ⟨t, ht.symm⟩
      obtain ⟨l, hl, hrun⟩ := hp
      have hof : Run.of p (inp ++ more) = ⟨l, .done (.ok o), .frameHeader, t⟩ := by
        rw [ht]; unfold Run.of; rw [hrun]
      rw [hof] at hgrow ⊢
      have hset : End.settle ⟨⟨l, .done (.ok o), .frameHeader, t⟩, none⟩ =
          ⟨⟨l, .done (.ok o), .frameHeader, t⟩, some (o.conn, { max := o.codecMax, buf := t })⟩ := rfl
      rw [hset]
      refine ⟨.inr ⟨by omega, ?_, hl⟩, ?_⟩
      · rw [ht, Nat.max_eq_left (by omega), List.drop_left]
        rfl
      · rw [End.bytes_some (e := ⟨_, some (o.conn, { max := o.codecMax, buf := t })⟩) rfl]
        exact hgrow.trans (List.prefix_append _ _)
  · have ht : e.take more = { e with up := some (c, r.fill more) } := by unfold End.take; rw [h2]
    rw [ht, Nat.max_eq_right h1, List.drop_left]
    refine ⟨.inr ⟨by rw [List.length_append]; omega, rfl, h3⟩, ?_⟩
    rw [End.bytes_some h2, End.bytes_some (c := c) (r := r.fill more) rfl]
    exact List.prefix_rfl

/-- Two handshakes that fit together. -/
structure Agree (p q : Prog Opened) (cs ss : Bytes) (oc os : Opened) : Prop where
  client : Needs p ss cs oc
  server : Needs q cs ss os
  someC : cs ≠ []
  someS : ss ≠ []
  freshC : ∃ cfg, oc.conn = Conn.new cfg
  freshS : ∃ cfg, os.conn = Conn.new cfg
  /-- Neither waits for the other for ever. -/
  live : ∀ a b, a = out (q.run .frameHeader b).1 → b = out (p.run .frameHeader a).1 →
    ∃ o, (q.run .frameHeader b).2.1 = .done (.ok o)

theorem Agree.fresh {p q : Prog Opened} {cs ss : Bytes} {oc os : Opened} (h : Agree p q cs ss oc os) : (bothOpened oc os).Fresh := by
  obtain ⟨cfg, h1⟩ := h.freshC
  obtain ⟨cfg', h2⟩ := h.freshS
  exact ⟨cfg, cfg', os.codecMax, oc.codecMax, by unfold bothOpened; rw [h1, h2]⟩

/-- Both ends are where the network of bytes is. -/
structure Duplex.At (φ : Duplex) (p q : Prog Opened) (cs ss : Bytes) (oc os : Opened) (β : BNet) : Prop where
  client : φ.client.At p (φ.server.bytes.take φ.toClient) ss cs oc β.left β.atLeft
  server : φ.server.At q (φ.client.bytes.take φ.toServer) cs ss os β.right β.atRight
  toServer : φ.toServer ≤ φ.client.bytes.length
  toClient : φ.toClient ≤ φ.server.bytes.length
  toRight : β.toRight = φ.toServer - cs.length
  toLeft : β.toLeft = φ.toClient - ss.length

/-- An end has given up. -/
def End.Gone (e : End) : Prop := e.up = none ∧ ∃ x, e.shake.prog = .done (.error x)

theorem take_prefix {a b : Bytes} {n : Nat} (h : a <+: b) (hn : n ≤ a.length) : b.take n = a.take n := by
  obtain ⟨t, rfl⟩ := h
  rw [List.take_append_of_le_length hn]

theorem take_more (l : Bytes) (k n : Nat) : l.take (k + ((l.drop k).take n).length) = l.take k ++ (l.drop k).take n := by
  rw [List.take_add]
  congr 1
  rw [List.take_eq_take_iff, List.length_take]
  omega

/-- The bytes that arrive for the connection are the next it has written. -/
theorem carried {inp need B m : Bytes} (h : inp <+: need ++ B) (k : Nat) (hk : k ≤ inp.length)
    (hm : m = inp.drop (max need.length k)) : (B.drop (k - need.length)).take m.length = m := by
  have hl := h.length_le
  have := List.prefix_iff_eq_take.1 h
  have hml : m.length = inp.length - max need.length k := by rw [hm, List.length_drop]
  rw [hml, hm, this, List.drop_take, List.length_take, Nat.min_eq_left hl, List.drop_append,
    List.drop_eq_nil_of_le (Nat.le_max_left _ _), List.nil_append,
    show max need.length k - need.length = k - need.length by omega]

theorem Conn.step_bytes {c : Conn} (h : Conn.Reachable c) (st : CStep) : c.bytes <+: (c.step st).bytes := by
  obtain ⟨l, hl⟩ := Conn.step_out h st
  rw [Conn.bytes_eq, Conn.bytes_eq, ← hl, List.flatMap_append]
  exact List.prefix_append _ _

theorem Reader.read_bytes (r : Reader) {c : Conn} (h : Conn.Reachable c) : c.bytes <+: (r.read c).2.bytes := by
  rcases (Reader.read_cases r c).2 with he | ⟨st, he⟩ <;> rw [he]
  · exact List.prefix_rfl
  · exact Conn.step_bytes h st

/-- An end whose connection has changed. -/
theorem End.At.grow {e : End} {p : Prog Opened} {inp need said : Bytes} {o : Opened} {c : Conn} {r : Reader}
    (h : e.At p inp need said o c r) (hu : e.up = some (c, r)) {c' : Conn} (r' : Reader) (hb : c.bytes <+: c'.bytes) :
    End.At { e with up := some (c', r') } p inp need said o c' r' ∧ e.bytes <+: End.bytes { e with up := some (c', r') } := by
  rcases h with ⟨_, _, rfl, _, _⟩ | ⟨h1, h2, h3⟩
  · cases hu
  · refine ⟨.inr ⟨h1, rfl, h3⟩, ?_⟩
    rw [End.bytes_some h2, End.bytes_some (c := c') (r := r') rfl]
    exact List.prefix_append_right_inj _ |>.2 hb

theorem End.At.same {e : End} {p : Prog Opened} {inp inp' need said : Bytes} {o : Opened} {c : Conn} {r : Reader}
    (h : e.At p inp need said o c r) (he : inp' = inp) : e.At p inp' need said o c r := he ▸ h

theorem End.At.quit {e : End} {p : Prog Opened} {inp need said : Bytes} {o : Opened} {c : Conn} {r : Reader}
    (h : e.At p inp need said o c r) (hp : Needs p need said o) : e.quit = e ∨ e.quit.Gone := by
  rcases h with ⟨h1, h2, rfl, _, _⟩ | ⟨_, h2, _⟩
  · right
    have hw := hp.waits h1 h2
    refine ⟨rfl, .timeout, ?_⟩
    show (Run.of p inp).prog.stop .timeout = _
    have : ∀ r, (Run.of p inp).prog ≠ .done r := hw
    cases hq : (Run.of p inp).prog with
    | done r => exact absurd hq (this r)
    | _ => rfl
  · left; unfold End.quit; rw [h2]

theorem Gone_own {e : End} (h : e.Gone) (st : CStep) : (e.own st).Gone := by unfold End.own; rw [h.1]; exact h
theorem Gone_read {e : End} (h : e.Gone) : e.read.Gone := by unfold End.read; rw [h.1]; exact h

theorem Gone_quit {e : End} (h : e.Gone) : e.quit.Gone := by
  obtain ⟨h1, x, h2⟩ := h
  unfold End.quit
  rw [h1]
  refine ⟨rfl, x, ?_⟩
  show e.shake.prog.stop .timeout = _
  rw [h2]; rfl

theorem Gone_take {e : End} (h : e.Gone) (more : Bytes) : (e.take more).Gone := by
  obtain ⟨h1, x, h2⟩ := h
  have hp : (e.shake.step (.bytes more)).prog = .done (.error x) := by
    simp only [Run.step]; rw [h2, run_done]
  unfold End.take
  rw [h1]
  dsimp only
  unfold End.settle
  dsimp only
  split
  · next hd => rw [hp] at hd; cases hd
  · exact ⟨rfl, x, hp⟩

theorem BNet.fit_snoc {bs : List BStep} (hb : ∀ st ∈ bs, st.Fit) {a : BStep} (ha : a.Fit) : ∀ st ∈ bs ++ [a], st.Fit := by
  intro st hm
  rcases List.mem_append.1 hm with hm | hm
  · exact hb st hm
  · cases List.mem_singleton.1 hm; exact ha

section
variable {p q : Prog Opened} {cs ss : Bytes} {oc os : Opened}

theorem Duplex.At.step (ag : Agree p q cs ss oc os) {φ : Duplex} {bs : List BStep} (hb : ∀ st ∈ bs, st.Fit)
    (h : φ.At p q cs ss oc os ((bothOpened oc os).run bs)) {st : XStep} (hst : st.Fit) :
    (∃ bs, (∀ st ∈ bs, BStep.Fit st) ∧ (φ.step st).At p q cs ss oc os ((bothOpened oc os).run bs)) ∨
    (¬ st.patient ∧ ((φ.step st).client.Gone ∨ (φ.step st).server.Gone)) := by
  obtain ⟨rl, rr⟩ := ag.fresh.reachable bs
  -- what the other side has been given does not depend on what is sent later
  have onClient : ∀ {e' : End} {c' : Conn} {r' : Reader} {a : BStep}, a.Fit → φ.client.bytes <+: e'.bytes →
      e'.At p (φ.server.bytes.take φ.toClient) ss cs oc c' r' →
      ((bothOpened oc os).run bs).step a = { (bothOpened oc os).run bs with left := c', atLeft := r' } →
      ∃ bs, (∀ st ∈ bs, BStep.Fit st) ∧ Duplex.At { φ with client := e' } p q cs ss oc os ((bothOpened oc os).run bs) := by
    intro e' c' r' a ha hg hat he
    refine ⟨bs ++ [a], BNet.fit_snoc hb ha, ?_⟩
    rw [BNet.run_snoc, he]
    exact ⟨hat, h.server.same (take_prefix hg h.toServer), Nat.le_trans h.toServer hg.length_le, h.toClient, h.toRight, h.toLeft⟩
  have onServer : ∀ {e' : End} {c' : Conn} {r' : Reader} {a : BStep}, a.Fit → φ.server.bytes <+: e'.bytes →
      e'.At q (φ.client.bytes.take φ.toServer) cs ss os c' r' →
      ((bothOpened oc os).run bs).step a = { (bothOpened oc os).run bs with right := c', atRight := r' } →
      ∃ bs, (∀ st ∈ bs, BStep.Fit st) ∧ Duplex.At { φ with server := e' } p q cs ss oc os ((bothOpened oc os).run bs) := by
    intro e' c' r' a ha hg hat he
    refine ⟨bs ++ [a], BNet.fit_snoc hb ha, ?_⟩
    rw [BNet.run_snoc, he]
    exact ⟨h.client.same (take_prefix hg h.toClient), hat, h.toServer, Nat.le_trans h.toClient hg.length_le, h.toRight, h.toLeft⟩
  have bc := h.client.bytes ag.client
  have bsv := h.server.bytes ag.server
  cases st <;> unfold Duplex.step <;> dsimp only
  case client st =>
    left
    rcases bc with ⟨hu, _⟩ | ⟨hu, _⟩
    · refine ⟨bs, hb, ?_⟩
      have : φ.client.own st = φ.client := by unfold End.own; rw [hu]
      rw [this]; exact h
    · by_cases ho : st.own = true
      · have : φ.client.own st = { φ.client with up := some (((bothOpened oc os).run bs).left.step st, ((bothOpened oc os).run bs).atLeft) } := by
          unfold End.own; rw [hu]; dsimp only; rw [if_pos ho]
        rw [this]
        have := h.client.grow hu ((bothOpened oc os).run bs).atLeft (Conn.step_bytes rl st)
        exact onClient (a := .left st) hst this.2 this.1 (by unfold BNet.step; dsimp only; rw [if_pos ho])
      · refine ⟨bs, hb, ?_⟩
        have : φ.client.own st = φ.client := by unfold End.own; rw [hu]; dsimp only; rw [if_neg ho]
        rw [this]; exact h
  case server st =>
    left
    rcases bsv with ⟨hu, _⟩ | ⟨hu, _⟩
    · refine ⟨bs, hb, ?_⟩
      have : φ.server.own st = φ.server := by unfold End.own; rw [hu]
      rw [this]; exact h
    · by_cases ho : st.own = true
      · have : φ.server.own st = { φ.server with up := some (((bothOpened oc os).run bs).right.step st, ((bothOpened oc os).run bs).atRight) } := by
          unfold End.own; rw [hu]; dsimp only; rw [if_pos ho]
        rw [this]
        have := h.server.grow hu ((bothOpened oc os).run bs).atRight (Conn.step_bytes rr st)
        exact onServer (a := .right st) hst this.2 this.1 (by unfold BNet.step; dsimp only; rw [if_pos ho])
      · refine ⟨bs, hb, ?_⟩
        have : φ.server.own st = φ.server := by unfold End.own; rw [hu]; dsimp only; rw [if_neg ho]
        rw [this]; exact h
  case clientReads =>
    left
    rcases bc with ⟨hu, _⟩ | ⟨hu, _⟩
    · refine ⟨bs, hb, ?_⟩
      have : φ.client.read = φ.client := by unfold End.read; rw [hu]
      rw [this]; exact h
    · unfold End.read
      rw [hu]
      dsimp only
      have := h.client.grow hu (((bothOpened oc os).run bs).atLeft.read ((bothOpened oc os).run bs).left).1
        (Reader.read_bytes ((bothOpened oc os).run bs).atLeft rl)
      exact onClient (a := .readLeft) True.intro this.2 this.1 rfl
  case serverReads =>
    left
    rcases bsv with ⟨hu, _⟩ | ⟨hu, _⟩
    · refine ⟨bs, hb, ?_⟩
      have : φ.server.read = φ.server := by unfold End.read; rw [hu]
      rw [this]; exact h
    · unfold End.read
      rw [hu]
      dsimp only
      have := h.server.grow hu (((bothOpened oc os).run bs).atRight.read ((bothOpened oc os).run bs).right).1
        (Reader.read_bytes ((bothOpened oc os).run bs).atRight rr)
      exact onServer (a := .readRight) True.intro this.2 this.1 rfl
  case clientQuits =>
    rcases h.client.quit ag.client with hq | hq
    · left; rw [hq]; exact ⟨bs, hb, h⟩
    · exact .inr ⟨id, .inl hq⟩
  case serverQuits =>
    rcases h.server.quit ag.server with hq | hq
    · left; rw [hq]; exact ⟨bs, hb, h⟩
    · exact .inr ⟨id, .inr hq⟩
  case carryToServer n =>
    left
    have hlen : (φ.client.bytes.take φ.toServer).length = φ.toServer := by rw [List.length_take]; have := h.toServer; omega
    have htake := take_more φ.client.bytes φ.toServer n
    generalize hmore : (φ.client.bytes.drop φ.toServer).take n = more at *
    have hpre : φ.client.bytes.take φ.toServer ++ more <+: φ.client.bytes := by rw [← htake]; exact List.take_prefix _ _
    have hW : φ.client.bytes <+: cs ∨ ∃ B, φ.client.bytes = cs ++ B := by
      rcases bc with ⟨_, hc⟩ | ⟨_, hc⟩
      · exact .inl hc
      · exact .inr ⟨_, hc⟩
    obtain ⟨hat, hg⟩ := h.server.take ag.server hW hpre
    rw [hlen] at hat
    generalize hm : (φ.client.bytes.take φ.toServer ++ more).drop (max cs.length φ.toServer) = m at hat
    have hinp : (φ.client.bytes.take φ.toServer ++ more).length = φ.toServer + more.length := by rw [List.length_append, hlen]
    have hml : m.length = φ.toServer + more.length - max cs.length φ.toServer := by rw [← hm, List.length_drop, hinp]
    have hcar : (((bothOpened oc os).run bs).left.bytes.drop ((bothOpened oc os).run bs).toRight).take m.length = m := by
      rw [h.toRight]
      rcases bc with ⟨_, hc⟩ | ⟨_, hc⟩
      · have := (hpre.trans hc).length_le
        have h0 : m = [] := List.eq_nil_of_length_eq_zero (by omega)
        rw [h0]; rfl
      · exact carried (hc ▸ hpre) φ.toServer (by omega) hm.symm
    refine ⟨bs ++ [.carryRight m.length], BNet.fit_snoc hb (a := .carryRight m.length) True.intro, ?_⟩
    rw [BNet.run_snoc]
    unfold BNet.step
    dsimp only
    rw [hcar]
    refine ⟨h.client.same (take_prefix hg h.toClient), hat.same htake, ?_, Nat.le_trans h.toClient hg.length_le, ?_, h.toLeft⟩
    · have := hpre.length_le; dsimp only; omega
    · have := h.toRight; dsimp only; omega
  case carryToClient n =>
    left
    have hlen : (φ.server.bytes.take φ.toClient).length = φ.toClient := by rw [List.length_take]; have := h.toClient; omega
    have htake := take_more φ.server.bytes φ.toClient n
    generalize hmore : (φ.server.bytes.drop φ.toClient).take n = more at *
    have hpre : φ.server.bytes.take φ.toClient ++ more <+: φ.server.bytes := by rw [← htake]; exact List.take_prefix _ _
    have hW : φ.server.bytes <+: ss ∨ ∃ B, φ.server.bytes = ss ++ B := by
      rcases bsv with ⟨_, hc⟩ | ⟨_, hc⟩
      · exact .inl hc
      · exact .inr ⟨_, hc⟩
    obtain ⟨hat, hg⟩ := h.client.take ag.client hW hpre
    rw [hlen] at hat
    generalize hm : (φ.server.bytes.take φ.toClient ++ more).drop (max ss.length φ.toClient) = m at hat
    have hinp : (φ.server.bytes.take φ.toClient ++ more).length = φ.toClient + more.length := by rw [List.length_append, hlen]
    have hml : m.length = φ.toClient + more.length - max ss.length φ.toClient := by rw [← hm, List.length_drop, hinp]
    have hcar : (((bothOpened oc os).run bs).right.bytes.drop ((bothOpened oc os).run bs).toLeft).take m.length = m := by
      rw [h.toLeft]
      rcases bsv with ⟨_, hc⟩ | ⟨_, hc⟩
      · have := (hpre.trans hc).length_le
        have h0 : m = [] := List.eq_nil_of_length_eq_zero (by omega)
        rw [h0]; rfl
      · exact carried (hc ▸ hpre) φ.toClient (by omega) hm.symm
    refine ⟨bs ++ [.carryLeft m.length], BNet.fit_snoc hb (a := .carryLeft m.length) True.intro, ?_⟩
    rw [BNet.run_snoc]
    unfold BNet.step
    dsimp only
    rw [hcar]
    refine ⟨hat.same htake, h.server.same (take_prefix hg h.toServer), Nat.le_trans h.toServer hg.length_le, ?_, h.toRight, ?_⟩
    · have := hpre.length_le; dsimp only; omega
    · have := h.toLeft; dsimp only; omega

theorem Gone_step {φ : Duplex} (h : φ.client.Gone ∨ φ.server.Gone) (st : XStep) :
    (φ.step st).client.Gone ∨ (φ.step st).server.Gone := by
  cases st <;> unfold Duplex.step <;> dsimp only
  case client st => exact h.imp (Gone_own · st) id
  case server st => exact h.imp id (Gone_own · st)
  case carryToServer n => exact h.imp id (Gone_take · _)
  case carryToClient n => exact h.imp (Gone_take · _) id
  case serverReads => exact h.imp id Gone_read
  case clientReads => exact h.imp Gone_read id
  case serverQuits => exact h.imp id Gone_quit
  case clientQuits => exact h.imp Gone_quit id

theorem Agree.start_eq (ag : Agree p q cs ss oc os) : Duplex.start p q = ⟨⟨Run.of p [], none⟩, ⟨Run.of q [], none⟩, 0, 0⟩ := by
  have key : ∀ {p : Prog Opened} {need said : Bytes} {o : Opened}, Needs p need said o → need ≠ [] →
      End.start p = ⟨Run.of p [], none⟩ := by
    intro p need said o hp hn
    have hw := hp.waits (List.nil_prefix) (List.length_pos_of_ne_nil hn)
    unfold End.start End.settle
    split
    · next hd => exact absurd hd (hw _)
    · rfl
  unfold Duplex.start
  rw [key ag.client ag.someS, key ag.server ag.someC]

theorem Agree.at_start (ag : Agree p q cs ss oc os) : (Duplex.start p q).At p q cs ss oc os (bothOpened oc os) := by
  rw [ag.start_eq]
  exact ⟨.inl ⟨List.nil_prefix, List.length_pos_of_ne_nil ag.someS, rfl, rfl, rfl⟩,
    .inl ⟨List.nil_prefix, List.length_pos_of_ne_nil ag.someC, rfl, rfl, rfl⟩, Nat.zero_le _, Nat.zero_le _,
    (Nat.zero_sub _).symm, (Nat.zero_sub _).symm⟩

theorem Duplex.run_snoc (φ : Duplex) (steps : List XStep) (st : XStep) : φ.run (steps ++ [st]) = (φ.run steps).step st := by
  unfold run; rw [List.foldl_append]; rfl

theorem Agree.tracks (ag : Agree p q cs ss oc os) (steps : List XStep) (h : ∀ st ∈ steps, st.Fit) :
    (∃ bs, (∀ st ∈ bs, BStep.Fit st) ∧ ((Duplex.start p q).run steps).At p q cs ss oc os ((bothOpened oc os).run bs)) ∨
    ((∃ st ∈ steps, ¬ st.patient) ∧
      (((Duplex.start p q).run steps).client.Gone ∨ ((Duplex.start p q).run steps).server.Gone)) := by
  induction steps using List.reverseRecOn with
  | nil => exact .inl ⟨[], by simp, ag.at_start⟩
  | append_singleton l st ih =>
    rw [Duplex.run_snoc]
    rcases ih fun a ha => h a (List.mem_append_left _ ha) with ⟨bs, hb, hat⟩ | ⟨⟨a, ha, hi⟩, hg⟩
    · rcases hat.step ag hb (h st (by simp)) with hat' | ⟨hi, hg⟩
      · exact .inl hat'
      · exact .inr ⟨⟨st, by simp, hi⟩, hg⟩
    · exact .inr ⟨⟨a, List.mem_append_left _ ha, hi⟩, Gone_step hg st⟩

/-- Once both are connected. -/
theorem Agree.refines (ag : Agree p q cs ss oc os) (steps : List XStep) (h : ∀ st ∈ steps, st.Fit) {φ : Duplex}
    (hφ : φ = (Duplex.start p q).run steps) {c c' : Conn} {r r' : Reader} (hc : φ.client.up = some (c, r))
    (hs : φ.server.up = some (c', r')) :
    (∃ bs, (∀ st ∈ bs, BStep.Fit st) ∧
      (bothOpened oc os).run bs = ⟨c, c', φ.toServer - cs.length, φ.toClient - ss.length, r', r⟩) ∧
    φ.client.bytes = cs ++ c.bytes ∧ φ.server.bytes = ss ++ c'.bytes := by
  subst hφ
  rcases ag.tracks steps h with ⟨bs, hb, hat⟩ | ⟨_, hg | hg⟩
  · suffices hsuf : _ ∧ _ from ⟨⟨bs, hb, hsuf.1⟩, hsuf.2⟩
    rcases hat.client.bytes ag.client with ⟨he, _⟩ | ⟨h1, e1⟩
    · rw [he] at hc; cases hc
    rcases hat.server.bytes ag.server with ⟨he, _⟩ | ⟨h2, e2⟩
    · rw [he] at hs; cases hs
    rw [h1] at hc
    rw [h2] at hs
    have ht := hat.toRight
    have ht' := hat.toLeft
    cases hc
    cases hs
    rw [← ht, ← ht']
    exact ⟨rfl, e1, e2⟩
  · rw [hg.1] at hc; cases hc
  · rw [hg.1] at hs; cases hs

/-- When all bytes have been carried over both are connected. -/
theorem Agree.both_up (ag : Agree p q cs ss oc os) (steps : List XStep) (h : ∀ st ∈ steps, st.Fit)
    (hp : ∀ st ∈ steps, st.patient) {φ : Duplex} (hφ : φ = (Duplex.start p q).run steps)
    (h1 : φ.toServer = φ.client.bytes.length) (h2 : φ.toClient = φ.server.bytes.length) :
    φ.client.up.isSome = true ∧ φ.server.up.isSome = true := by
  subst hφ
  rcases ag.tracks steps h with ⟨bs, hb, hat⟩ | ⟨⟨st, hm, hi⟩, _⟩
  · have hc := hat.client
    have hs := hat.server
    rw [h2, List.take_length] at hc
    rw [h1, List.take_length] at hs
    have bc := hc.bytes ag.client
    have bsv := hs.bytes ag.server
    generalize (Duplex.start p q).run steps = φ at *
    rcases hs with ⟨s1, s2, s3, _⟩ | ⟨_, s2, _⟩
    · exfalso
      rcases hc with ⟨c1, c2, c3, _⟩ | ⟨_, c2, _⟩
      · have e1 : φ.server.bytes = out (q.run .frameHeader φ.client.bytes).1 := by
          conv_lhs => rw [s3]
          rw [End.bytes_none rfl]; rfl
        have e2 : φ.client.bytes = out (p.run .frameHeader φ.server.bytes).1 := by
          conv_lhs => rw [c3]
          rw [End.bytes_none rfl]; rfl
        obtain ⟨o, ho⟩ := ag.live _ _ e1 e2
        exact ag.server.waits s1 s2 _ ho
      · rcases bc with ⟨hu, _⟩ | ⟨_, hb⟩
        · rw [hu] at c2; cases c2
        · rw [hb, List.length_append] at s2; omega
    · rcases hc with ⟨_, c2, _⟩ | ⟨_, c2, _⟩
      · exfalso
        rcases bsv with ⟨hu, _⟩ | ⟨_, hb⟩
        · rw [hu] at s2; cases s2
        · rw [hb, List.length_append] at c2; omega
      · rw [c2, s2]; exact ⟨rfl, rfl⟩
  · exact absurd (hp st hm) hi

end

/-! ## The handshakes of this library -/

theorem sasl_agree (ccfg scfg : Cfg) (auth : Auth) (cid sid : Str) (host : Option Str) (svc : Service)
    (h : SaslAccepted ccfg scfg auth cid sid host svc) :
    ∃ cs ss, Agree (clientSasl ccfg auth cid host) (server scfg sid svc) cs ss
      ⟨.new (ccfg.connCfg (scfg.toOpen sid)), ccfg.maxFrameSize.toNat, scfg.toOpen sid⟩
      ⟨.new (scfg.connCfg (clientOpen ccfg cid host)), scfg.maxSize, clientOpen ccfg cid host⟩ := by
  have ho : clientOpen ccfg cid host = ownOpen ccfg cid host := rfl
  have hpi : plainInit ccfg auth = .sasl (.saslInit (saslInit ccfg auth)) := rfl
  rw [ho]
  refine ⟨stream [.proto .amqpSasl, .sasl (.saslInit (saslInit ccfg auth)), .proto .amqp, openFrame 0 (ownOpen ccfg cid host)],
    stream [.proto .amqpSasl, .sasl (.saslMechanisms ⟨svc.mechanisms⟩), .sasl (.saslOutcome ⟨.ok, none⟩), .proto .amqp,
      openFrame 0 (scfg.toOpen sid)], ?_, ?_, ?_, ?_, ⟨_, rfl⟩, ⟨_, rfl⟩, ?_⟩
  · refine ⟨[.sent (.proto .amqpSasl), .got (.proto .amqpSasl), .got (.sasl (.saslMechanisms ⟨svc.mechanisms⟩)),
      .sent (plainInit ccfg auth), .got (.sasl (.saslOutcome ⟨.ok, none⟩)), .sent (.proto .amqp), .got (.proto .amqp),
      .sent (openFrame 0 (ownOpen ccfg cid host)), .got (openFrame 0 (scfg.toOpen sid))], rfl, fun t => ?_⟩
    simp only [stream, List.flatMap_cons, List.flatMap_nil, List.append_assoc, List.append_nil]
    exact client_run ccfg auth cid host h.mechanisms h.serverOpen h.fits t
  · refine ⟨_, ?_, fun t => server_sasl_run scfg sid svc (saslInit ccfg auth) .ok 0 (ownOpen ccfg cid host) t h.sasl h.accepts h.ack
      h.init h.open_⟩
    rfl
  · simp [stream, Item.encode, protocolIdEncode]
  · simp [stream, Item.encode, protocolIdEncode]
  · intro a b ha hb
    have := c49_both_open ccfg scfg auth cid sid host svc h.sasl h.accepts h.ack h.mechanisms h.init h.open_ h.serverOpen h.fits
      [a] [b] _ _ rfl rfl (by rw [exec_chunks, List.flatten_singleton, List.flatten_singleton, stream_sent]; exact ha)
      (by rw [exec_chunks, List.flatten_singleton, List.flatten_singleton, stream_sent]; exact hb)
    have h2 := this.2.1
    rw [exec_chunks, List.flatten_singleton] at h2
    exact ⟨⟨.new (scfg.connCfg (ownOpen ccfg cid host)), scfg.maxSize, ownOpen ccfg cid host⟩, h2⟩

theorem plain_agree (ccfg scfg : Cfg) (cid sid : Str) (host : Option Str) (svc : Service)
    (h : PlainAccepted ccfg scfg cid sid host svc) :
    ∃ cs ss, Agree (clientPlain ccfg cid host) (server scfg sid svc) cs ss
      ⟨.new (ccfg.connCfg (scfg.toOpen sid)), ccfg.maxFrameSize.toNat, scfg.toOpen sid⟩
      ⟨.new (scfg.connCfg (clientOpen ccfg cid host)), scfg.maxSize, clientOpen ccfg cid host⟩ := by
  have ho : clientOpen ccfg cid host = ownOpen ccfg cid host := rfl
  rw [ho]
  have hserver : ∀ t, (server scfg sid svc).run .frameHeader
      ((Item.proto .amqp).encode ++ ((openFrame 0 (ownOpen ccfg cid host)).encode ++ t)) =
      ([.got (.proto .amqp), .sent (.proto .amqp), .got (openFrame 0 (ownOpen ccfg cid host)),
        .sent (openFrame 0 (scfg.toOpen sid))],
        .done (.ok ⟨.new (scfg.connCfg (ownOpen ccfg cid host)), scfg.maxSize, ownOpen ccfg cid host⟩), .frameHeader, t) := by
    intro t
    rw [server, run_proto' _ rfl, run_send, if_pos h.plain, serverOpen,
      run_open (o := ownOpen ccfg cid host) h.open_ (.inl rfl) (serverAck scfg sid svc (ownOpen ccfg cid host)) rfl, serverAck,
      if_pos (show svc.ack (ownOpen ccfg cid host) = true from h.ack), run_send, run_done]
    rfl
  have hclient : ∀ t, (clientPlain ccfg cid host).run .frameHeader
      ((Item.proto .amqp).encode ++ ((openFrame 0 (scfg.toOpen sid)).encode ++ t)) =
      ([.sent (.proto .amqp), .got (.proto .amqp), .sent (openFrame 0 (ownOpen ccfg cid host)),
        .got (openFrame 0 (scfg.toOpen sid))],
        .done (.ok ⟨.new (ccfg.connCfg (scfg.toOpen sid)), ccfg.maxFrameSize.toNat, scfg.toOpen sid⟩), .frameHeader, t) := by
    intro t
    rw [clientPlain_eq, run_send, run_proto, if_neg (by simp), run_send, run_open h.serverOpen h.fits _ rfl, run_done]
  refine ⟨stream [.proto .amqp, openFrame 0 (ownOpen ccfg cid host)], stream [.proto .amqp, openFrame 0 (scfg.toOpen sid)],
    ?_, ?_, ?_, ?_, ⟨_, rfl⟩, ⟨_, rfl⟩, ?_⟩
  · refine ⟨[.sent (.proto .amqp), .got (.proto .amqp), .sent (openFrame 0 (ownOpen ccfg cid host)),
      .got (openFrame 0 (scfg.toOpen sid))], rfl, fun t => ?_⟩
    simp only [stream, List.flatMap_cons, List.flatMap_nil, List.append_assoc, List.append_nil]
    exact hclient t
  · refine ⟨[.got (.proto .amqp), .sent (.proto .amqp), .got (openFrame 0 (ownOpen ccfg cid host)),
      .sent (openFrame 0 (scfg.toOpen sid))], rfl, fun t => ?_⟩
    simp only [stream, List.flatMap_cons, List.flatMap_nil, List.append_assoc, List.append_nil]
    exact hserver t
  · simp [stream, Item.encode, protocolIdEncode]
  · simp [stream, Item.encode, protocolIdEncode]
  · intro a b ha hb
    obtain ⟨t1, e1⟩ : ∃ t, b = (Item.proto .amqp).encode ++ t := by
      rw [clientPlain_eq, run_send, out_sent] at hb; exact ⟨_, hb⟩
    obtain ⟨t2, e2⟩ : ∃ t, a = (Item.proto .amqp).encode ++ t := by
      rw [e1, server, run_proto' _ rfl, run_send, out_got, out_sent] at ha; exact ⟨_, ha⟩
    obtain ⟨t3, e3⟩ : ∃ t, b = (Item.proto .amqp).encode ++ ((openFrame 0 (ownOpen ccfg cid host)).encode ++ t) := by
      rw [e2, clientPlain_eq, run_send, run_proto, if_neg (by simp), run_send, out_sent, out_got, out_sent] at hb
      exact ⟨_, hb⟩
    rw [e3, hserver]
    exact ⟨_, rfl⟩

theorem meet_agree {p q : Prog Opened} {oc os : Opened} (h : Meet p q oc os) : ∃ cs ss, Agree p q cs ss oc os := by
  cases h with
  | sasl _ _ _ _ _ _ _ h => exact sasl_agree _ _ _ _ _ _ _ h
  | plain _ _ _ _ _ _ h => exact plain_agree _ _ _ _ _ _ h

end Amqp.Rt
