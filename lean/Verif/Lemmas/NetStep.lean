import Verif.Lemmas.Net
/-!
# Two connections: every step
-/

namespace Amqp.Rt
open Conn

/-- Events that put nothing on a channel of a session. -/
def CEv.Silent : CEv → Prop
  | .frame _ (.close _) => True
  | .frame _ _ | .ses _ _ | .begun _ _ | .refused _ => False
  | _ => True

theorem wireOf_of_silent {ids : Ref → Option UInt16} {l : List CEv} (h : ∀ e ∈ l, e.Silent) :
    ∀ p ∈ wireOf ids l, p.2.speaks = false ∧ p.2.isBegin = false := by
  intro p hp
  obtain ⟨e, he, h'⟩ := List.mem_filterMap.1 hp
  have hs := h e he
  cases e with
  | frame ch f => cases f <;> first | cases hs; done | (cases h'; exact ⟨rfl, rfl⟩)
  | ses s e => cases hs
  | _ => cases h'

theorem Conn.Side.log {c d : Conn} (h : Side c) (hs : SameButLog c d) {l : List CEv} (hl : d.log = c.log ++ l)
    (hsil : ∀ e ∈ l, e.Silent) : Side d ∧ c.wire <+: d.wire := by
  have hch : ∀ s, d.chanOf s = c.chanOf s := fun s => by unfold chanOf obj?; rw [hs.1]
  have hw := wire_grow h.refs (fun s _ => hch s) hl
  have hwl := wireOf_of_silent (ids := d.chanOf) hsil
  refine ⟨h.quiet hs ?_ ?_ hw ?_ ?_ ?_, ⟨_, hw.symm⟩⟩
  · refine reg_of_eq h.reg hs.2.1 hs.2.2.1 hs.1 fun ch => ?_
    rw [hl]
    exact lastBegun_append _ _ _ fun e he c s hh => by subst hh; exact hsil _ he
  · intro s e he
    rw [hl] at he
    rw [hs.1]
    rcases List.mem_append.1 he with he | he
    · exact h.refs s e he
    · cases hsil _ he
  · intro ch
    apply List.filterMap_eq_nil_iff.2
    intro p hp
    rw [if_neg]
    rw [(hwl p hp).1]
    exact fun h => Bool.false_ne_true h.2
  · rw [List.filter_eq_nil_iff]
    intro p hp
    rw [(hwl p hp).2]
    exact Bool.false_ne_true
  · intro e he
    rw [hl] at he
    rcases List.mem_append.1 he with he | he
    · exact h.refused e he
    · cases hsil _ he

theorem Inv.log {c d d' : Conn} {n m : Nat} (h : Inv c d n m) (hs : SameButLog d d') {l : List CEv} (hl : d'.log = d.log ++ l)
    (hsil : ∀ e ∈ l, e.Silent) : Inv c d' n m ∧ d.wire <+: d'.wire :=
  let hh := h.right.log hs hl hsil
  ⟨h.quiet hh.1 hs.1 hs.2.2.1 hh.2, hh.2⟩

/-- A frame that concerns the connection as a whole. -/
theorem Inv.skip {c d : Conn} {n m : Nat} (h : Inv c d n m) {ch : UInt16} {f : Frame} (hw : c.wire[n]? = some (ch, f))
    (hs : f.speaks = false) : Inv c d (n + 1) m := by
  constructor
  · exact h.left
  · exact h.right
  · exact h.toRight.next hw fun h => by rw [hs] at h; cases h
  · exact h.toLeft
  · intro i j x y hx hy hj
    unfold seen
    rw [onChan_next hw, if_neg fun h => by rw [hs] at h; exact Bool.false_ne_true h.2, List.append_nil]
    exact h.pair i j x y hx hy hj
  · exact h.loneL
  · exact h.loneR

/-- A session is made on the right: what does not depend on how. -/
theorem Inv.make {c d d' : Conn} {n m : Nat} (h : Inv c d n m) {ch : UInt16} {b : Begin} {y : Session} {tok : Nat}
    (hw : c.wire[n]? = some (ch, .begin_ b)) (hs : Side d') (ho : d'.objs = d.objs ++ [y])
    (hm : d'.sessionsMap = d.sessionsMap.insert ch tok) (hwd : d.wire <+: d'.wire) (hc : y.remoteChannelId = ch)
    (hb : b.remoteChannel = if y.isLocal then some (UInt16.ofNat y.id) else none) (hf : y.Fresh)
    (hp : ∀ i x, c.obj? i = some x → Joined x y → Alone x ∧ seen d m (UInt16.ofNat y.id) = 0) : Inv c d' (n + 1) m := by
  have hobj := obj?_append ho
  obtain ⟨hnone, _⟩ := h.next_begin hw
  have hne : ∀ j z, d.obj? j = some z → z.remoteChannelId ≠ ch := by
    rintro j z hz rfl
    obtain ⟨_, _, h1, _⟩ := h.toRight.begun j z hz
    rw [hnone] at h1; cases h1
  constructor
  · exact h.left
  · exact hs
  · constructor
    · exact (List.getElem?_eq_some_iff.1 hw).1
    · intro ch' hc'
      rw [hm, Map.get_insert] at hc'
      split at hc'
      · cases hc'
      · next hx =>
        rw [onChan_next hw, if_neg fun hh => hx hh.1, List.append_nil]
        exact h.toRight.unbegun ch' hc'
    · intro j z hz
      rw [hobj] at hz
      split at hz
      · cases hz
        refine ⟨b, [], ?_, hb⟩
        rw [onChan_next hw, hc, hnone, if_pos ⟨rfl, rfl⟩]; rfl
      · rw [onChan_next hw, if_neg fun hh => hne j z hz hh.1.symm, List.append_nil]
        exact h.toRight.begun j z hz
  · exact h.toLeft.src hwd
  · intro i j x z hx hz hj
    rw [hobj] at hz
    unfold seen
    rw [take_prefix_eq hwd h.toLeft.le, onChan_next hw]
    split at hz
    · cases hz
      obtain ⟨ha, h0⟩ := hp i x hx hj
      have hix : UInt16.ofNat x.id = ch := hj.2.symm.trans hc
      unfold seen at h0
      rw [hix, hnone, if_pos ⟨rfl, rfl⟩, h0]
      exact ha.runs hf
    · rw [if_neg fun hh => hne j z hz (hj.2.trans hh.1.symm), List.append_nil]
      exact h.pair i j x z hx hz hj
  · intro i x hx hn
    exact h.loneL i x hx fun j z hz => hn j z (by rw [hobj, if_neg (Nat.ne_of_lt (obj?_lt hz))]; exact hz)
  · intro j z hz hn
    rw [hobj] at hz
    split at hz
    · cases hz; exact Alone.new hf
    · exact h.loneR j z hz hn

/-- The peer's `Begin` arrives on the right. -/
theorem Inv.register {c d : Conn} {n m : Nat} (h : Inv c d n m) {ch : UInt16} {b : Begin}
    (hw : c.wire[n]? = some (ch, .begin_ b)) (hb : b.remoteChannel = none)
    (hlim : ((d.registerRemote ch b).wire.filter fun p => p.2.isBegin).length ≤ 65536) :
    Inv c (d.registerRemote ch b) (n + 1) m := by
  have hmic : CMicro d (d.registerRemote ch b) := .register ch b
  obtain ⟨hnone, _⟩ := h.next_begin hw
  have hl : (d.registerRemote ch b).log = d.log ++ [.begun ch d.objs.length,
      .frame (UInt16.ofNat d.sessions.vacantKey) (beginFrame (some ch) b.incomingWindow none none none)] := by
    simp [registerRemote, Conn.post, Conn.note]
  have ho : (d.registerRemote ch b).objs = d.objs ++ [Session.new d.sessions.vacantKey false d.maxFrameSize ch b] := rfl
  have hwire := wire_grow h.right.refs (fun s hs => chanOf_append ho s hs) hl
  have hside : Side (d.registerRemote ch b) := by
    refine h.right.register (hmic.reg h.right.reg) (hmic.wire h.right.refs).1 ho rfl rfl ?_ ?_ hwire hlim ?_
    · rintro j z hz rfl
      obtain ⟨_, _, h1, _⟩ := h.toRight.begun j z hz
      rw [hnone] at h1; cases h1
    · rfl
    · intro e he
      rw [hl] at he
      simp at he
      exact h.right.refused e he
  refine h.make hw hside ho rfl ⟨_, hwire.symm⟩ rfl hb ⟨_, _, _, _, _, rfl⟩ ?_
  intro i x hx hj
  exfalso
  obtain ⟨_, _, h1, _⟩ := h.toLeft.begun i x hx
  have hlen : d.sessions.slots.length < 65536 := by
    rw [hwire, List.filter_append, List.length_append, h.right.count] at hlim
    exact hlim
  have hv : d.sessions.slots.length ≤ (UInt16.ofNat d.sessions.vacantKey).toNat := by
    rw [h.right.vacant, UInt16.toNat_ofNat_of_lt' hlen]
    exact Nat.le_refl _
  have hp := onChan_take x.remoteChannelId d.wire m
  rw [h1, hj.1] at hp
  rw [show onChan (UInt16.ofNat (Session.new d.sessions.vacantKey false d.maxFrameSize ch b).id) d.wire = [] from
    h.right.silent _ hv] at hp
  cases List.prefix_nil.1 hp

/-- The peer's answer arrives on the right. -/
theorem Inv.complete {c d : Conn} {n m : Nat} (h : Inv c d n m) {ch l : UInt16} {b : Begin}
    (hw : c.wire[n]? = some (ch, .begin_ b)) (hb : b.remoteChannel = some l) :
    Inv c (d.completeLocal l.toNat ch b) (n + 1) m := by
  obtain ⟨hnone, fs, hon⟩ := h.next_begin hw
  -- the session that answers
  obtain ⟨i, x, hx, hid, hxl, hxr⟩ : ∃ i x, c.obj? i = some x ∧ x.id = ch.toNat ∧ x.isLocal = false ∧ x.remoteChannelId = l := by
    rcases h.left.chan (ch := ch) (by rw [hon]; simp) with ⟨_, b', _, k1, k2⟩ | ⟨i, x, b', k0, k1, k2, k3⟩
    · rw [hon] at k2
      cases k2
      rw [k1] at hb; cases hb
    · rw [hon] at k3
      cases k3
      rw [k2] at hb
      cases hl : x.isLocal with
      | true => rw [hl] at hb; cases hb
      | false => rw [hl] at hb; exact ⟨i, x, k0, k1, hl, Option.some.inj hb⟩
  -- the slot it answers
  obtain ⟨b', fs', g1, g2⟩ := h.toLeft.begun i x hx
  rw [hxl] at g2
  rw [hxr] at g1
  have hp := onChan_take l d.wire m
  rw [g1] at hp
  have hxch : UInt16.ofNat x.id = ch := by rw [hid, UInt16.ofNat_toNat]
  have hopen : ∃ op, d.sessions.get l.toNat = some (.opening op) := by
    rcases h.right.chan (ch := l) (by intro he; rw [he] at hp; cases List.prefix_nil.1 hp) with
      ⟨op, _, k0, _, _⟩ | ⟨j, y, b₁, k0, k1, k2, k3⟩
    · exact ⟨op, k0⟩
    · exfalso
      rw [k3] at hp
      rw [head_eq hp, k2] at g2
      cases hl : y.isLocal with
      | false => rw [hl] at g2; cases g2
      | true =>
        obtain ⟨b₂, fs₂, q1, q2⟩ := h.toRight.begun j y k0
        rw [hl, if_pos rfl] at q2
        have hq := onChan_take y.remoteChannelId c.wire n
        rw [q1] at hq
        rcases h.left.chan (ch := y.remoteChannelId) (by intro he; rw [he] at hq; cases List.prefix_nil.1 hq) with
          ⟨_, b₃, _, r1, r2⟩ | ⟨i', x', b₃, r0, r1, r2, r3⟩
        · rw [r2] at hq
          rw [head_eq hq, r1] at q2; cases q2
        · rw [r3] at hq
          rw [head_eq hq, r2] at q2
          cases hl' : x'.isLocal with
          | true => rw [hl'] at q2; cases q2
          | false =>
            rw [hl'] at q2
            have hr : x'.remoteChannelId = l := by
              have := Option.some.inj q2
              rw [this, k1, UInt16.ofNat_toNat]
            have e1 := h.left.map i x hx
            have e2 := h.left.map i' x' r0
            rw [hxr] at e1
            rw [hr, e1] at e2
            have : y.remoteChannelId = ch := by
              rw [← hxch, Option.some.inj e2, r1, UInt16.ofNat_toNat]
            rw [this, hnone] at q1
            cases q1
  obtain ⟨op, hg⟩ := hopen
  have hmic : CMicro d (d.completeLocal l.toNat ch b) := .complete l.toNat op ch b hg
  obtain ⟨ho, hl, hs, hm⟩ : (d.completeLocal l.toNat ch b).objs = d.objs ++ [Session.new l.toNat true d.maxFrameSize ch b] ∧
      (d.completeLocal l.toNat ch b).log = d.log ++ [.begun ch d.objs.length, .opened op d.objs.length] ∧
      (d.completeLocal l.toNat ch b).sessions = d.sessions.set l.toNat (.established d.objs.length) ∧
      (d.completeLocal l.toNat ch b).sessionsMap = d.sessionsMap.insert ch l.toNat := by
    unfold completeLocal; rw [hg]; exact ⟨rfl, by simp [Conn.note], rfl, rfl⟩
  have hwire : (d.completeLocal l.toNat ch b).wire = d.wire := by
    rw [wire_grow h.right.refs (fun s hs => chanOf_append ho s hs) hl, wireOf_silent, List.append_nil]
    intro e he
    simp at he
    rcases he with rfl | rfl <;> exact ⟨fun _ _ h => (by cases h), fun _ _ h => (by cases h)⟩
  have hside : Side (d.completeLocal l.toNat ch b) := by
    refine h.right.complete (hmic.reg h.right.reg) (hmic.wire h.right.refs).1 hg ho hs hm ?_ hwire ?_
    · rintro j z hz rfl
      obtain ⟨_, _, h1, _⟩ := h.toRight.begun j z hz
      rw [hnone] at h1; cases h1
    · intro e he
      rw [hl] at he
      simp at he
      exact h.right.refused e he
  have hll : UInt16.ofNat (Session.new l.toNat true d.maxFrameSize ch b).id = l := UInt16.ofNat_toNat
  refine h.make hw hside ho hm (by rw [hwire]; exact List.prefix_refl _) rfl ?_ ⟨_, _, _, _, _, rfl⟩ ?_
  · rw [hll]; exact hb
  · intro k z hz hj
    rw [hll]
    have hk := h.left.uniq hz hx ((hj.2.symm.trans rfl).trans hxch.symm)
    subst hk
    obtain rfl : z = x := Option.some.inj (hz.symm.trans hx)
    constructor
    · refine h.loneL k z hz fun j y hy he => ?_
      obtain ⟨_, _, h1, _⟩ := h.toRight.begun j y hy
      rw [he, hxch, hnone] at h1; cases h1
    · obtain ⟨b₁, _, hb₁⟩ := h.right.opening _ _ hg
      rw [UInt16.ofNat_toNat] at hb₁
      unfold seen
      have := (onChan_take l d.wire m).length_le
      rw [hb₁] at this
      rw [List.length_tail]
      simp at this
      omega

theorem sessionFrame_est {d : Conn} {ch : UInt16} {f : Frame} {s : Ref}
    (h : (d.sessionsMap.get ch).bind d.sessions.get = some (.established s)) (hne : ∀ e, f ≠ .end_ e) :
    d.sessionFrame ch f = d.giveFrame s f := by
  unfold sessionFrame
  rw [h]
  cases f <;> first | rfl | exact absurd rfl (hne _)

theorem handleFrame_ses {d : Conn} {ch : UInt16} {f : Frame} (hf : f.forSession = true) (he : d.error = none) :
    d.handleFrame ch f = (d.note (.peer ch f)).sessionFrame ch f := by
  have : (d.note (.peer ch f)).error.isSome = false := by
    show d.error.isSome = false
    rw [he]; rfl
  unfold Conn.handleFrame
  cases f <;> first | cases hf; done | (dsimp only; rw [this]; rfl)

theorem asReceived_forSession {f : Frame} (h : f.forSession = true) (hne : ∀ e, f ≠ .end_ e) :
    f.asReceived.forSession = true ∧ ∀ e, f.asReceived ≠ .end_ e := by
  cases f <;> first | cases h; done | exact absurd rfl (hne _) | exact ⟨rfl, fun _ h => (by cases h)⟩

theorem callService_log {d : Conn} (s : Ref) (k : Nat) : ∃ l, SameButLog d (d.callService s k) ∧
    (d.callService s k).log = d.log ++ l ∧ ∀ e ∈ l, e.Silent := by
  unfold callService
  split
  · refine ⟨_, ⟨rfl, rfl, rfl, rfl⟩, rfl, ?_⟩
    intro e he
    obtain ⟨_, _, rfl⟩ := List.mem_map.1 he
    trivial
  · exact ⟨[], ⟨rfl, rfl, rfl, rfl⟩, by simp, by simp⟩

/-- The next frame of the left connection arrives on the right. -/
theorem Inv.arrive {c d : Conn} {n m : Nat} (h : Inv c d n m) {ch : UInt16} {f : Frame} (hw : c.wire[n]? = some (ch, f))
    (hE₀ : ∀ ch e, (ch, Frame.end_ e) ∉ c.wire) (he₀ : d.error = none) (he : (d.handleFrame ch f.asReceived).error = none)
    (hE : ∀ ch' e, (ch', Frame.end_ e) ∉ (d.handleFrame ch f.asReceived).wire)
    (hlim : ((d.handleFrame ch f.asReceived).wire.filter fun p => p.2.isBegin).length ≤ 65536) :
    Inv c (d.handleFrame ch f.asReceived) (n + 1) m := by
  obtain ⟨h', _⟩ := h.log (d' := d.note (.peer ch f.asReceived)) ⟨rfl, rfl, rfl, rfl⟩ (l := [_]) rfl
    (by intro e he; rw [List.mem_singleton.1 he]; trivial)
  by_cases hf : f.forSession = true
  · have hne : ∀ e, f ≠ .end_ e := by
      rintro e rfl
      exact hE₀ ch e (List.mem_of_getElem? hw)
    obtain ⟨hf', hne'⟩ := asReceived_forSession hf hne
    rw [handleFrame_ses hf' he₀] at hE ⊢
    obtain ⟨_, _, b, gs, _, _, hon, _⟩ := h'.next_frame hw hf
    cases hm : (d.note (.peer ch f.asReceived)).sessionsMap.get ch with
    | none => rw [h'.toRight.unbegun ch hm] at hon; cases hon
    | some tok =>
      obtain ⟨s, y, ⟨st, hg, hr, hy⟩, hc, _⟩ := h'.right.reg.map ch tok hm
      have hst : st = .established s := by
        cases st with
        | opening _ => cases hr
        | established _ => cases hr; rfl
        | closing s' => exact absurd hg (h'.right.noClosing _ _)
      subst hst
      have hbind : ((d.note (.peer ch f.asReceived)).sessionsMap.get ch).bind (d.note (.peer ch f.asReceived)).sessions.get =
          some (.established s) := by rw [hm]; exact hg
      rw [sessionFrame_est hbind hne'] at hE ⊢
      have hgive : (d.note (.peer ch f.asReceived)).giveFrame s f.asReceived =
          ((d.note (.peer ch f.asReceived)).onSession s (.peer f.asReceived)).callService s y.todo.length := by
        unfold giveFrame; rw [hy]
      rw [hgive] at hE ⊢
      obtain ⟨l, q1, q2, q3⟩ := callService_log (d := (d.note (.peer ch f.asReceived)).onSession s (.peer f.asReceived)) s y.todo.length
      have hrefs : ((d.note (.peer ch f.asReceived)).onSession s (.peer f.asReceived)).Refs :=
        ((CMicro.session s y (.peer f.asReceived) hy).wire h'.right.refs).1
      have hpre := wire_grow hrefs (fun t _ => by unfold chanOf obj?; rw [q1.1]) q2
      have h'' := h'.frame hw hf hne hy hc fun ch' e hmem => hE ch' e (by rw [hpre]; exact List.mem_append_left _ hmem)
      exact (h''.log q1 q2 q3).1
  · cases f with
    | empty => exact h'.skip hw rfl
    | close cl =>
      exfalso
      have he : (if (d.note (.peer ch (.close cl))).state = .closing then (d.note (.peer ch (.close cl))).setError .disconnected
        else
          { ((d.note (.peer ch (.close cl))).setError (.closed cl.error)).post 0 (.close { error := none }) with
            state := .remoteClose }.note (.called (.protocolError (.closed cl.error)))).error = none := he
      split at he
      · rw [(setError_eq _ _).2.2] at he; cases he
      · have he : ((d.note (.peer ch (.close cl))).setError (.closed cl.error)).error = none := he
        rw [(setError_eq _ _).2.2] at he; cases he
    | begin_ b =>
      have hh : d.handleFrame ch (.begin_ b) = match b.remoteChannel with
        | some l => (d.note (.peer ch (.begin_ b))).completeLocal l.toNat ch b
        | none => (d.note (.peer ch (.begin_ b))).registerRemote ch b := rfl
      change Inv c (d.handleFrame ch (.begin_ b)) _ _
      change ((d.handleFrame ch (.begin_ b)).wire.filter _).length ≤ _ at hlim
      rw [hh] at hlim ⊢
      cases hb : b.remoteChannel with
      | none => rw [hb] at hlim; exact h'.register hw hb hlim
      | some l => exact h'.complete hw hb
    | _ => exact absurd rfl hf

theorem openSession_eq {d : Conn} (he : d.error = none) (off des : Option (Multiple Symbol)) (props : Option (HMap Symbol Variant)) :
    d.openSession off des props =
      if d.sessions.vacantKey ≥ d.channelMax.toNat then { d with ops := d.ops + 1 }.note (.openFailed d.ops .tooManyChannels)
      else ({ ({ d with ops := d.ops + 1 } : Conn) with sessions := d.sessions.insert (.opening d.ops) }.post
        (UInt16.ofNat d.sessions.vacantKey) (beginFrame none 0xffffffff off des props)) := by
  unfold openSession
  dsimp only
  split
  · next h => rw [he] at h; cases h
  · rfl

/-- A session is opened from the right. -/
theorem Inv.opening {c d : Conn} {n m : Nat} (h : Inv c d n m) (off des : Option (Multiple Symbol))
    (props : Option (HMap Symbol Variant)) (he₀ : d.error = none)
    (hlim : ((d.openSession off des props).wire.filter fun p => p.2.isBegin).length ≤ 65536) :
    Inv c (d.openSession off des props) n m := by
  rw [openSession_eq he₀] at hlim ⊢
  split at hlim
  · next hv =>
    rw [if_pos hv]
    exact (h.log (d' := { d with ops := d.ops + 1 }.note (.openFailed d.ops .tooManyChannels))
      (l := [.openFailed d.ops .tooManyChannels]) ⟨rfl, rfl, rfl, rfl⟩ rfl
      (by intro e he; rw [List.mem_singleton.1 he]; trivial)).1
  · next hv =>
    rw [if_neg hv]
    have m₁ : CMicro d { d with ops := d.ops + 1 } := .newOp
    have m₂ : CMicro { d with ops := d.ops + 1 } _ := .opening d.ops off des props (Nat.lt_of_not_le hv)
    have hreg := m₂.reg (m₁.reg h.right.reg)
    have hrefs := (m₂.wire (m₁.wire h.right.refs).1).1
    have hl : ({ ({ d with ops := d.ops + 1 } : Conn) with sessions := d.sessions.insert (.opening d.ops) }.post
        (UInt16.ofNat d.sessions.vacantKey) (beginFrame none 0xffffffff off des props)).log =
        d.log ++ [.frame (UInt16.ofNat d.sessions.vacantKey) (beginFrame none 0xffffffff off des props)] := rfl
    have hwire := wire_grow (d := { ({ d with ops := d.ops + 1 } : Conn) with sessions := d.sessions.insert (.opening d.ops) }.post
        (UInt16.ofNat d.sessions.vacantKey) (beginFrame none 0xffffffff off des props)) h.right.refs (fun t _ => (rfl : _ = d.chanOf t)) hl
    refine h.quiet (h.right.open_ hreg hrefs rfl rfl rfl rfl hwire hlim ?_) rfl rfl ⟨_, hwire.symm⟩
    intro e he
    rw [hl] at he
    simp at he
    exact h.right.refused e he

/-- Anything else on the right. -/
theorem Inv.own {c d : Conn} {n m : Nat} (h : Inv c d n m) (st : CStep) (ho : st.own = true) (he₀ : d.error = none)
    (he : (d.step st).error = none) (hE : ∀ ch e, (ch, Frame.end_ e) ∉ (d.step st).wire)
    (hlim : ((d.step st).wire.filter fun p => p.2.isBegin).length ≤ 65536) : Inv c (d.step st) n m := by
  cases st with
  | recv ch f => cases ho
  | «local» s st =>
    change Inv c (if st.isLocal then d.onSession s st else d) n m
    change ∀ ch e, _ ∉ (if st.isLocal then d.onSession s st else d).wire at hE
    split at hE
    · next hl =>
      rw [if_pos hl]
      cases hy : d.obj? s with
      | none => unfold onSession; rw [hy]; exact h
      | some y =>
        refine h.session hy st (local_ends hl) ?_ hE
        cases st <;> first | rfl | cases hl
    · next hl => rw [if_neg hl]; exact h
  | openSession off des props => exact h.opening off des props he₀ hlim
  | forceClose =>
    exfalso
    have he : (({ d with state := .drop }.note .ioClosed).setError .connectionDropped).error = none := he
    rw [(setError_eq _ _).2.2] at he; cases he
  | close e =>
    exact (h.log (d' := d.close e) (l := [.frame 0 (.close { error := e }), .ioClosed]) ⟨rfl, rfl, rfl, rfl⟩
      (by show (d.log ++ [_]) ++ [_] = _; rw [List.append_assoc]; rfl)
      (by intro e he; simp at he; rcases he with rfl | rfl <;> trivial)).1
  | poll =>
    refine (h.log (d' := d.poll) (l := d.queue.map fun q => .called (.queued q.1 q.2)) ⟨rfl, rfl, rfl, rfl⟩ rfl ?_).1
    intro e he
    obtain ⟨_, _, rfl⟩ := List.mem_map.1 he
    trivial
  | stop e =>
    cases e with
    | none =>
      exact (h.log (d' := d.note (.called .disconnected)) (l := [_]) ⟨rfl, rfl, rfl, rfl⟩ rfl
        (by intro e he; rw [List.mem_singleton.1 he]; trivial)).1
    | some e =>
      exact (h.log (d' := d.note (.called (.protocolError e))) (l := [_]) ⟨rfl, rfl, rfl, rfl⟩ rfl
        (by intro e he; rw [List.mem_singleton.1 he]; trivial)).1
  | fail e =>
    exfalso
    have he : (d.setError e).error = none := he
    rw [(setError_eq _ _).2.2] at he; cases he

theorem Side.new (cfg : ConnCfg) : Side (Conn.new cfg) where
  reg := Reachable.reg ⟨cfg, [], rfl⟩
  refs := Reachable.refs ⟨cfg, [], rfl⟩
  free := rfl
  full := fun k hk => absurd hk (Nat.not_lt_zero k)
  few := Nat.zero_le _
  count := rfl
  calm := fun s x hx => by cases hx
  obj := fun s x hx => by cases hx
  map := fun s x hx => by cases hx
  noClosing := fun k s h => by cases h
  silent := fun _ _ => rfl
  opening := fun k op h => by cases h
  est := fun s x hx => by cases hx
  refused := fun e h => by cases h

theorem Inv.new (cfg cfg' : ConnCfg) : Inv (Conn.new cfg) (Conn.new cfg') 0 0 where
  left := Side.new cfg
  right := Side.new cfg'
  toRight := ⟨Nat.le_refl _, fun _ _ => rfl, fun j y hy => by cases hy⟩
  toLeft := ⟨Nat.le_refl _, fun _ _ => rfl, fun j y hy => by cases hy⟩
  pair := fun i j x y hx => by cases hx
  loneL := fun i x hx => by cases hx
  loneR := fun i x hx => by cases hx

/-- Both connections are reachable, and what they have posted only grows. -/
theorem Net.step_sides (σ : Net) (st : NStep) (hl : Reachable σ.left) (hr : Reachable σ.right) :
    (Reachable (σ.step st).left ∧ Reachable (σ.step st).right) ∧ ((σ.step st).Undisturbed → σ.Undisturbed) := by
  have key : ∀ {c : Conn} (h : Reachable c) (st : CStep), ((c.step st).error = none → c.error = none) ∧
      ((∀ ch e, (ch, Frame.end_ e) ∉ (c.step st).wire) → ∀ ch e, (ch, Frame.end_ e) ∉ c.wire) ∧
      (((c.step st).wire.filter fun p => p.2.isBegin).length ≤ 65536 → (c.wire.filter fun p => p.2.isBegin).length ≤ 65536) := by
    intro c h st
    have hw := step_wire h st
    refine ⟨step_noError h st, fun hE ch e hm => hE ch e (hw.subset hm), fun hlim => ?_⟩
    exact Nat.le_trans (hw.sublist.filter _).length_le hlim
  have hL : ∀ (st : CStep) (n m : Nat), (Net.mk (σ.left.step st) σ.right n m).Undisturbed → σ.Undisturbed := fun st n m hu =>
    have k := key hl st
    ⟨k.1 hu.leftError, hu.rightError, k.2.1 hu.leftEnd, hu.rightEnd, k.2.2 hu.leftFew, hu.rightFew⟩
  have hR : ∀ (st : CStep) (n m : Nat), (Net.mk σ.left (σ.right.step st) n m).Undisturbed → σ.Undisturbed := fun st n m hu =>
    have k := key hr st
    ⟨hu.leftError, k.1 hu.rightError, hu.leftEnd, k.2.1 hu.rightEnd, hu.leftFew, k.2.2 hu.rightFew⟩
  cases st with
  | left st =>
    unfold Net.step; dsimp only
    split
    · exact ⟨⟨hl.step st, hr⟩, hL st _ _⟩
    · exact ⟨⟨hl, hr⟩, _root_.id⟩
  | right st =>
    unfold Net.step; dsimp only
    split
    · exact ⟨⟨hl, hr.step st⟩, hR st _ _⟩
    · exact ⟨⟨hl, hr⟩, _root_.id⟩
  | arriveRight =>
    unfold Net.step; dsimp only
    split
    · next ch f _ => exact ⟨⟨hl, hr.step (.recv ch f.asReceived)⟩, hR (.recv ch f.asReceived) _ _⟩
    · exact ⟨⟨hl, hr⟩, _root_.id⟩
  | arriveLeft =>
    unfold Net.step; dsimp only
    split
    · next ch f _ => exact ⟨⟨hl.step (.recv ch f.asReceived), hr⟩, hL (.recv ch f.asReceived) _ _⟩
    · exact ⟨⟨hl, hr⟩, _root_.id⟩

theorem Inv.step {σ : Net} (h : Inv σ.left σ.right σ.toRight σ.toLeft) (hu₀ : σ.Undisturbed) (st : NStep)
    (hu : (σ.step st).Undisturbed) : Inv (σ.step st).left (σ.step st).right (σ.step st).toRight (σ.step st).toLeft := by
  cases st with
  | left st =>
    unfold Net.step at hu ⊢; dsimp only at hu ⊢
    split at hu
    · next ho => rw [if_pos ho]; exact (h.swap.own st ho hu₀.leftError hu.leftError hu.leftEnd hu.leftFew).swap
    · next ho => rw [if_neg ho]; exact h
  | right st =>
    unfold Net.step at hu ⊢; dsimp only at hu ⊢
    split at hu
    · next ho => rw [if_pos ho]; exact h.own st ho hu₀.rightError hu.rightError hu.rightEnd hu.rightFew
    · next ho => rw [if_neg ho]; exact h
  | arriveRight =>
    unfold Net.step at hu ⊢; dsimp only at hu ⊢
    cases hw : σ.left.wire[σ.toRight]? with
    | none => exact h
    | some p =>
      rw [hw] at hu
      exact h.arrive hw hu₀.leftEnd hu₀.rightError hu.rightError hu.rightEnd hu.rightFew
  | arriveLeft =>
    unfold Net.step at hu ⊢; dsimp only at hu ⊢
    cases hw : σ.right.wire[σ.toLeft]? with
    | none => exact h
    | some p =>
      rw [hw] at hu
      exact (h.swap.arrive hw hu₀.rightEnd hu₀.leftError hu.leftError hu.leftEnd hu.leftFew).swap

theorem Net.run_snoc (σ : Net) (steps : List NStep) (st : NStep) : σ.run (steps ++ [st]) = (σ.run steps).step st := by
  unfold run; rw [List.foldl_append]; rfl

theorem Net.Fresh.inv {σ₀ : Net} (hf : σ₀.Fresh) (steps : List NStep) :
    (Reachable (σ₀.run steps).left ∧ Reachable (σ₀.run steps).right) ∧ ((σ₀.run steps).Undisturbed →
      Inv (σ₀.run steps).left (σ₀.run steps).right (σ₀.run steps).toRight (σ₀.run steps).toLeft) := by
  induction steps using List.reverseRecOn with
  | nil =>
    obtain ⟨cfg, cfg', rfl⟩ := hf
    exact ⟨⟨⟨cfg, [], rfl⟩, ⟨cfg', [], rfl⟩⟩, fun _ => Inv.new cfg cfg'⟩
  | append_singleton steps st ih =>
    rw [Net.run_snoc]
    obtain ⟨⟨hl, hr⟩, hi⟩ := ih
    obtain ⟨h1, h2⟩ := Net.step_sides (σ₀.run steps) st hl hr
    exact ⟨h1, fun hu => (hi (h2 hu)).step (h2 hu) st hu⟩

/-! ## The frames of a session -/

theorem framesOn_eq {c : Conn} (h : Side c) (n : Nat) (ch : UInt16) : framesOn c n ch = seen c n ch := by
  have hf : framesOn c n ch = ((onChan ch (c.wire.take n)).filter fun f => !f.isBegin).length := by
    unfold framesOn onChan
    generalize c.wire.take n = w
    induction w with
    | nil => rfl
    | cons p w ih =>
      obtain ⟨ch', f⟩ := p
      rw [List.filter_cons, List.filterMap_cons]
      by_cases hc : ch' = ch
      · cases f <;> simp [hc, Frame.speaks, Frame.isBegin] <;> exact ih
      · simp [hc]; exact ih
  rw [hf]
  unfold seen
  have hp := onChan_take ch c.wire n
  rcases h.stream ch with h0 | ⟨b, fs, h0, hfs⟩
  · rw [h0] at hp; rw [List.prefix_nil.1 hp]; rfl
  · rw [h0] at hp
    cases hg : onChan ch (c.wire.take n) with
    | nil => rfl
    | cons f gs =>
      rw [hg] at hp
      obtain ⟨rfl, hp'⟩ := List.cons_prefix_cons.1 hp
      rw [List.filter_cons_of_neg (by simp [Frame.isBegin]), List.tail_cons, List.filter_eq_self.2]
      intro f hf
      rw [(speaks_of_ender (hfs f (hp'.subset hf))).2.1]; rfl

/-- A session is joined to one on the other side, or the other side has not heard the answer yet. -/
theorem Inv.partner {c d : Conn} {n m : Nat} (h : Inv c d n m) {j : Ref} {y : Session} (hy : d.obj? j = some y) :
    (∃ i x, c.obj? i = some x ∧ Joined x y) ∨
    (y.isLocal = false ∧ (∃ op, c.sessions.get y.remoteChannelId.toNat = some (.opening op)) ∧
      ∀ i x, c.obj? i = some x → x.remoteChannelId ≠ UInt16.ofNat y.id) := by
  obtain ⟨b, fs, h1, h2⟩ := h.toRight.begun j y hy
  have hp := onChan_take y.remoteChannelId c.wire n
  rw [h1] at hp
  rcases h.left.chan (ch := y.remoteChannelId) (by intro he; rw [he] at hp; cases List.prefix_nil.1 hp) with
    ⟨op, b', k0, k1, k2⟩ | ⟨i, x, b', k0, k1, k2, k3⟩
  · right
    rw [k2] at hp
    obtain rfl := head_eq hp
    rw [h2] at k1
    refine ⟨by cases hl : y.isLocal <;> simp [hl] at k1 ⊢, ⟨op, k0⟩, fun i x hx he => ?_⟩
    have hj := h.swap.joined hy hx he
    have := h.left.obj i x hx
    have hid : x.id = y.remoteChannelId.toNat := by rw [hj.1, UInt16.toNat_ofNat_of_lt' (h.left.id_lt hx)]
    rw [hid, k0] at this
    cases this
  · left
    exact ⟨i, x, k0, h.joined k0 hy (by rw [k1, UInt16.ofNat_toNat])⟩

/-- When everything has arrived no `Begin` is unanswered. -/
theorem Inv.answered {c d : Conn} (h : Inv c d c.wire.length d.wire.length) (k op : Nat) :
    c.sessions.get k ≠ some (.opening op) := by
  intro hk
  have hlt := Nat.lt_of_lt_of_le (get_lt hk) h.left.few
  obtain ⟨b, hb, hon⟩ := h.left.opening k op hk
  cases hm : d.sessionsMap.get (UInt16.ofNat k) with
  | none =>
    have := h.toRight.unbegun _ hm
    rw [List.take_length, hon] at this; cases this
  | some tok =>
    obtain ⟨s, y, ⟨_, _, _, hy⟩, hc, _⟩ := h.right.reg.map _ _ hm
    obtain ⟨b₁, fs₁, h1, h2⟩ := h.toRight.begun s y hy
    rw [hc, List.take_length, hon] at h1
    cases h1
    rw [hb] at h2
    have hyl : y.isLocal = false := by cases hl : y.isLocal <;> simp [hl] at h2 ⊢
    obtain ⟨b', h3, h4⟩ := h.right.est s y hy
    rw [hyl, hc] at h3
    cases hm' : c.sessionsMap.get (UInt16.ofNat y.id) with
    | none =>
      have := h.toLeft.unbegun _ hm'
      rw [List.take_length, h4] at this; cases this
    | some tok' =>
      obtain ⟨t, x, ⟨_, _, _, hx⟩, hc', _⟩ := h.left.reg.map _ _ hm'
      have hj := h.swap.joined hy hx hc'
      have hid := chan_inj (h.left.id_lt hx) hlt (hj.1.symm.trans hc)
      have := h.left.obj t x hx
      rw [hid, hk] at this
      cases this

end Amqp.Rt
