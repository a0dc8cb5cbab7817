import Verif.Lemmas.NetWire
/-!
# One side of an undisturbed exchange

No slot is ever given up, so slot, session and channel correspond.
-/

namespace Amqp.Rt

theorem absorb_same (s : Ref) (evs : List Ev) (c : Conn) (h : ∀ k, Ev.closeSession k ∉ evs) :
    (evs.foldl (Conn.absorb s) c).sessions = c.sessions := by
  induction evs generalizing c with
  | nil => rfl
  | cons e evs ih =>
    rw [List.foldl_cons, ih _ fun k hk => h k (by simp [hk])]
    cases e
    case closeSession k => exact absurd (by simp) (h k)
    all_goals rfl

namespace Conn

structure Side (c : Conn) : Prop where
  reg : c.Reg
  refs : c.Refs
  free : c.sessions.free = []
  full : ∀ k, k < c.sessions.slots.length → ∃ st, c.sessions.get k = some st
  few : c.sessions.slots.length ≤ 65536
  count : (c.wire.filter fun p => p.2.isBegin).length = c.sessions.slots.length
  calm : ∀ s x, c.obj? s = some x → x.Calm
  obj : ∀ s x, c.obj? s = some x → c.sessions.get x.id = some (.established s)
  map : ∀ s x, c.obj? s = some x → c.sessionsMap.get x.remoteChannelId = some x.id
  noClosing : ∀ k s, c.sessions.get k ≠ some (.closing s)
  silent : ∀ ch : UInt16, c.sessions.slots.length ≤ ch.toNat → onChan ch c.wire = []
  opening : ∀ k op, c.sessions.get k = some (.opening op) →
    ∃ b : Begin, b.remoteChannel = none ∧ onChan (UInt16.ofNat k) c.wire = [.begin_ b]
  est : ∀ s x, c.obj? s = some x → ∃ b : Begin,
    b.remoteChannel = (if x.isLocal then none else some x.remoteChannelId) ∧
      onChan (UInt16.ofNat x.id) c.wire = .begin_ b :: posted x.log
  refused : ∀ e, CEv.refused e ∉ c.log

theorem get_lt {s : Slab α} {k : Nat} {a : α} (h : s.get k = some a) : k < s.slots.length := by
  rw [Slab.get_eq_some] at h
  exact (List.getElem?_eq_some_iff.1 h).1

theorem Side.id_lt {c : Conn} (h : Side c) {s : Ref} {x : Session} (hx : c.obj? s = some x) : x.id < 65536 :=
  Nat.lt_of_lt_of_le (get_lt (h.obj s x hx)) h.few

/-- What is on the wire on a channel. -/
theorem Side.chan {c : Conn} (h : Side c) {ch : UInt16} (hc : onChan ch c.wire ≠ []) :
    (∃ op, ∃ b : Begin, c.sessions.get ch.toNat = some (.opening op) ∧ b.remoteChannel = none ∧ onChan ch c.wire = [.begin_ b]) ∨
    ∃ s x, ∃ b : Begin, c.obj? s = some x ∧ x.id = ch.toNat ∧
      b.remoteChannel = (if x.isLocal then none else some x.remoteChannelId) ∧ onChan ch c.wire = .begin_ b :: posted x.log := by
  have hlt : ch.toNat < c.sessions.slots.length := Nat.lt_of_not_le fun hle => hc (h.silent ch hle)
  obtain ⟨st, hg⟩ := h.full _ hlt
  have hof : UInt16.ofNat ch.toNat = ch := UInt16.ofNat_toNat
  cases st with
  | opening op =>
    obtain ⟨b, h1, h2⟩ := h.opening _ _ hg
    rw [hof] at h2
    exact .inl ⟨op, b, hg, h1, h2⟩
  | established s =>
    obtain ⟨x, hx, hid⟩ := h.reg.slab _ _ _ hg rfl
    obtain ⟨b, h1, h2⟩ := h.est _ _ hx
    rw [hid, hof] at h2
    exact .inr ⟨s, x, b, hx, hid, h1, h2⟩
  | closing s => exact absurd hg (h.noClosing _ _)

theorem Calm.posted {x : Session} (h : x.Calm) {f : Frame} (hf : f ∈ posted x.log) : Ev.ender (.frame f) = false := by
  unfold Amqp.Rt.posted at hf
  obtain ⟨e, he, h'⟩ := List.mem_filterMap.1 hf
  cases e <;> simp at h'
  subst h'
  exact h.ev he

theorem speaks_of_ender {f : Frame} (h : Ev.ender (.frame f) = false) : f.speaks = true ∧ f.isBegin = false ∧ f.forSession = true ∧ ∀ e, f ≠ .end_ e := by
  cases f <;> first | cases h; done | exact ⟨rfl, rfl, rfl, fun _ => nofun⟩

/-- The first frame on a channel is a `Begin`, and the only one; the others are about links. -/
theorem Side.stream {c : Conn} (h : Side c) (ch : UInt16) : onChan ch c.wire = [] ∨
    ∃ (b : Begin) (fs : List Frame), onChan ch c.wire = .begin_ b :: fs ∧ ∀ f ∈ fs, Ev.ender (.frame f) = false := by
  by_cases hc : onChan ch c.wire = []
  · exact .inl hc
  · right
    rcases h.chan hc with ⟨_, b, _, _, hb⟩ | ⟨s, x, b, hx, _, _, hb⟩
    · exact ⟨b, [], hb, by simp⟩
    · exact ⟨b, _, hb, fun f hf => Calm.posted (h.calm _ _ hx) hf⟩

/-- Nothing but notes and control frames. -/
theorem Side.quiet {c d : Conn} (h : Side c) (hs : SameButLog c d) (hreg : d.Reg) (hrefs : d.Refs) {w}
    (hw : d.wire = c.wire ++ w) (h1 : ∀ ch, onChan ch w = []) (h2 : w.filter (fun p => p.2.isBegin) = [])
    (h3 : ∀ e, CEv.refused e ∉ d.log) : Side d := by
  obtain ⟨e1, e2, e3, e4⟩ := hs
  have ho : ∀ s, d.obj? s = c.obj? s := fun s => by unfold obj?; rw [e1]
  have hch : ∀ ch, onChan ch d.wire = onChan ch c.wire := fun ch => by rw [hw, onChan_append, h1, List.append_nil]
  constructor
  · exact hreg
  · exact hrefs
  · rw [e2]; exact h.free
  · rw [e2]; exact h.full
  · rw [e2]; exact h.few
  · rw [e2, hw, List.filter_append, h2, List.append_nil]; exact h.count
  · intro s x hx; rw [ho] at hx; exact h.calm s x hx
  · intro s x hx; rw [ho] at hx; rw [e2]; exact h.obj s x hx
  · intro s x hx; rw [ho] at hx; rw [e3]; exact h.map s x hx
  · rw [e2]; exact h.noClosing
  · rw [e2]; intro ch hc; rw [hch]; exact h.silent ch hc
  · rw [e2]; intro k op hk; rw [hch]; exact h.opening k op hk
  · intro s x hx; rw [ho] at hx; rw [hch]; exact h.est s x hx
  · exact h3

/-- A session takes a step that does not end it. -/
theorem Side.session {c : Conn} (h : Side c) {s : Ref} {x : Session} (hx : c.obj? s = some x) (st : Step) (hst : st.ends = false)
    (hE : ∀ ch e, (ch, Frame.end_ e) ∉ (c.onSession s st).wire) :
    Side (c.onSession s st) ∧ (c.onSession s st).objs = c.objs.set s (x.step st) ∧
      (c.onSession s st).sessionsMap = c.sessionsMap ∧ c.wire <+: (c.onSession s st).wire := by
  obtain ⟨evs, hevs, h1, h2, _, _, _, _, _, h8, _, _⟩ := onSession_eq st hx
  have m : CMicro c (c.onSession s st) := .session s x st hx
  have hobj := obj?_set hx h1
  have hchan := chanOf_set (st := st) hx h1
  have hlog := wire_grow h.refs (fun t _ => hchan t) h8
  have hid : (c.onSession s st).chanOf s = some (UInt16.ofNat x.id) := by
    rw [hchan]; unfold chanOf; rw [hx]; rfl
  rw [wireOf_ses hid] at hlog
  have hcx := h.calm s x hx
  obtain ⟨f1, f2, _, f4⟩ := Session.step_fixed x st
  have hc : (x.step st).Calm := by
    rcases Session.step_calm hcx st hst with hc | ⟨e, he⟩
    · exact hc
    · rw [hevs] at he
      rcases List.mem_append.1 he with he | he
      · exact absurd (hcx.ev he) (by simp [Ev.ender])
      · exfalso
        refine hE (UInt16.ofNat x.id) e ?_
        rw [hlog]
        refine List.mem_append_right _ (List.mem_map.2 ⟨_, ?_, rfl⟩)
        exact List.mem_filterMap.2 ⟨_, he, rfl⟩
  have hev : ∀ e ∈ evs, e.ender = false := fun e he => hc.ev (by rw [hevs]; exact List.mem_append_right _ he)
  have hpost : ∀ f ∈ posted evs, Ev.ender (.frame f) = false := by
    intro f hf
    unfold posted at hf
    obtain ⟨e, he, h'⟩ := List.mem_filterMap.1 hf
    cases e <;> simp at h'
    subst h'
    exact hev _ he
  have hsess : (c.onSession s st).sessions = c.sessions := by
    have hd : c.onSession s st = evs.foldl (absorb s) { c with objs := c.objs.set s (x.step st) } := by
      unfold onSession; rw [hx]; dsimp only
      rw [hevs, List.drop_left]
    rw [hd, absorb_same]
    intro k hk
    have := hev _ hk
    cases this
  have hon : ∀ ch, onChan ch (c.onSession s st).wire = onChan ch c.wire ++ if UInt16.ofNat x.id = ch then posted evs else [] := by
    intro ch
    rw [hlog, onChan_append, onChan_map _ _ _ fun f hf => (speaks_of_ender (hpost f hf)).1]
  have hne : ∀ k, k ≠ x.id → k < 65536 → onChan (UInt16.ofNat k) (c.onSession s st).wire = onChan (UInt16.ofNat k) c.wire := by
    intro k hk hlt
    rw [hon, if_neg, List.append_nil]
    intro he
    exact hk (chan_inj (h.id_lt hx) hlt he).symm
  refine ⟨?_, h1, h2, ⟨_, hlog.symm⟩⟩
  have hgx := h.obj s x hx
  constructor
  · exact m.reg h.reg
  · exact (m.wire h.refs).1
  · rw [hsess]; exact h.free
  · rw [hsess]; exact h.full
  · rw [hsess]; exact h.few
  · rw [hsess, hlog, List.filter_append]
    have : ((posted evs).map (UInt16.ofNat x.id, ·)).filter (fun p => p.2.isBegin) = [] := by
      rw [List.filter_eq_nil_iff]
      intro p hp
      obtain ⟨f, hf, rfl⟩ := List.mem_map.1 hp
      rw [(speaks_of_ender (hpost f hf)).2.1]
      exact Bool.false_ne_true
    rw [this, List.append_nil]; exact h.count
  · intro t y hy
    rw [hobj] at hy
    split at hy
    · cases hy; exact hc
    · exact h.calm t y hy
  · intro t y hy
    rw [hobj] at hy
    rw [hsess]
    split at hy
    · next ht => cases hy; rw [f1, ht]; exact hgx
    · exact h.obj t y hy
  · intro t y hy
    rw [hobj] at hy
    rw [h2]
    split at hy
    · next ht => cases hy; rw [f1, f2]; exact h.map s x hx
    · exact h.map t y hy
  · rw [hsess]; exact h.noClosing
  · rw [hsess]
    intro ch hle
    rw [hon, h.silent ch hle, if_neg]
    · rfl
    · rintro rfl
      rw [UInt16.toNat_ofNat_of_lt' (h.id_lt hx)] at hle
      exact absurd (get_lt hgx) (Nat.not_lt.2 hle)
  · rw [hsess]
    intro k op hk
    rw [hne k _ (Nat.lt_of_lt_of_le (get_lt hk) h.few)]
    · exact h.opening k op hk
    · rintro rfl; rw [hgx] at hk; cases hk
  · intro t y hy
    rw [hobj] at hy
    split at hy
    · cases hy
      obtain ⟨b, b1, b2⟩ := h.est s x hx
      refine ⟨b, by rw [f2, f4]; exact b1, ?_⟩
      rw [f1, hon, if_pos rfl, b2, hevs, posted_append]
      rfl
    · next ht =>
      obtain ⟨b, b1, b2⟩ := h.est t y hy
      refine ⟨b, b1, ?_⟩
      rw [hne _ _ (h.id_lt hy)]
      · exact b2
      · intro he
        have := h.obj t y hy
        rw [he, hgx] at this
        cases this
        exact ht rfl
  · intro e he
    rw [h8] at he
    rcases List.mem_append.1 he with he | he
    · exact h.refused e he
    · obtain ⟨_, _, h⟩ := List.mem_map.1 he; cases h

/-! ## New slots and new sessions -/

theorem Side.vacant {c : Conn} (h : Side c) : c.sessions.vacantKey = c.sessions.slots.length := by
  unfold Slab.vacantKey; rw [h.free]; rfl

theorem Side.insert {c : Conn} (h : Side c) (a : SesState) : c.sessions.insert a = ⟨c.sessions.slots ++ [some a], []⟩ := by
  unfold Slab.insert; rw [h.free]

theorem get_snoc (s : Slab α) (a : α) (k : Nat) :
    (⟨s.slots ++ [some a], []⟩ : Slab α).get k = if k = s.slots.length then some a else s.get k := by
  unfold Slab.get
  dsimp only
  by_cases hk : k = s.slots.length
  · subst hk; simp
  · rw [if_neg hk]
    rcases Nat.lt_or_ge k s.slots.length with hl | hl
    · rw [List.getElem?_append_left hl]
    · rw [List.getElem?_eq_none hl, List.getElem?_eq_none]
      rw [List.length_append, List.length_singleton]
      omega

/-- The application begins a session. -/
theorem Side.open_ {c d : Conn} (h : Side c) (hreg : d.Reg) (hrefs : d.Refs) (ho : d.objs = c.objs) {op : Ref}
    (hs : d.sessions = c.sessions.insert (.opening op)) (hm : d.sessionsMap = c.sessionsMap) {b : Begin}
    (hb : b.remoteChannel = none) (hw : d.wire = c.wire ++ [(UInt16.ofNat c.sessions.vacantKey, .begin_ b)])
    (hlim : (d.wire.filter fun p => p.2.isBegin).length ≤ 65536) (h3 : ∀ e, CEv.refused e ∉ d.log) : Side d := by
  rw [h.vacant] at hw
  rw [h.insert] at hs
  have hcount : (d.wire.filter fun p => p.2.isBegin).length = c.sessions.slots.length + 1 := by
    rw [hw, List.filter_append, List.length_append, h.count]; rfl
  have hlt : c.sessions.slots.length < 65536 := by omega
  have hobj : ∀ s, d.obj? s = c.obj? s := fun s => by unfold obj?; rw [ho]
  have hget : ∀ k, d.sessions.get k = if k = c.sessions.slots.length then some (.opening op) else c.sessions.get k := by
    intro k; rw [hs]; exact get_snoc _ _ _
  have hlen : d.sessions.slots.length = c.sessions.slots.length + 1 := by rw [hs]; simp
  have hon : ∀ ch, ch ≠ UInt16.ofNat c.sessions.slots.length → onChan ch d.wire = onChan ch c.wire := by
    intro ch hc
    rw [hw, onChan_append, onChan_one, if_neg fun hh => hc hh.1.symm, List.append_nil]
  have hne : ∀ k, k < c.sessions.slots.length → onChan (UInt16.ofNat k) d.wire = onChan (UInt16.ofNat k) c.wire := by
    intro k hk
    refine hon _ fun he => ?_
    have := chan_inj (Nat.lt_trans hk hlt) hlt he
    omega
  constructor
  · exact hreg
  · exact hrefs
  · rw [hs]
  · intro k hk
    rw [hget]
    split
    · exact ⟨_, rfl⟩
    · exact h.full k (by omega)
  · omega
  · omega
  · intro s x hx; rw [hobj] at hx; exact h.calm s x hx
  · intro s x hx
    rw [hobj] at hx
    have := h.obj s x hx
    rw [hget, if_neg (Nat.ne_of_lt (get_lt this))]; exact this
  · intro s x hx; rw [hobj] at hx; rw [hm]; exact h.map s x hx
  · intro k s hk
    rw [hget] at hk
    split at hk
    · cases hk
    · exact h.noClosing k s hk
  · intro ch hle
    rw [hon]
    · exact h.silent ch (by omega)
    · rintro rfl
      rw [UInt16.toNat_ofNat_of_lt' hlt] at hle
      omega
  · intro k op' hk
    rw [hget] at hk
    split at hk
    · next he =>
      refine ⟨b, hb, ?_⟩
      rw [he, hw, onChan_append, h.silent _ (Nat.le_of_eq (UInt16.toNat_ofNat_of_lt' hlt).symm), onChan_one, if_pos ⟨rfl, rfl⟩]
      rfl
    · rw [hne k (get_lt hk)]; exact h.opening k op' hk
  · intro s x hx
    rw [hobj] at hx
    rw [hne _ (get_lt (h.obj s x hx))]
    exact h.est s x hx
  · exact h3

/-- A session is made for the peer's `Begin`. -/
theorem Side.register {c d : Conn} (h : Side c) (hreg : d.Reg) (hrefs : d.Refs) {mfs : UInt32} {ch : UInt16} {b₀ b : Begin}
    (ho : d.objs = c.objs ++ [Session.new c.sessions.vacantKey false mfs ch b₀])
    (hs : d.sessions = c.sessions.insert (.established c.objs.length))
    (hm : d.sessionsMap = c.sessionsMap.insert ch c.sessions.vacantKey)
    (hnew : ∀ s x, c.obj? s = some x → x.remoteChannelId ≠ ch)
    (hb : b.remoteChannel = some ch) (hw : d.wire = c.wire ++ [(UInt16.ofNat c.sessions.vacantKey, .begin_ b)])
    (hlim : (d.wire.filter fun p => p.2.isBegin).length ≤ 65536) (h3 : ∀ e, CEv.refused e ∉ d.log) : Side d := by
  rw [h.vacant] at hw hm ho
  rw [h.insert] at hs
  have hcount : (d.wire.filter fun p => p.2.isBegin).length = c.sessions.slots.length + 1 := by
    rw [hw, List.filter_append, List.length_append, h.count]; rfl
  have hlt : c.sessions.slots.length < 65536 := by omega
  have hobj := obj?_append ho
  have hget : ∀ k, d.sessions.get k = if k = c.sessions.slots.length then some (.established c.objs.length) else c.sessions.get k := by
    intro k; rw [hs]; exact get_snoc _ _ _
  have hlen : d.sessions.slots.length = c.sessions.slots.length + 1 := by rw [hs]; simp
  have hon : ∀ ch, ch ≠ UInt16.ofNat c.sessions.slots.length → onChan ch d.wire = onChan ch c.wire := by
    intro ch hc
    rw [hw, onChan_append, onChan_one, if_neg fun hh => hc hh.1.symm, List.append_nil]
  have hne : ∀ k, k < c.sessions.slots.length → onChan (UInt16.ofNat k) d.wire = onChan (UInt16.ofNat k) c.wire := by
    intro k hk
    refine hon _ fun he => ?_
    have := chan_inj (Nat.lt_trans hk hlt) hlt he
    omega
  constructor
  · exact hreg
  · exact hrefs
  · rw [hs]
  · intro k hk
    rw [hget]
    split
    · exact ⟨_, rfl⟩
    · exact h.full k (by omega)
  · omega
  · omega
  · intro s x hx
    rw [hobj] at hx
    split at hx
    · cases hx; exact Session.calm_new _ _ _ _ _
    · exact h.calm s x hx
  · intro s x hx
    rw [hobj] at hx
    rw [hget]
    split at hx
    · next he => cases hx; rw [if_pos (by rfl), he]
    · have := h.obj s x hx
      rw [if_neg (Nat.ne_of_lt (get_lt this))]; exact this
  · intro s x hx
    rw [hobj] at hx
    rw [hm, Map.get_insert]
    split at hx
    · cases hx; rw [if_pos (by rfl)]; rfl
    · rw [if_neg (hnew s x hx).symm]; exact h.map s x hx
  · intro k s hk
    rw [hget] at hk
    split at hk
    · cases hk
    · exact h.noClosing k s hk
  · intro ch hle
    rw [hon]
    · exact h.silent ch (by omega)
    · rintro rfl
      rw [UInt16.toNat_ofNat_of_lt' hlt] at hle
      omega
  · intro k op' hk
    rw [hget] at hk
    split at hk
    · cases hk
    · rw [hne k (get_lt hk)]; exact h.opening k op' hk
  · intro s x hx
    rw [hobj] at hx
    split at hx
    · cases hx
      refine ⟨b, hb, ?_⟩
      show onChan (UInt16.ofNat c.sessions.slots.length) d.wire = .begin_ b :: []
      rw [hw, onChan_append, h.silent _ (Nat.le_of_eq (UInt16.toNat_ofNat_of_lt' hlt).symm), onChan_one, if_pos ⟨rfl, rfl⟩]
      rfl
    · rw [hne _ (get_lt (h.obj s x hx))]
      exact h.est s x hx
  · exact h3

/-- A session is made for the peer's answer. -/
theorem Side.complete {c d : Conn} (h : Side c) (hreg : d.Reg) (hrefs : d.Refs) {mfs : UInt32} {ch : UInt16} {b₀ : Begin}
    {tok : Nat} {op : Ref} (hg : c.sessions.get tok = some (.opening op))
    (ho : d.objs = c.objs ++ [Session.new tok true mfs ch b₀])
    (hs : d.sessions = c.sessions.set tok (.established c.objs.length))
    (hm : d.sessionsMap = c.sessionsMap.insert ch tok)
    (hnew : ∀ s x, c.obj? s = some x → x.remoteChannelId ≠ ch)
    (hw : d.wire = c.wire) (h3 : ∀ e, CEv.refused e ∉ d.log) : Side d := by
  have hcont : c.sessions.contains tok = true := by simp [Slab.contains, hg]
  have hobj := obj?_append ho
  have hget : ∀ k, d.sessions.get k = if tok = k then some (.established c.objs.length) else c.sessions.get k := by
    intro k; rw [hs, Slab.get_set _ _ _ _ hcont]
  have hlen : d.sessions.slots.length = c.sessions.slots.length := by
    rw [hs]; unfold Slab.set; rw [if_pos hcont]; simp
  have hidne : ∀ s x, c.obj? s = some x → tok ≠ x.id := by
    rintro s x hx rfl
    rw [h.obj s x hx] at hg; cases hg
  constructor
  · exact hreg
  · exact hrefs
  · rw [hs]; unfold Slab.set; rw [if_pos hcont]; exact h.free
  · intro k hk
    rw [hget]
    split
    · exact ⟨_, rfl⟩
    · exact h.full k (by omega)
  · rw [hlen]; exact h.few
  · rw [hlen, hw]; exact h.count
  · intro s x hx
    rw [hobj] at hx
    split at hx
    · cases hx; exact Session.calm_new _ _ _ _ _
    · exact h.calm s x hx
  · intro s x hx
    rw [hobj] at hx
    rw [hget]
    split at hx
    · next he => cases hx; rw [if_pos (by rfl), he]
    · rw [if_neg (hidne s x hx)]; exact h.obj s x hx
  · intro s x hx
    rw [hobj] at hx
    rw [hm, Map.get_insert]
    split at hx
    · cases hx; rw [if_pos (by rfl)]; rfl
    · rw [if_neg (hnew s x hx).symm]; exact h.map s x hx
  · intro k s hk
    rw [hget] at hk
    split at hk
    · cases hk
    · exact h.noClosing k s hk
  · rw [hlen, hw]; exact h.silent
  · intro k op' hk
    rw [hget] at hk
    split at hk
    · cases hk
    · rw [hw]; exact h.opening k op' hk
  · intro s x hx
    rw [hobj] at hx
    rw [hw]
    split at hx
    · cases hx
      obtain ⟨b, hb, hon⟩ := h.opening tok op hg
      exact ⟨b, hb, hon⟩
    · exact h.est s x hx
  · exact h3

end Conn
end Amqp.Rt
