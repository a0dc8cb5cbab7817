import Verif.Lemmas.SessionSent
import Verif.Lemmas.Transfer
import Verif.Lemmas.Claims
import Verif.Spec.Examples
/-! The sending side of a session: C20–C25. -/

namespace Amqp.Rt
open Session Examples

/-! ## C20 -/

/-- **C20** The credit of a sender link, in every execution.  `init` is the delivery count the link began with.

A send is charged when it is let past the credit check (`taken`) and goes out (`begunOn`) then or, if the session window is
closed, later.  The delivery count is the number of sends charged; at no time have more gone out than were charged;
nothing is charged before the first grant; and between a grant and the next no more is charged than the grant allows,
which the code computes as delivery-count + credit - (its own count) modulo `2^32`. -/
theorem c20_sends_within_credit (s : Session) (hs : Reachable s) (r : Ref) (l : Snd) (hl : s.snd? r = some l) :
    ∃ init : UInt32,
      l.deliveryCount = init + UInt32.ofNat (taken r s.log) ∧
      (∀ pre post, s.log = pre ++ post → begunOn r pre ≤ taken r pre) ∧
      (∀ pre post, s.log = pre ++ post → (∀ e ∈ pre, e.grantsTo r = false) → taken r pre = 0) ∧
      (∀ pre f c mid post, s.log = pre ++ .applied r f :: (mid ++ post) → f.linkCredit = some c →
        (∀ e ∈ mid, e.grantsTo r = false) →
        taken r mid ≤ (f.deliveryCount.getD 0 + c - (init + UInt32.ofNat (taken r pre))).toNat) := by
  obtain ⟨init, ht, hg⟩ := hs.creditInv r (l.deliveryCount, l.linkCredit) (by simp [meter, hl])
  refine ⟨init, ?_, fun pre post h => hs.begunOn_le r pre post h, ?_, ?_⟩
  · rw [← track_count, ht]
  · intro pre post h hq
    have := (Guarded.bound (r := r) (init := init) [] pre post (by rw [List.nil_append, ← h]; exact hg) hq).1
    simpa [track] using this
  · intro pre f c mid post h hc hq
    have hsplit : s.log = (pre ++ [.applied r f]) ++ mid ++ post := by rw [h]; simp
    have := (Guarded.bound (r := r) (init := init) (pre ++ [.applied r f]) mid post (by rw [← hsplit]; exact hg) hq).1
    rw [track_append] at this
    simpa [see, hc, track_count] using this

theorem limit_toNat {init c : UInt32} {d n : Nat} (h₁ : d ≤ n) (h₂ : n ≤ d + c.toNat) :
    (init + UInt32.ofNat d + c - (init + UInt32.ofNat n)).toNat = d + c.toNat - n := by
  have hn : UInt32.ofNat n = UInt32.ofNat d + UInt32.ofNat (n - d) := by
    rw [← UInt32.ofNat_add]; congr 1; omega
  have hlt := c.toNat_lt
  rw [hn, ← UInt32.add_assoc, show init + UInt32.ofNat d + c - (init + UInt32.ofNat d + UInt32.ofNat (n - d))
      = c - UInt32.ofNat (n - d) by
    generalize init + UInt32.ofNat d = a
    generalize UInt32.ofNat (n - d) = b
    apply UInt32.toNat_inj.mp
    have := a.toNat_lt
    have := b.toNat_lt
    simp only [UInt32.toNat_sub, UInt32.toNat_add]
    omega]
  have h₃ : (UInt32.ofNat (n - d)).toNat = n - d := by
    rw [UInt32.toNat_ofNat']; apply Nat.mod_eq_of_lt; omega
  rw [UInt32.toNat_sub_of_le _ _ (by rw [UInt32.le_iff_toNat_le, h₃]; omega), h₃]
  omega

/-- **C20** With a peer that has received `d` of the deliveries when it grants `c` more, and that does not take back credit
for deliveries already on their way, no more than `d + c` deliveries have gone out on the link until the next grant.

Missing for the full property: a peer that takes credit back; see `c20_revoked_credit_wraps`. -/
theorem c20_total_sent_partial (s : Session) (hs : Reachable s) (r : Ref) (l : Snd) (hl : s.snd? r = some l) :
    ∃ init : UInt32,
      l.deliveryCount = init + UInt32.ofNat (taken r s.log) ∧
      ∀ pre f (d : Nat) c mid post, s.log = pre ++ .applied r f :: (mid ++ post) → f.linkCredit = some c →
        f.deliveryCount.getD 0 = init + UInt32.ofNat d → d ≤ taken r pre → taken r pre ≤ d + c.toNat →
        (∀ e ∈ mid, e.grantsTo r = false) → begunOn r (pre ++ .applied r f :: mid) ≤ d + c.toNat := by
  obtain ⟨init, h₁, h₂, _, h₃⟩ := c20_sends_within_credit s hs r l hl
  refine ⟨init, h₁, ?_⟩
  intro pre f d c mid post h hc hd hle hge hq
  have hb := h₃ pre f c mid post h hc hq
  rw [hd, limit_toNat hle hge] at hb
  have hpre := h₂ (pre ++ .applied r f :: mid) post (by rw [h]; simp)
  rw [taken_append, show taken r (.applied r f :: mid) = taken r mid from by simp [taken]] at hpre
  omega

/-- Credit 2 was granted and the third send waits. -/
def creditDemo : Session := (start 10).run (attachOne ++ flow (aFlow (some 7) (some 0) (some 2) (some 1) 10) ++
  [.send (aSend 0 [1] false), .send (aSend 0 [2] false), .send (aSend 0 [3] false)])

example : Reachable creditDemo := reachable _ _ _
example : begunOn 0 creditDemo.log = 2 ∧ taken 0 creditDemo.log = 2 ∧ (creditDemo.snd? 0).map Snd.pending = some [2] := by
  decide

/-- **C20** is violated when the receiver takes credit back.  It grants 2, the sender sends one, the receiver sets the
credit to 0 without having received it (allowed by AMQP 1.0 §2.6.7, "the receiver ... can reduce ... credit"): the sender
computes `0 + 0 - 1`, and may now send 4294967295 deliveries. -/
theorem c20_revoked_credit_wraps :
    ∃ s : Session, Reachable s ∧ (s.snd? 0).map Snd.linkCredit = some 0xffffffff ∧
      s.log.getLast? = some (.applied 0 (aFlow (some 7) (some 0) (some 0) (some 1) 10)) :=
  ⟨_, reachable 10 65535 (attachOne ++ flow (aFlow (some 7) (some 0) (some 2) (some 1) 10) ++
    [.send (aSend 0 [1] false)] ++ flow (aFlow (some 7) (some 0) (some 0) (some 1) 10)), by decide, rfl⟩

/-! ## C21 -/

/-- **C21** After a flow with delivery count `dc` and credit `c` the remaining credit is `dc + c - count` in serial
arithmetic, the count is unchanged and so is every other link. -/
theorem c21_credit_from_flow (s : Session) (r : Ref) (f : Flow) (l : Snd) (c : UInt32) (hl : s.snd? r = some l)
    (hc : f.linkCredit = some c) :
    (∃ l', (s.applyFlow r f).snd? r = some l' ∧ l'.linkCredit = f.deliveryCount.getD 0 + c - l.deliveryCount ∧
      l'.deliveryCount = l.deliveryCount) ∧
    (∀ r', r' ≠ r → (s.applyFlow r f).snd? r' = s.snd? r') := by
  refine ⟨⟨l.flow f, ?_, ?_, ?_⟩, ?_⟩
  · rw [applyFlow_snd?, if_pos rfl, hl]; rfl
  · simp [Snd.flow, hc]
  · simp [Snd.flow, hc]
  · intro r' h; rw [applyFlow_snd?, if_neg (Ne.symm h)]

/-- **C21** If the peer has counted every delivery, the remaining credit is the credit it granted. -/
theorem c21_credit_in_step (s : Session) (r : Ref) (f : Flow) (l : Snd) (c : UInt32) (hl : s.snd? r = some l)
    (hc : f.linkCredit = some c) (hd : f.deliveryCount.getD 0 = l.deliveryCount) :
    ∃ l', (s.applyFlow r f).snd? r = some l' ∧ l'.linkCredit = c := by
  obtain ⟨⟨l', h₁, h₂, _⟩, _⟩ := c21_credit_from_flow s r f l c hl hc
  refine ⟨l', h₁, ?_⟩
  rw [h₂, hd]
  apply UInt32.toNat_inj.mp
  have := c.toNat_lt
  simp only [UInt32.toNat_sub, UInt32.toNat_add]
  have := l.deliveryCount.toNat_lt
  omega

/-- **C21** If `k` deliveries the peer has not counted are on their way, and the grant covers them, the rest of the grant
remains, wherever the counters are. -/
theorem c21_credit_behind (s : Session) (r : Ref) (f : Flow) (l : Snd) (c : UInt32) (k : Nat) (hl : s.snd? r = some l)
    (hc : f.linkCredit = some c) (hd : l.deliveryCount = f.deliveryCount.getD 0 + UInt32.ofNat k) (hk : k ≤ c.toNat) :
    ∃ l', (s.applyFlow r f).snd? r = some l' ∧ l'.linkCredit.toNat = c.toNat - k := by
  obtain ⟨⟨l', h₁, h₂, _⟩, _⟩ := c21_credit_from_flow s r f l c hl hc
  refine ⟨l', h₁, ?_⟩
  have := limit_toNat (init := f.deliveryCount.getD 0) (c := c) (d := 0) (n := k) (by omega) (by omega)
  rw [h₂, hd]
  simpa using this

/-- **C21** A flow without link credit leaves the links alone. -/
theorem c21_no_credit_no_change (s : Session) (r : Ref) (f : Flow) (hc : f.linkCredit = none) :
    (s.applyFlow r f).snds = s.snds := by
  simp [applyFlow, hc, note]

example : (creditDemo.snd? 0).map Snd.deliveryCount = some 2 ∧
    ((creditDemo.applyFlow 0 (aFlow (some 7) (some 1) (some 5) none 10)).snd? 0).map Snd.linkCredit = some 4 := by decide

/-! ## C22, C23 -/

theorem ofNat_succ_inj {i j : Nat} (hi : i < j) (hj : j < i + 2 ^ 32) : UInt32.ofNat (i + 1) ≠ UInt32.ofNat (j + 1) := by
  intro h
  have := congrArg UInt32.toNat h
  simp only [UInt32.toNat_ofNat'] at this
  omega

/-- **C22** The ids on the transfer frames of a session are 1, 2, 3, … (modulo `2^32`) in the order of the frames, one for
every delivery that went out. -/
theorem c22_ids_consecutive (s : Session) (hs : Reachable s) :
    sentIds s.log = (List.range (begun s.log)).map fun i => UInt32.ofNat (i + 1) := by
  obtain ⟨n, h₁, _⟩ := hs.ids
  obtain ⟨ds, h₂, h₃, h₄⟩ := hs.sentInv
  have hlen : (sentIds s.log).length = begun s.log := by
    rw [begun_eq_starts, h₃, List.length_map]
    have : ∀ d ∈ ds, (d.frames.filterMap fun t => t.head.deliveryId).length = 1 := by
      intro d hd
      obtain ⟨x, l, tag, _, _, _, _, hf⟩ := h₄ d hd
      have := sentIds_transferFrames s.maxFrameSize (UInt32.ofNat l.id) d.id tag x.req.body x.req.settled x.req.format
      rw [hf, sentIds, sentTransfers_frames] at this
      rw [this]; rfl
    rw [sentIds, h₂]
    clear h₂ h₃ h₄
    induction ds with
    | nil => rfl
    | cons d ds ih =>
      rw [List.map_cons, List.flatten_cons, List.filterMap_append, List.length_append, this d (by simp),
        ih fun x hx => this x (by simp [hx])]
      simp; omega
  rw [h₁] at hlen ⊢
  rw [List.length_map, List.length_range] at hlen
  rw [hlen]

/-- **C22** Two deliveries fewer than `2^32` apart have different ids. -/
theorem c22_ids_distinct (s : Session) (hs : Reachable s) (i j : Nat) (a b : UInt32) (hij : i < j) (hj : j < i + 2 ^ 32)
    (ha : (sentIds s.log)[i]? = some a) (hb : (sentIds s.log)[j]? = some b) : a ≠ b := by
  rw [c22_ids_consecutive s hs, List.getElem?_map] at ha hb
  obtain ⟨i', hi', rfl⟩ := Option.map_eq_some_iff.mp ha
  obtain ⟨j', hj', rfl⟩ := Option.map_eq_some_iff.mp hb
  rw [List.getElem?_eq_some_iff] at hi' hj'
  obtain ⟨_, rfl⟩ := hi'
  obtain ⟨_, rfl⟩ := hj'
  simpa using ofNat_succ_inj hij hj

example : sentIds creditDemo.log = [1, 2] := by decide

/-- **C22, C23** What is on the wire in every execution: the transfer frames posted are, in order and without interleaving,
whole deliveries, one for each send that went out; the `i`-th has id `i + 1` and carries the message, tag, handle, format
and settled flag of the send it belongs to.  `coherent` excludes messages whose cached size is wrong (see C17). -/
theorem c23_wire_is_whole_deliveries (s : Session) (hs : Reachable s)
    (hc : ∀ x ∈ s.sends, x.req.body.coherent) :
    ∃ ds : List (Ref × List Transfer),
      sentTransfers s.log = (ds.map Prod.snd).flatten ∧ ds.length = begun s.log ∧
      ∀ i d, ds[i]? = some d → ∃ x l tag, s.sends[d.1]? = some x ∧ s.snd? x.req.link = some l ∧
        TagFor x.req.tag tag ∧
        WholeDelivery (UInt32.ofNat l.id) (UInt32.ofNat (i + 1)) tag x.req.body.tenc
          (if x.req.format.isNone then x.req.body.format else x.req.format) x.req.settled d.2 := by
  obtain ⟨ds, h₁, h₂, h₃⟩ := hs.sentInv
  refine ⟨ds.map fun d => (d.task, d.frames), ?_, ?_, ?_⟩
  · rw [h₁, List.map_map]; rfl
  · rw [List.length_map, begun_eq_starts, h₂, List.length_map]
  · intro i d hd
    rw [List.getElem?_map] at hd
    obtain ⟨d, hd', rfl⟩ := Option.map_eq_some_iff.mp hd
    clear hd
    have hd := hd'
    obtain ⟨x, l, tag, hx, hr, hl, hg, hf⟩ := h₃ d (List.mem_of_getElem? hd)
    refine ⟨x, l, tag, hx, by rw [hr]; exact hl, hg, ?_⟩
    have hid : d.id = UInt32.ofNat (i + 1) := by
      have := hs.startIds
      rw [h₂, List.map_map] at this
      have := congrArg (·[i]?) this
      simp only [List.getElem?_map, hd, Option.map_some, Function.comp_apply] at this
      obtain ⟨j, hj, he⟩ := Option.map_eq_some_iff.mp this.symm
      rw [List.getElem?_eq_some_iff] at hj
      obtain ⟨_, rfl⟩ := hj
      simpa using he.symm
    obtain ⟨ts, hts, hw, _⟩ := transferFrames_spec s.maxFrameSize (UInt32.ofNat l.id) d.id tag x.req.body x.req.settled
      x.req.format (hc x (List.mem_of_getElem? hx))
    have : d.frames = ts := by
      have := hf.symm.trans hts
      exact (List.map_inj_right (by intro a b h; exact Frame.transfer.inj h)).mp this
    rw [← hid]
    dsimp only
    rw [this]
    exact hw

/-- **C23** Splitting is lossless for every body and every frame limit. -/
theorem c23_split_lossless (mfs handle id : UInt32) (tag : Bytes) (body : TransferBody) (settled : Bool)
    (format : Option UInt32) (hc : body.coherent) :
    ∃ ts : List Transfer, transferFrames mfs handle id tag body settled format = ts.map .transfer ∧
      WholeDelivery handle id tag body.tenc (if format.isNone then body.format else format) settled ts := by
  obtain ⟨ts, h, hw, _⟩ := transferFrames_spec mfs handle id tag body settled format hc
  exact ⟨ts, h, hw⟩

/-- **C23** The parts are no longer than necessary: every payload fits the limit the code computes. -/
theorem c23_parts_bounded (mfs handle id : UInt32) (tag : Bytes) (body : TransferBody) (settled : Bool)
    (format : Option UInt32) (hc : body.coherent) (t : Transfer)
    (ht : .transfer t ∈ transferFrames mfs handle id tag body settled format) : t.payload.length ≤ chunkSize mfs := by
  obtain ⟨ts, h, _, hp⟩ := transferFrames_spec mfs handle id tag body settled format hc
  rw [h] at ht
  obtain ⟨t', ht', he⟩ := List.mem_map.mp ht
  cases he
  exact (hp t ht').1

/-- Three frames of at most two bytes. -/
example : (transferFrames 2 0 1 [9] (.data [1, 2, 3, 4, 5]) false none).map
      (fun f => match f with | .transfer t => (t.payload, t.head.more, t.head.deliveryId) | _ => ([], false, none)) =
    [([1, 2], true, some 1), ([3, 4], true, none), ([5], false, none)] := by decide

/-- A message whose cached size is 3000 although it encodes to nothing (C17 shows how that comes about). -/
def staleMessage : Message :=
  { header := none, deliveryAnnotations := none, messageAnnotations := none, properties := none,
    applicationProperties := none, footer := none, messageFormat := none, cache := 3000,
    body := { data := [], sequence := [], messages := [], value := none } }

/-- **C23** needs `coherent`: a message with a stale cached size is announced as the first of several frames, and no further
frame follows. -/
theorem c23_stale_size_never_ends :
    (transferFrames 2049 0 1 [9] (.message staleMessage) false none).map
      (fun f => match f with | .transfer t => t.head.more | _ => false) = [true] := by decide

/-! ## C24 -/

theorem head_size_le (h : TransferHead) (tag : Bytes) (h₁ : h.rcvSettleMode = none)
    (h₂ : h.deliveryTag = none ∨ h.deliveryTag = some tag) (h₃ : h.state = none ∨ h.state = some (.accepted {})) :
    size h ≤ tag.length + 44 := by
  have hu : ∀ x : UInt32, size x ≤ 5 := by
    intro x; show (if x = 0 then 1 else if x > 255 then 5 else 2) ≤ 5
    split <;> [skip; split] <;> omega
  have ho : ∀ x : Option UInt32, size x ≤ 5 := by
    rintro (_ | x)
    · show 1 ≤ 5; omega
    · exact hu x
  have hb : ∀ x : Bool, size x = 1 := fun _ => rfl
  have hob : ∀ x : Option Bool, size x = 1 := by rintro (_ | x) <;> rfl
  have ht : size h.deliveryTag ≤ tag.length + 5 := by
    rcases h₂ with h | h <;> rw [h]
    · show 1 ≤ _; omega
    · show (if tag.length > 255 then 5 else 2) + tag.length ≤ _; split <;> omega
  have hs : size h.state ≤ 6 := by
    rcases h₃ with h | h <;> rw [h]
    · show 1 ≤ 6; omega
    · show (if 0 + 1 > 255 then 12 else 6) + 0 ≤ 6; simp
  have hr : size h.rcvSettleMode = 1 := by rw [h₁]; rfl
  have e : Composite.contentSize h = size h.handle + (size h.deliveryId + (size h.deliveryTag + (size h.messageFormat +
      (size h.settled + (size h.more + (size h.rcvSettleMode + (size h.state + (size h.resume + (size h.aborted +
      (size h.batchable + 0)))))))))) := by
    simp [Composite.contentSize, Composite.fields, fld]
  show (if Composite.contentSize h + 1 > 255 then 12 else 6) + Composite.contentSize h ≤ _
  have hh : (if Composite.contentSize h + 1 > 255 then 12 else 6) ≤ 12 := by split <;> omega
  have := hu h.handle
  have := ho h.deliveryId
  have := ho h.messageFormat
  have := hob h.settled
  have := hb h.more
  have := hb h.resume
  have := hb h.aborted
  have := hb h.batchable
  omega

theorem frame_length (channel : UInt16) (t : Transfer) :
    (AmqpFrame.encode ⟨channel, .transfer t⟩).length = 8 + ((enc t.head).length + t.payload.length) := by
  have hpl : (optEnc TransferBody.tenc t.body).length = t.payload.length := by
    unfold Transfer.payload optEnc; cases t.body <;> rfl
  rw [← hpl]
  simp only [AmqpFrame.encode, Frame.encode, Transfer.tenc, List.length_append, be_length]
  simp

/-- **C24** With an announced limit above 2048 bytes, and a tag of at most 1996, every transfer frame of a delivery fits
the limit.

Missing for the full property: limits of 2048 or less, see `c24_small_limit_exceeded`; longer tags, which AMQP forbids
(32 bytes) and the code does not check. -/
theorem c24_frame_fits_partial (mfs handle id : UInt32) (tag : Bytes) (body : TransferBody) (settled : Bool)
    (format : Option UInt32) (channel : UInt16) (f : Frame) (hc : body.coherent) (hm : mfs > 2048) (ht : tag.length ≤ 1996)
    (hf : f ∈ transferFrames mfs handle id tag body settled format) :
    (AmqpFrame.encode ⟨channel, f⟩).length ≤ mfs.toNat := by
  obtain ⟨ts, h, _, hp⟩ := transferFrames_spec mfs handle id tag body settled format hc
  rw [h] at hf
  obtain ⟨t, ht', rfl⟩ := List.mem_map.mp hf
  obtain ⟨h₁, h₂, h₃, h₄, _⟩ := hp t ht'
  have hsz : (enc t.head).length ≤ tag.length + 44 := by
    rw [← exactSize t.head]; exact head_size_le t.head tag h₂ h₃ h₄
  have hlen := frame_length channel t
  have hchunk : chunkSize mfs = mfs.toNat - 2048 := by
    unfold chunkSize
    rw [if_pos hm, UInt32.toNat_sub_of_le _ _ (UInt32.le_iff_toNat_le.mpr (Nat.le_of_lt (UInt32.lt_iff_toNat_lt.mp hm)))]
    rfl
  have hm' : 2048 < mfs.toNat := UInt32.lt_iff_toNat_lt.mp hm
  omega

/-- **C24** for every transfer frame of every execution, under the same restriction. -/
theorem c24_sent_frames_fit_partial (s : Session) (hs : Reachable s) (hm : s.maxFrameSize > 2048)
    (hc : ∀ x ∈ s.sends, x.req.body.coherent) (ht : ∀ x ∈ s.sends, ∀ g, x.req.tag = some g → g.length ≤ 1996)
    (channel : UInt16) (t : Transfer) (h : t ∈ sentTransfers s.log) :
    (AmqpFrame.encode ⟨channel, .transfer t⟩).length ≤ s.maxFrameSize.toNat := by
  obtain ⟨ds, h₁, _, h₃⟩ := hs.sentInv
  rw [h₁] at h
  obtain ⟨_, hd', hmem⟩ := List.mem_flatten.mp h
  obtain ⟨d, hd, rfl⟩ := List.mem_map.mp hd'
  obtain ⟨x, l, tag, hx, _, _, hg, hf⟩ := h₃ d hd
  have hxm := List.mem_of_getElem? hx
  have hl : tag.length ≤ 1996 := by
    rcases hq : x.req.tag with _ | g
    · rw [hg.2 hq]; omega
    · rw [hg.1 g hq]; exact ht x hxm g hq
  exact c24_frame_fits_partial s.maxFrameSize (UInt32.ofNat l.id) d.id tag x.req.body x.req.settled x.req.format channel
    (.transfer t) (hc x hxm) hm hl (by rw [hf]; exact List.mem_map_of_mem hmem)

example : (AmqpFrame.encode ⟨0, .transfer (aTransfer 0 (some 1) false [1, 2, 3])⟩).length = 31 := by decide

/-- **C24** is violated for limits up to 2048: with the smallest limit AMQP allows, 512 bytes, a 512-byte body is sent in one
frame, which is longer. -/
theorem c24_small_limit_exceeded :
    ∃ (body : TransferBody) (f : Frame), body.coherent ∧ f ∈ transferFrames 512 0 1 [1] body false none ∧
      (AmqpFrame.encode ⟨0, f⟩).length > 512 := by
  obtain ⟨b, hb⟩ : ∃ b : Bytes, b.length = 512 := ⟨List.replicate 512 0, List.length_replicate⟩
  refine ⟨.data b, .transfer { head := { emptyTransfer with handle := 0, deliveryId := some 1, deliveryTag := some [1] }
                               body := some (.data b) }, by rw [TransferBody.coherent]; trivial, ?_, ?_⟩
  · have : ¬ (TransferBody.data b).esize > chunkSize 512 := by
      rw [TransferBody.esize, hb]; decide
    unfold transferFrames
    dsimp only
    rw [if_neg this]
    exact List.mem_singleton_self _
  · rw [frame_length, payload_data, hb]
    omega

/-! ## C25 -/

/-- **C25** The window of a session begun with window `b.incomingWindow`, in every execution: no delivery goes out while the
window is zero, and between two flows no more deliveries go out than the window the code computed, which is
next-incoming-id (0 if absent) + incoming-window - next-outgoing-id modulo `2^32`. -/
theorem c25_deliveries_within_window (id : Nat) (isLocal : Bool) (mfs : UInt32) (ch : UInt16) (b : Begin)
    (steps : List Step) (s : Session) (hs : s = (Session.new id isLocal mfs ch b).run steps) :
    (∀ pre post, s.log = pre ++ post → (∀ e ∈ pre, e.setsWindow = false) → begun pre ≤ b.incomingWindow.toNat) ∧
    (∀ pre f mid post, s.log = pre ++ .windowed f :: (mid ++ post) → (∀ e ∈ mid, e.setsWindow = false) →
      begun mid ≤ (f.nextIncomingId.getD 0 + f.incomingWindow - (1 + UInt32.ofNat (begun pre))).toNat) := by
  obtain ⟨_, hg⟩ := winInv_run id isLocal mfs ch b steps
  rw [← hs] at hg
  refine ⟨?_, ?_⟩
  · intro pre post h hq
    have := (WinGuarded.bound (init := b.incomingWindow) [] pre post (by rw [List.nil_append, ← h]; exact hg) hq).1
    simpa [trackWindow] using this
  · intro pre f mid post h hq
    have hsplit : s.log = (pre ++ [.windowed f]) ++ mid ++ post := by rw [h]; simp
    have := (WinGuarded.bound (init := b.incomingWindow) (pre ++ [.windowed f]) mid post (by rw [← hsplit]; exact hg) hq).1
    rw [trackWindow_append] at this
    simpa [seeWindow, trackWindow_next] using this

/-- **C25** With a peer that has seen `d` of the deliveries (its next-incoming-id is `1 + d`) and does not close the window
over deliveries already on their way, no more than `d` plus its window have gone out until the next flow.

Missing for the full property: frames.  The window counts transfer frames, the code counts deliveries
(`c25_split_delivery_overruns`); and peers that shrink the window or leave out next-incoming-id
(`c25_shrunk_window_wraps`, `c25_absent_id_wraps`). -/
theorem c25_total_sent_partial (s : Session) (hs : Reachable s) (pre mid post : List Ev) (f : Flow) (d : Nat)
    (h : s.log = pre ++ .windowed f :: (mid ++ post)) (hd : f.nextIncomingId = some (1 + UInt32.ofNat d))
    (hle : d ≤ begun pre) (hge : begun pre ≤ d + f.incomingWindow.toNat) (hq : ∀ e ∈ mid, e.setsWindow = false) :
    begun (pre ++ .windowed f :: mid) ≤ d + f.incomingWindow.toNat := by
  obtain ⟨s₀, steps, ⟨id, isLocal, mfs, ch, b, rfl⟩, hrun⟩ := hs
  have hb := (c25_deliveries_within_window id isLocal mfs ch b steps s hrun).2 pre f mid post h hq
  rw [hd, Option.getD_some, limit_toNat hle hge] at hb
  rw [begun_append, show begun (.windowed f :: mid) = begun mid from by simp [begun]]
  omega

/-- **C25** For deliveries that fit one frame, deliveries are frames. -/
theorem c25_frames_within_window_partial (s : Session) (hs : Reachable s)
    (hone : ∀ x ∈ s.sends, x.req.body.esize ≤ chunkSize s.maxFrameSize) :
    (sentTransfers s.log).length = begun s.log := by
  obtain ⟨ds, h₁, h₂, h₃⟩ := hs.sentInv
  have : ∀ d ∈ ds, d.frames.length = 1 := by
    intro d hd
    obtain ⟨x, l, tag, hx, _, _, _, hf⟩ := h₃ d hd
    have := hone x (List.mem_of_getElem? hx)
    unfold transferFrames at hf
    dsimp only at hf
    rw [if_neg (by omega)] at hf
    have := congrArg List.length hf
    simpa using this.symm
  rw [h₁, begun_eq_starts, h₂, List.length_map]
  clear h₁ h₂ h₃
  induction ds with
  | nil => rfl
  | cons d ds ih =>
    rw [List.map_cons, List.flatten_cons, List.length_append, this d (by simp), ih fun x hx => this x (by simp [hx])]
    simp; omega

/-- Window 1: one delivery goes out, the second waits although it has credit. -/
def windowDemo : Session := (start 1).run (attachOne ++ flow (aFlow (some 7) (some 0) (some 5) (some 1) 1) ++
  [.send (aSend 0 [1] false), .send (aSend 0 [2] false)])

example : Reachable windowDemo := reachable _ _ _
example : begun windowDemo.log = 1 ∧ taken 0 windowDemo.log = 2 ∧ windowDemo.pendingTransfers = [(1, 0)] := by decide

/-- **C25** is violated by deliveries of several frames: the peer's window is 1, its frame limit 2 (so that the example is
small), and a five-byte message goes out as three transfer frames. -/
theorem c25_split_delivery_overruns :
    ∃ s : Session, Reachable s ∧ (sentTransfers s.log).length = 3 ∧
      ∀ f, .windowed f ∈ s.log → f.incomingWindow = 1 :=
  ⟨_, reachable 1 2 (attachOne ++ flow (aFlow (some 7) (some 0) (some 5) (some 1) 1) ++
    [.send (aSend 0 [1, 2, 3, 4, 5] false)]), by decide, by
      intro f hf
      have : Ev.windowed f ∈ [Ev.windowed (aFlow (some 7) (some 0) (some 5) (some 1) 1)] := by
        have := List.mem_filter.mpr ⟨hf, (rfl : (Ev.windowed f).setsWindow = true)⟩
        exact this
      rw [List.mem_singleton] at this
      cases this; rfl⟩

/-- **C25** is violated when the window shrinks: two deliveries are on their way, the peer, which has seen none, announces a
window of 1, and the sender computes 4294967295. -/
theorem c25_shrunk_window_wraps :
    ∃ s : Session, Reachable s ∧ s.remoteIncomingWindow = 0xffffffff ∧
      s.log.getLast? = some (.applied 0 (aFlow (some 7) (some 0) (some 5) (some 1) 1)) :=
  ⟨_, reachable 10 65535 (attachOne ++ flow (aFlow (some 7) (some 0) (some 5) (some 1) 10) ++
    [.send (aSend 0 [1] false), .send (aSend 0 [2] false)] ++ flow (aFlow (some 7) (some 0) (some 5) (some 1) 1)),
    by decide, rfl⟩

/-- **C25** is violated when the peer has not yet seen our begin and so leaves out next-incoming-id (AMQP 1.0 §2.7.4): the
code takes it as 0 although the first id is 1, so a closed window opens completely. -/
theorem c25_absent_id_wraps :
    ∃ s : Session, Reachable s ∧ s.remoteIncomingWindow = 0xffffffff ∧
      s.log.getLast? = some (.windowed (aFlow none none none none 0)) :=
  ⟨_, reachable 10 65535 [.peer (.flow (aFlow none none none none 0))], by decide, rfl⟩

end Amqp.Rt
