import Verif.Lemmas.SessionTask
import Verif.Lemmas.Dec
/-!
# What a session puts on the wire, and the window it does it under
-/

namespace Amqp.Rt
open Session

/-- Events that concern sending. -/
def Ev.Sending : Ev → Prop
  | .frame (.transfer _) | .begun .. | .windowed _ => True
  | _ => False

theorem Ev.Inert.not_sending {e : Ev} (h : e.Inert) : ¬ e.Sending := by
  cases e <;> first
    | exact fun h => h
    | exact h.elim
    | (next f => cases f <;> first | exact fun h => h | exact h.elim)

/-- What a small change puts on the wire. -/
inductive SentView (s s' : Session) : Prop
  | quiet (evs) (hl : s'.log = s.log ++ evs) (he : ∀ e ∈ evs, ¬ e.Sending)
      (hn : s'.nextOutgoingId = s.nextOutgoingId) (hw : s'.remoteIncomingWindow = s.remoteIncomingWindow)
  | windowed (f : Flow) (hl : s'.log = s.log ++ [.windowed f])
      (hn : s'.nextOutgoingId = s.nextOutgoingId)
      (hw : s'.remoteIncomingWindow = f.nextIncomingId.getD 0 + f.incomingWindow - s.nextOutgoingId)
  | emit (t req tag l) (x : SendTask) (evs) (hx : s.sends[t]? = some x) (hr : x.req = req)
      (hst : ∃ m, x.st = .credit tag m ∨ x.st = .window tag m)
      (hs : s.snd? req.link = some l) (hz : s.remoteIncomingWindow ≠ 0)
      (hl : s'.log = s.log ++ evs ++ .begun t req.link s.nextOutgoingId ::
        (transferFrames s.maxFrameSize (UInt32.ofNat l.id) s.nextOutgoingId tag req.body req.settled req.format).map .frame)
      (he : ∀ e ∈ evs, ¬ e.Sending)
      (hn : s'.nextOutgoingId = s.nextOutgoingId + 1) (hw : s'.remoteIncomingWindow = s.remoteIncomingWindow - 1)

theorem Micro.sent {s s' : Session} (h : Micro s s') : SentView s s' := by
  cases h
  case note e he => exact .quiet [e] rfl (by simpa using he.inert.not_sending) rfl rfl
  case flowSess f => exact .windowed f rfl rfl rfl
  case sendNow t req tag l ht hl h hp hw =>
    exact .emit t req tag l _ [.took t req.link] ht rfl ⟨_, .inl rfl⟩ hl hw (by rw [emit_log]; rfl) (by simp [Ev.Sending])
      (by simp) (by simp)
  case emitParked t req tag l ht hl hw =>
    exact .emit t req tag l _ [] ht rfl ⟨_, .inr rfl⟩ hl hw (by rw [emit_log]; simp) (by simp) (by simp) (by simp)
  case settle d st _ =>
    rcases settle_log s d st with h | ⟨x, _, h⟩
    · exact .quiet [] (by simp [h]) (by simp) (by simp) (by simp)
    · exact .quiet _ h (by simp [Ev.Sending, dispFrame]) (by simp) (by simp)
  case update d st _ =>
    rcases updateState_log s d st with h | ⟨x, _, h⟩
    · exact .quiet [] (by simp [h]) (by simp) (by simp) (by simp)
    · exact .quiet _ h (by simp [Ev.Sending, dispFrame]) (by simp) (by simp)
  case dropDlv d _ =>
    rcases dropDelivery_log s d with h | ⟨x, _, h⟩
    · exact .quiet [] (by simp [h]) (by simp) (by simp) (by simp)
    · exact .quiet _ h (by simp [Ev.Sending, dispFrame]) (by simp) (by simp)
  case flowLink => exact .quiet [_] (by simp; rfl) (by simp [Ev.Sending]) (by simp) (by simp)
  case parkWindow => exact .quiet [_] (by simp; rfl) (by simp [Ev.Sending]) (by simp) (by simp)
  case recvFirst => exact .quiet [_] (by simp; rfl) (by simp [Ev.Sending]) (by simp) (by simp)
  case recvSingle => exact .quiet [_] (by simp; rfl) (by simp [Ev.Sending]) (by simp) (by simp)
  case grant => exact .quiet [_] rfl (by simp [Ev.Sending]) rfl rfl
  case recvNoCredit => exact .quiet [_] rfl (by simp [Ev.Sending]) rfl rfl
  case recvRefused => exact .quiet [_] rfl (by simp [Ev.Sending]) rfl rfl
  case recvMerge => exact .quiet [_] rfl (by simp [Ev.Sending]) rfl rfl
  case recvLast => exact .quiet [_] rfl (by simp [Ev.Sending]) rfl rfl
  case recvLost => exact .quiet [_] rfl (by simp [Ev.Sending]) rfl rfl
  case handed => exact .quiet [_] rfl (by simp [Ev.Sending]) rfl rfl
  all_goals exact .quiet [] (by first | rfl | simp) (by simp) (by first | rfl | simp) (by first | rfl | simp)

theorem Micro.maxFrameSize {s s' : Session} (h : Micro s s') : s'.maxFrameSize = s.maxFrameSize := by
  cases h <;> first | rfl | simp

/-! ## The window -/

/-- What an event does to the next delivery id and the window. -/
def seeWindow (m : UInt32 × UInt32) : Ev → UInt32 × UInt32
  | .begun .. => (m.1 + 1, m.2 - 1)
  | .windowed f => (m.1, f.nextIncomingId.getD 0 + f.incomingWindow - m.1)
  | _ => m

def trackWindow (init : UInt32) (log : List Ev) : UInt32 × UInt32 := log.foldl seeWindow (1, init)

theorem trackWindow_append (init) (a b : List Ev) : trackWindow init (a ++ b) = b.foldl seeWindow (trackWindow init a) := by
  simp [trackWindow]

theorem seeWindow_quiet {m} {e : Ev} (h : ¬ e.Sending) : seeWindow m e = m := by
  cases e <;> first | rfl | exact (h trivial).elim

theorem foldl_seeWindow_quiet {m} {evs : List Ev} (h : ∀ e ∈ evs, ¬ e.Sending) : evs.foldl seeWindow m = m := by
  induction evs with
  | nil => rfl
  | cons e evs ih => rw [List.foldl_cons, seeWindow_quiet (h e (by simp)), ih fun x hx => h x (by simp [hx])]

theorem foldl_seeWindow_frames {m} (fs : List Frame) : (fs.map Ev.frame).foldl seeWindow m = m := by
  induction fs with
  | nil => rfl
  | cons f fs ih => rw [List.map_cons, List.foldl_cons]; exact ih

/-- Deliveries only start while the window is open. -/
def WinGuarded (init : UInt32) (log : List Ev) : Prop :=
  ∀ pre t r id post, log = pre ++ .begun t r id :: post → (trackWindow init pre).2 ≠ 0

theorem WinGuarded.append {init} {log evs : List Ev} (h : WinGuarded init log)
    (he : ∀ t r id, .begun t r id ∉ evs) : WinGuarded init (log ++ evs) := by
  intro pre t r id post heq
  rcases List.append_eq_append_iff.mp heq with ⟨as, h₁, h₂⟩ | ⟨bs, h₁, h₂⟩
  · exact (he t r id (by rw [h₂]; simp)).elim
  · rcases bs with _ | ⟨b, bs⟩
    · have h₂ : Ev.begun t r id :: post = evs := h₂
      exact (he t r id (by rw [← h₂]; simp)).elim
    · simp only [List.cons_append, List.cons.injEq] at h₂
      obtain ⟨rfl, _⟩ := h₂
      exact h pre t r id bs h₁

theorem WinGuarded.snoc {init} {log : List Ev} (h : WinGuarded init log) (t r id)
    (hc : (trackWindow init log).2 ≠ 0) : WinGuarded init (log ++ [.begun t r id]) := by
  intro pre t' r' id' post heq
  rcases List.append_eq_append_iff.mp heq with ⟨as, h₁, h₂⟩ | ⟨bs, h₁, h₂⟩
  · rcases as with _ | ⟨a, as⟩
    · rw [List.append_nil] at h₁; rw [h₁]; exact hc
    · simp at h₂
  · rcases bs with _ | ⟨b, bs⟩
    · rw [List.append_nil] at h₁; rw [← h₁]; exact hc
    · simp only [List.cons_append, List.cons.injEq] at h₂
      obtain ⟨rfl, _⟩ := h₂
      exact h pre t' r' id' bs h₁

def WinInv (init : UInt32) (s : Session) : Prop :=
  trackWindow init s.log = (s.nextOutgoingId, s.remoteIncomingWindow) ∧ WinGuarded init s.log

theorem Micro.winInv {init} {s s' : Session} (h : Micro s s') (hi : WinInv init s) : WinInv init s' := by
  obtain ⟨h₁, h₂⟩ := hi
  cases h.sent with
  | quiet evs hl he hn hw =>
    refine ⟨by rw [hl, trackWindow_append, foldl_seeWindow_quiet he, h₁, hn, hw], ?_⟩
    rw [hl]; exact h₂.append fun _ _ _ ht => he _ ht trivial
  | windowed f hl hn hw =>
    refine ⟨by rw [hl, trackWindow_append, h₁, hn, hw]; rfl, ?_⟩
    rw [hl]; exact h₂.append (by simp)
  | emit t req tag l x evs hx hr hst hs hz hl he hn hw =>
    have ht : trackWindow init (s.log ++ evs) = (s.nextOutgoingId, s.remoteIncomingWindow) := by
      rw [trackWindow_append, foldl_seeWindow_quiet he, h₁]
    refine ⟨?_, ?_⟩
    · rw [hl, trackWindow_append, ht, List.foldl_cons, foldl_seeWindow_frames, hn, hw]; rfl
    · rw [hl, List.append_cons]
      refine WinGuarded.append (WinGuarded.snoc (h₂.append fun _ _ _ h => he _ h trivial) _ _ _ ?_) (by simp)
      rw [ht]; exact hz

/-- In every execution of a session begun with window `w`. -/
theorem winInv_run (id isLocal mfs ch b) (steps : List Step) :
    WinInv b.incomingWindow ((Session.new id isLocal mfs ch b).run steps) := by
  refine (run_micros _ steps).invariant (P := WinInv b.incomingWindow) (fun _ _ h => h.winInv) ⟨rfl, ?_⟩
  intro pre t r id post h
  simp [Session.new] at h

theorem begun_append (a b : List Ev) : begun (a ++ b) = begun a + begun b := by simp [begun]

theorem trackWindow_next (init) (log : List Ev) : (trackWindow init log).1 = 1 + UInt32.ofNat (begun log) := by
  have : ∀ (log : List Ev) m, (log.foldl seeWindow m).1 = m.1 + UInt32.ofNat (begun log) := by
    intro log
    induction log with
    | nil => intro m; simp [begun]
    | cons e log ih =>
      intro m
      rw [List.foldl_cons, ih, show begun (e :: log) = begun [e] + begun log from begun_append [e] log]
      have : (seeWindow m e).1 = m.1 + UInt32.ofNat (begun [e]) := by
        cases e <;> simp [seeWindow, begun]
      rw [this, UInt32.ofNat_add, UInt32.add_assoc]
  exact this log (1, init)

theorem WinGuarded.bound {init} (pre mid post : List Ev) (h : WinGuarded init (pre ++ mid ++ post))
    (hm : ∀ e ∈ mid, e.setsWindow = false) :
    begun mid ≤ (trackWindow init pre).2.toNat ∧
      (trackWindow init (pre ++ mid)).2.toNat = (trackWindow init pre).2.toNat - begun mid := by
  induction mid generalizing pre with
  | nil => simp [begun]
  | cons e mid ih =>
    have h' : WinGuarded init ((pre ++ [e]) ++ mid ++ post) := by simpa using h
    have ih := ih (pre ++ [e]) h' (fun x hx => hm x (by simp [hx]))
    rw [show begun (e :: mid) = begun [e] + begun mid from begun_append [e] mid,
      show pre ++ e :: mid = (pre ++ [e]) ++ mid by simp]
    have hone : (trackWindow init (pre ++ [e])).2.toNat + begun [e] = (trackWindow init pre).2.toNat := by
      rw [trackWindow_append]
      simp only [List.foldl_cons, List.foldl_nil]
      have hg := hm e (by simp)
      cases e <;> try (simp [seeWindow, begun]; done)
      · next t r id =>
        have hz := h pre t r id (mid ++ post) (by simp)
        simp only [seeWindow, begun, List.countP_cons, List.countP_nil]
        have : (trackWindow init pre).2.toNat ≠ 0 := fun h => hz (by apply UInt32.toNat_inj.mp; simpa using h)
        rw [UInt32.toNat_sub_of_le _ _ (by rw [UInt32.le_iff_toNat_le]; simp; omega)]
        simp; omega
      · next f => simp [Ev.setsWindow] at hg
    omega

/-! ## What is kept of links and sends -/

theorem Micro.snd_kept {s s' : Session} (h : Micro s s') (r : Ref) (l : Snd) (hl : s.snd? r = some l) :
    ∃ l', s'.snd? r = some l' ∧ l'.id = l.id ∧ l'.name = l.name ∧ l'.remoteHandle = l.remoteHandle ∧
      (l.closed = true → l'.closed = true) ∧ (l.error.isSome → l'.error.isSome) := by
  have same : s'.snds = s.snds → ∃ l', s'.snd? r = some l' ∧ l'.id = l.id ∧ l'.name = l.name ∧
      l'.remoteHandle = l.remoteHandle ∧
      (l.closed = true → l'.closed = true) ∧ (l.error.isSome → l'.error.isSome) :=
    fun h => ⟨l, (snd?_congr h r).trans hl, rfl, rfl, rfl, _root_.id, _root_.id⟩
  have grown : ∀ y, s'.snds = s.snds ++ [y] → ∃ l', s'.snd? r = some l' ∧ l'.id = l.id ∧ l'.name = l.name ∧
      l'.remoteHandle = l.remoteHandle ∧
      (l.closed = true → l'.closed = true) ∧ (l.error.isSome → l'.error.isSome) := by
    intro y hy
    refine ⟨l, ?_, rfl, rfl, rfl, _root_.id, _root_.id⟩
    rw [snd?, hy, List.getElem?_append_left (snd?_lt hl)]
    exact hl
  have upd : ∀ (p : Prop) [Decidable p] (f : Snd → Snd), (∀ l, (f l).id = l.id ∧ (f l).name = l.name ∧
      (f l).remoteHandle = l.remoteHandle ∧ (l.closed = true → (f l).closed = true) ∧
      (l.error.isSome → (f l).error.isSome)) →
      s'.snd? r = (if p then (s.snd? r).map f else s.snd? r) →
      ∃ l', s'.snd? r = some l' ∧ l'.id = l.id ∧ l'.name = l.name ∧
      l'.remoteHandle = l.remoteHandle ∧
      (l.closed = true → l'.closed = true) ∧ (l.error.isSome → l'.error.isSome) := by
    intro p _ f hf h
    rw [hl] at h
    split at h
    · exact ⟨f l, h, hf l⟩
    · exact ⟨l, h, rfl, rfl, rfl, _root_.id, _root_.id⟩
  cases h
  case estSndLocal => exact grown _ rfl
  case newSnd => exact grown _ rfl
  case sndClosed => exact upd _ _ (by simp) (modSnd_snd? _ _ _ _)
  case sndLimit => exact upd _ _ (by simp) (modSnd_snd? _ _ _ _)
  case sndTag => exact upd _ _ (by simp) (modSnd_snd? _ _ _ _)
  case sndFailed => exact upd _ _ (by simp) (sndRemoteDetached_snd? _ _ _ _)
  case flowLink =>
    refine upd _ _ ?_ (applyFlow_snd? _ _ _ _)
    intro l; unfold Snd.flow; split <;> simp
  case parkCredit t req tag l' _ _ _ =>
    exact upd _ (fun l => { l with pending := l.pending ++ [t] }) (fun l => ⟨rfl, rfl, rfl, _root_.id, _root_.id⟩)
      (modSnd_snd? _ _ _ _)
  case parkWindow t req tag l' _ _ _ _ _ => exact upd _ _ (by simp) (takeCredit_snd? s t req.link r)
  case sendNow t req tag l' _ _ _ _ _ =>
    exact upd _ _ (by simp) ((snd?_congr (emit_snds _ _ _ _ _) r).trans (takeCredit_snd? s t req.link r))
  all_goals exact same (by first | rfl | simp)

theorem Micro.send_kept {s s' : Session} (h : Micro s s') (t : Ref) (x : SendTask) (hx : s.sends[t]? = some x) :
    ∃ x', s'.sends[t]? = some x' ∧ x'.req = x.req := by
  have same : s'.sends = s.sends → ∃ x', s'.sends[t]? = some x' ∧ x'.req = x.req :=
    fun h => ⟨x, by rw [h]; exact hx, rfl⟩
  have grown : ∀ y, s'.sends = s.sends ++ [y] → ∃ x', s'.sends[t]? = some x' ∧ x'.req = x.req := by
    intro y hy
    refine ⟨x, ?_, rfl⟩
    rw [hy, List.getElem?_append_left (List.getElem?_eq_some_iff.mp hx).1]
    exact hx
  have upd : ∀ (p : Prop) [Decidable p] (f : SendTask → SendTask), (∀ x, (f x).req = x.req) →
      s'.sends[t]? = (if p then s.sends[t]?.map f else s.sends[t]?) → ∃ x', s'.sends[t]? = some x' ∧ x'.req = x.req := by
    intro p _ f hf h
    rw [hx] at h
    split at h
    · exact ⟨f x, h, hf x⟩
    · exact ⟨x, h, rfl⟩
  cases h
  case sendRefused => exact grown _ rfl
  case sendNew => exact grown _ rfl
  case sndFailed r e _ _ => exact upd _ _ (by simp) (sndRemoteDetached_get _ _ _ _)
  case flowLink r f _ => exact upd _ _ (by simp) (applyFlow_get _ _ _ _)
  case drainWindow p m _ => exact upd _ _ (by simp) (wakeAll_get _ _ _ _)
  case parkCredit => exact upd _ _ (by simp) (modSend_get _ _ _ _)
  case parkWindow => exact upd _ _ (by simp) (modSend_get _ _ _ _)
  case sendNow => exact upd _ _ (by simp) (emit_get _ _ _ _ _ _)
  case reparkWindow => exact upd _ _ (by simp) (modSend_get _ _ _ _)
  case emitParked => exact upd _ _ (by simp) (emit_get _ _ _ _ _ _)
  case sendFailed => exact upd _ _ (by simp) (finishSend_get _ _ _ _)
  case sendCancel t' =>
    refine upd _ _ ?_ (sendCancel_get _ _ _)
    intro x; split <;> rfl
  all_goals exact same (by first | rfl | simp)

/-! ## Tags -/

/-- The tag a send will use. -/
def SendState.tag? : SendState → Option Bytes
  | .credit tag _ | .window tag _ => some tag
  | _ => none

@[simp] theorem Session.SendTask.wake_tag? (m) (x : SendTask) : (SendTask.wake m x).st.tag? = x.st.tag? := by
  rcases x with ⟨req, st⟩
  cases st with
  | credit tag mail => cases mail <;> rfl
  | window tag mail => cases mail <;> rfl
  | done _ => rfl
  | cancelled => rfl

/-- The tag is the one the application chose, or one of four bytes. -/
def TagFor (chosen : Option Bytes) (tag : Bytes) : Prop :=
  (∀ g, chosen = some g → tag = g) ∧ (chosen = none → tag.length = 4)

/-- A blocked send uses the tag the application chose. -/
def TagInv (s : Session) : Prop :=
  ∀ (t : Ref) x, s.sends[t]? = some x → ∀ tag, x.st.tag? = some tag → TagFor x.req.tag tag

theorem Micro.tagInv {s s' : Session} (h : Micro s s') (hi : TagInv s) : TagInv s' := by
  intro t x' hx
  have grown : ∀ y : SendTask, (∀ tag, y.st.tag? = some tag → TagFor y.req.tag tag) →
      s'.sends = s.sends ++ [y] → ∀ tag, x'.st.tag? = some tag → TagFor x'.req.tag tag := by
    intro y hy he
    rw [he, List.getElem?_append] at hx
    split at hx
    · exact hi t x' hx
    · rcases hk : t - s.sends.length with _ | k
      · rw [hk] at hx
        obtain rfl : y = x' := by simpa using hx
        exact hy
      · rw [hk] at hx; simp at hx
  have upd : ∀ (p : Prop) [Decidable p] (f : SendTask → SendTask),
      (∀ x, (f x).req = x.req ∧ ((f x).st.tag? = x.st.tag? ∨ (f x).st.tag? = none)) →
      s'.sends[t]? = (if p then s.sends[t]?.map f else s.sends[t]?) →
      ∀ tag, x'.st.tag? = some tag → TagFor x'.req.tag tag := by
    intro p _ f hf he
    rw [he] at hx
    split at hx
    · obtain ⟨x, hx', rfl⟩ := Option.map_eq_some_iff.mp hx
      rw [(hf x).1]
      rcases (hf x).2 with h | h
      · rw [h]; exact hi t x hx'
      · rw [h]; simp
    · exact hi t x' hx
  have park : ∀ (t' : Ref) (x : SendTask) (f : SendTask → SendTask), s.sends[t']? = some x →
      (f x).req = x.req → (f x).st.tag? = x.st.tag? →
      s'.sends[t]? = (if t' = t then s.sends[t]?.map f else s.sends[t]?) →
      ∀ tag, x'.st.tag? = some tag → TagFor x'.req.tag tag := by
    intro t' x f hx₀ h₁ h₂ he
    rw [he] at hx
    split at hx
    · next h =>
      subst h
      rw [hx₀] at hx
      obtain rfl : f x = x' := by simpa using hx
      rw [h₁, h₂]; exact hi t' x hx₀
    · exact hi t x' hx
  cases h
  case sendRefused => exact grown _ (by simp [SendState.tag?]) rfl
  case sendNew req tag l hl _ _ htag _ =>
    refine grown _ ?_ rfl
    intro tag' h
    obtain rfl : tag = tag' := by simpa [SendState.tag?] using h
    refine ⟨fun g hg => ?_, fun hg => ?_⟩
    · have hg : req.tag = some g := hg
      rw [htag, hg]; rfl
    · have hg : req.tag = none := hg
      rw [htag, hg, Option.getD_none, be_length]
  case sndFailed r e _ _ => exact upd _ _ (by simp) (sndRemoteDetached_get _ _ _ _)
  case flowLink r f _ => exact upd _ _ (by simp) (applyFlow_get _ _ _ _)
  case drainWindow p m _ => exact upd _ _ (by simp) (wakeAll_get _ _ _ _)
  case parkCredit ht _ _ => exact park _ _ _ ht rfl rfl (modSend_get _ _ _ _)
  case parkWindow ht _ _ _ _ => exact park _ _ _ ht rfl rfl (modSend_get _ _ _ _)
  case sendNow => exact upd _ _ (by simp [SendState.tag?]) (emit_get _ _ _ _ _ _)
  case reparkWindow ht _ _ => exact park _ _ _ ht rfl rfl (modSend_get _ _ _ _)
  case emitParked => exact upd _ _ (by simp [SendState.tag?]) (emit_get _ _ _ _ _ _)
  case sendFailed => exact upd _ _ (by simp [SendState.tag?]) (finishSend_get _ _ _ _)
  case sendCancel t' =>
    refine upd _ _ ?_ (sendCancel_get _ _ _)
    intro x; split <;> simp [SendState.tag?]
  all_goals exact hi t x' (by first | exact hx | simpa using hx)

/-! ## The transfer frames are those of the sends that went out, in order -/

/-- A send that went out. -/
structure Sent where
  task : Ref
  link : Ref
  id : UInt32
  frames : List Transfer

/-- The sends that went out, oldest first. -/
def starts (log : List Ev) : List (Ref × Ref × UInt32) := log.filterMap fun
  | .begun t r no => some (t, r, no)
  | _ => none

@[simp] theorem starts_append (a b : List Ev) : starts (a ++ b) = starts a ++ starts b := by simp [starts]
@[simp] theorem sentTransfers_append (a b : List Ev) : sentTransfers (a ++ b) = sentTransfers a ++ sentTransfers b := by
  simp [sentTransfers]

theorem starts_quiet {evs : List Ev} (h : ∀ e ∈ evs, ¬ e.Sending) : starts evs = [] := by
  apply List.filterMap_eq_nil_iff.mpr
  intro e he
  cases e <;> first | rfl | exact (h _ he trivial).elim

theorem sentTransfers_quiet {evs : List Ev} (h : ∀ e ∈ evs, ¬ e.Sending) : sentTransfers evs = [] := by
  apply List.filterMap_eq_nil_iff.mpr
  intro e he
  unfold Ev.transfer?
  split
  · exact (h _ he trivial).elim
  · rfl

theorem starts_frames (fs : List Frame) : starts (fs.map Ev.frame) = [] := by
  apply List.filterMap_eq_nil_iff.mpr
  intro e he
  obtain ⟨f, _, rfl⟩ := List.mem_map.mp he
  rfl

theorem begun_eq_starts (log : List Ev) : begun log = (starts log).length := by
  unfold begun starts
  induction log with
  | nil => rfl
  | cons e log ih => cases e <;> simp_all

theorem sentTransfers_frames (ts : List Transfer) : sentTransfers ((ts.map Frame.transfer).map Ev.frame) = ts := by
  induction ts with
  | nil => rfl
  | cons t ts ih =>
    rw [List.map_cons, List.map_cons]
    exact congrArg (t :: ·) ih

theorem chunkFrames_transfers (h : UInt32) (f : Option UInt32) (max n : Nat) (b : Bytes) :
    ∃ ts : List Transfer, chunkFrames h f max n b = ts.map .transfer := by
  induction n generalizing b with
  | zero => exact ⟨[], rfl⟩
  | succ n ih =>
    unfold chunkFrames
    split
    · exact ⟨[], rfl⟩
    · obtain ⟨ts, h⟩ := ih (b.drop (min max b.length))
      rw [h]
      exact ⟨_ :: ts, rfl⟩

theorem transferFrames_transfers (mfs h id tag body settled format) :
    ∃ ts : List Transfer, transferFrames mfs h id tag body settled format = ts.map .transfer := by
  unfold transferFrames
  dsimp only
  split
  · obtain ⟨ts, h⟩ := chunkFrames_transfers h (if format.isNone then body.format else format) (chunkSize mfs)
      body.tenc.length (body.tenc.drop (min (chunkSize mfs) body.tenc.length))
    rw [h]
    exact ⟨_ :: ts, rfl⟩
  · exact ⟨[_], rfl⟩

/-- The frames are what the code makes of the request. -/
def Sent.Faithful (s : Session) (d : Sent) : Prop :=
  ∃ x l tag, s.sends[d.task]? = some x ∧ x.req.link = d.link ∧ s.snd? d.link = some l ∧
    TagFor x.req.tag tag ∧
    transferFrames s.maxFrameSize (UInt32.ofNat l.id) d.id tag x.req.body x.req.settled x.req.format =
      d.frames.map .transfer

def SentInv (s : Session) : Prop :=
  ∃ ds : List Sent, sentTransfers s.log = (ds.map Sent.frames).flatten ∧
    starts s.log = ds.map (fun d => (d.task, d.link, d.id)) ∧ ∀ d ∈ ds, d.Faithful s

theorem Sent.Faithful.micro {s s' : Session} {d : Sent} (h : Micro s s') (hd : d.Faithful s) : d.Faithful s' := by
  obtain ⟨x, l, tag, hx, hr, hl, hg, hf⟩ := hd
  obtain ⟨x', hx', hreq⟩ := h.send_kept _ _ hx
  obtain ⟨l', hl', hid, _⟩ := h.snd_kept _ _ hl
  exact ⟨x', l', tag, hx', by rw [hreq, hr], hl', by rw [hreq]; exact hg, by rw [h.maxFrameSize, hid, hreq]; exact hf⟩

theorem Micro.sentInv {s s' : Session} (h : Micro s s') (ht : TagInv s) (hi : SentInv s) : SentInv s' := by
  obtain ⟨ds, h₁, h₂, h₃⟩ := hi
  have h₃' : ∀ d ∈ ds, d.Faithful s' := fun d hd => (h₃ d hd).micro h
  cases h.sent with
  | quiet evs hl he hn hw =>
    exact ⟨ds, by rw [hl, sentTransfers_append, sentTransfers_quiet he, List.append_nil, h₁],
      by rw [hl, starts_append, starts_quiet he, List.append_nil, h₂], h₃'⟩
  | windowed f hl hn hw =>
    exact ⟨ds, by rw [hl, sentTransfers_append, h₁]; simp [sentTransfers, Ev.transfer?],
      by rw [hl, starts_append, h₂]; simp [starts], h₃'⟩
  | emit t req tag l x evs hx hr hst hs hz hl he hn hw =>
    obtain ⟨ts, hts⟩ := transferFrames_transfers s.maxFrameSize (UInt32.ofNat l.id) s.nextOutgoingId tag req.body
      req.settled req.format
    have hd : Sent.Faithful s ⟨t, req.link, s.nextOutgoingId, ts⟩ := by
      refine ⟨x, l, tag, hx, by rw [hr], hs, ?_, by rw [hr]; exact hts⟩
      obtain ⟨m, hst⟩ := hst
      exact ht t x hx tag (by rcases hst with h | h <;> rw [h] <;> rfl)
    refine ⟨ds ++ [⟨t, req.link, s.nextOutgoingId, ts⟩], ?_, ?_, ?_⟩
    · rw [hl, hts, sentTransfers_append, sentTransfers_append, sentTransfers_quiet he, List.append_nil, h₁]
      have : sentTransfers (Ev.begun t req.link s.nextOutgoingId :: (ts.map Frame.transfer).map Ev.frame) = ts := by
        exact sentTransfers_frames ts
      rw [this]; simp
    · rw [hl, starts_append, starts_append, starts_quiet he, List.append_nil, h₂]
      have := starts_frames (transferFrames s.maxFrameSize (UInt32.ofNat l.id) s.nextOutgoingId tag req.body
        req.settled req.format)
      simp only [starts, List.filterMap_cons] at this ⊢
      rw [this]; simp
    · intro d hd'
      rcases List.mem_append.mp hd' with hd' | hd'
      · exact h₃' d hd'
      · rw [List.mem_singleton.mp hd']; exact hd.micro h

theorem Session.Reachable.sentInv {s : Session} (h : Reachable s) : SentInv s := by
  have : TagInv s ∧ SentInv s := by
    refine h.invariant (P := fun s => TagInv s ∧ SentInv s) ?_ (fun _ _ hm hp => ⟨hm.tagInv hp.1, hm.sentInv hp.1 hp.2⟩)
    rintro s ⟨id, b, mfs, ch, b, rfl⟩
    exact ⟨by intro t x hx; simp [Session.new] at hx, [], rfl, rfl, by simp⟩
  exact this.2

/-- The ids of the deliveries, in order. -/
theorem Session.Reachable.startIds {s : Session} (h : Reachable s) :
    (starts s.log).map (fun p => p.2.2) = (List.range (begun s.log)).map fun i => UInt32.ofNat (i + 1) := by
  have : (starts s.log).map (fun p => p.2.2) = (List.range (begun s.log)).map (fun i => UInt32.ofNat (i + 1)) ∧
      s.nextOutgoingId = UInt32.ofNat (begun s.log + 1) := by
    refine h.invariant (P := fun s => (starts s.log).map (fun p => p.2.2) =
      (List.range (begun s.log)).map (fun i => UInt32.ofNat (i + 1)) ∧
      s.nextOutgoingId = UInt32.ofNat (begun s.log + 1)) ?_ ?_
    · rintro s ⟨id, b, mfs, ch, b, rfl⟩
      exact ⟨rfl, rfl⟩
    · rintro s s' hm ⟨h₁, h₂⟩
      have hq : ∀ evs : List Ev, (∀ e ∈ evs, ¬ e.Sending) → begun evs = 0 := by
        intro evs he; rw [begun_eq_starts, starts_quiet he]; rfl
      cases hm.sent with
      | quiet evs hl he hn hw =>
        rw [hl, starts_append, starts_quiet he, begun_append, hq evs he, hn, List.append_nil]
        exact ⟨h₁, h₂⟩
      | windowed f hl hn hw =>
        rw [hl, starts_append, begun_append, hn, show starts [Ev.windowed f] = [] from rfl, List.append_nil]
        exact ⟨h₁, h₂⟩
      | emit t req tag l x evs hx hr hst hs hz hl he hn hw =>
        have e₁ : starts s'.log = starts s.log ++ [(t, req.link, s.nextOutgoingId)] := by
          rw [hl, starts_append, starts_append, starts_quiet he, List.append_nil]
          have := starts_frames (transferFrames s.maxFrameSize (UInt32.ofNat l.id) s.nextOutgoingId tag req.body
            req.settled req.format)
          simp only [starts, List.filterMap_cons] at this ⊢
          rw [this]
        have e₂ : begun s'.log = begun s.log + 1 := by
          rw [begun_eq_starts, e₁, begun_eq_starts]; simp
        rw [e₁, e₂, hn, List.map_append, h₁, List.range_succ, List.map_append, h₂]
        refine ⟨rfl, ?_⟩
        apply UInt32.toNat_inj.mp; simp [UInt32.toNat_add]
  exact this.1

end Amqp.Rt
