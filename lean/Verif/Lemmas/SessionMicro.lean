import Verif.Lemmas.SessionLog
/-!
# Every step of a session is a chain of small changes

`Micro` lists the changes the session code makes, each with the conditions under which the code makes it.  `step_micros`
shows that every step is a chain of them, so that an invariant needs to be checked against this list only.
-/

namespace Amqp.Rt
open Session

/-- Events no invariant here counts. -/
def Ev.Inert : Ev → Prop
  | .frame (.transfer _) | .frame (.disposition _) => False
  | .frame _ | .control _ | .closeSession _ | .attached .. | .attachFailed .. | .detached .. | .opDropped _
  | .refused _ | .panic | .overflow | .peer _ => True
  | _ => False

/-- The credit left after a transfer frame was looked at (rcvlink.rs:317-319). -/
def Rcv.charged (l : Rcv) (t : Transfer) : UInt32 := if t.head.more then l.credit else l.credit - 1

/-- Link states other than established. -/
def Link.NotEst : Link → Prop
  | .snd (.established _) | .rcv (.established _) => False
  | _ => True

/-- The receiver link a slot is about. -/
def Link.rcv? : Link → Option Ref
  | .rcv (.opening (some (r, _))) | .rcv (.openingLocal (some (r, _))) | .rcv (.established r) => some r
  | _ => none

/-- Link states that name no link object. -/
def Link.Bare (l : Link) : Prop := l.NotEst ∧ l.rcv? = none

/-- Why a transfer frame is refused although there is credit (rcvlink.rs:324-344, 399-407, 435-443). -/
def Refusable (s : Session) (l : Rcv) (t : Transfer) : Prop :=
  match l.partialBody with
  | some body =>
    (t.head.deliveryId.isSome ∧ s.backId l ≠ t.head.deliveryId) ∨
      (t.body.isSome ∧ body.length + optSum TransferBody.esize t.body > l.maxMessageSize.toNat)
  | none => t.head.deliveryId = none

/-- The frame does not contradict the delivery id of the delivery it continues. -/
def Continues (s : Session) (l : Rcv) (t : Transfer) : Prop :=
  t.head.deliveryId.isSome → s.backId l = t.head.deliveryId

/-- The link is established under some handle. -/
def Session.Receives (s : Session) (r : Ref) : Prop := ∃ k, s.links.get k = some (.rcv (.established r))

/-- The link is established under some handle. -/
def Session.Sends (s : Session) (r : Ref) : Prop := ∃ k, s.links.get k = some (.snd (.established r))

/-- Why blocked futures are failed: the session has failed with that error, or the peer detached a link with it. -/
def Session.Cause (s : Session) (e : PErr) : Prop :=
  s.error = some e ∨ ∃ f : Detach, .peer (.detach f) ∈ s.log ∧ e = .linkDetached f.error

/-- A flow frame that states the session's own counters, and either no link or the delivery-count of a receiver link. -/
structure Session.Tells (s : Session) (f : Flow) : Prop where
  out : f.nextOutgoingId = s.nextOutgoingId
  window : f.outgoingWindow = s.remoteIncomingWindow
  inc : f.nextIncomingId = some s.nextIncomingId ∨ f.nextIncomingId = none ∧ s.isLocal = false
  incWindow : f.incomingWindow = 0xffffffff
  noEcho : f.echo = false
  link : (f.handle = none ∧ f.deliveryCount = none ∧ f.linkCredit = none) ∨
    ∃ r l, s.rcv? r = some l ∧ f.handle = some l.handle ∧ f.deliveryCount = some l.deliveryCount ∧ f.linkCredit.isSome

/-- Events that may be noted on their own. -/
def Ev.Allowed (s : Session) : Ev → Prop
  | .frame (.flow f) => s.Tells f
  | e => e.Inert

theorem Ev.Allowed.inert {s : Session} {e : Ev} (h : e.Allowed s) : e.Inert := by
  cases e <;> first
    | exact h
    | (next f => cases f <;> first | exact h | trivial)

/-- The frame of the peer a call to the control service is about. -/
def Todo.From (log : List Ev) : Todo → Prop
  | .ctl (.attachReceiver _ a _) => .peer (.attach a) ∈ log
  | .ctl (.detachSender _ f) => .peer (.detach f) ∈ log
  | .ctl (.detachReceiver _ f) => ∃ g, .peer (.detach g) ∈ log ∧ f = { g with error := none }
  | .ctl (.sessionEnded _) => ∃ e, .peer (.end_ e) ∈ log
  | _ => True

/-- The sender link in slot `k` is closed, if there is an established one. -/
def Session.Released (s : Session) (k : Nat) : Prop :=
  ∀ r l, s.links.get k = some (.snd (.established r)) → s.snd? r = some l → l.closed = true

/-- A small change.  `A` are the deliveries on which the application may act in it. -/
inductive MicroOn (A : Ref → Prop) (s : Session) : Session → Prop
  | note (e) (h : Ev.Allowed s e) : MicroOn A s (s.note e)
  | newOp : MicroOn A s s.newOp
  | names (n) : MicroOn A s { s with linksByName := n }
  | bind (a : Attach) (k) (h : .peer (.attach a) ∈ s.log ∨ ∃ r g, .ctl (.attachSender r a g) ∈ s.todo) :
      MicroOn A s { s with remoteHandles := s.remoteHandles.insert a.handle k }
  | unbind (f : Detach) (h : .peer (.detach f) ∈ s.log) : MicroOn A s { s with remoteHandles := s.remoteHandles.erase f.handle }
  | ending : MicroOn A s { s with ending := true }
  | ended (e) : MicroOn A s { s with error := some e, ended := true }
  -- links
  | insertSlot (l) (h : l.Bare) : MicroOn A s (s.insertLink l)
  | estSnd (k r l old) (hl : s.snd? r = some l) (hk : l.id = k) (ho : s.links.get k = some old)
      (ht : ∃ a g, .ctl (.attachSender r a g) ∈ s.todo) (hc : s.Released k) :
      MicroOn A s { s with links := s.links.set k (.snd (.established r)) }
  | estSndLocal (k l op) (ho : s.links.get k = some (.snd (.opening op))) (hk : l.id = k) (hp : l.pending = [])
      (hc : l.linkCredit = 0) (he : l.error = none) (hb : ∃ a : Attach, .peer (.attach a) ∈ s.log ∧
        l = sndNew k a.name a.handle (a.initialDeliveryCount.getD 0) (a.maxMessageSize.map clampU32)) :
      MicroOn A s { s with links := s.links.set k (.snd (.established s.snds.length)), snds := s.snds ++ [l] }
  | estRcv (k r src) (ho : s.links.get k = some (.rcv (.opening (some (r, src))))) :
      MicroOn A s { s with links := s.links.set k (.rcv (.established r)) }
  | estRcvLocal (k r op) (ho : s.links.get k = some (.rcv (.openingLocal (some (r, op))))) :
      MicroOn A s { s with links := s.links.set k (.rcv (.established r)) }
  | closeSlot (k l old) (ho : s.links.get k = some old) (h : l.Bare) (hc : s.Released k) :
      MicroOn A s { s with links := s.links.set k l }
  | removeSlot (k) (hc : s.Released k) : MicroOn A s { s with links := s.links.remove k }
  | clearSlots (hc : ∀ k, s.Released k) : MicroOn A s { s with links := .empty }
  -- new link objects
  | newSnd (a : Attach) (h : .peer (.attach a) ∈ s.log) (hr : a.role = .receiver) :
      MicroOn A s { s.insertLink (.snd .openingRemote) with
        snds := s.snds ++ [sndWith s.links.vacantKey a]
        todo := s.todo ++ [.ctl (.attachSender s.snds.length a (senderResponse s.links.vacantKey a))] }
  | newRcvRemote (a : Attach) (h : .peer (.attach a) ∈ s.log) :
      MicroOn A s { s.insertLink (.rcv (.opening (some (s.rcvs.length, a.source)))) with
        rcvs := s.rcvs ++ [rcvNew (UInt32.ofNat s.links.vacantKey) a.handle a] }
  | newRcvLocal (a : Attach) (op) :
      MicroOn A s { s.insertLink (.rcv (.openingLocal (some (s.rcvs.length, op)))) with
        rcvs := s.rcvs ++ [rcvNew (UInt32.ofNat s.links.vacantKey) (UInt32.ofNat s.links.vacantKey) a] }
  -- calls in flight
  | addTodo (a) (h : ∀ r f, a ≠ .ctl (.flow r f)) (h' : ∀ r f g, a ≠ .ctl (.attachSender r f g)) (hf : a.From s.log)
      (hr : ∀ r f g, a = .ctl (.attachReceiver r f g) → f.role = .sender ∧
        ∃ l k, s.rcv? r = some l ∧ l.handle = UInt32.ofNat k ∧ l.remoteHandle = f.handle ∧ g = receiverResponse k f) :
      MicroOn A s { s with todo := s.todo ++ [a] }
  | addFlow (r f k) (h : s.links.get k = some (.snd (.established r))) (hf : .peer (.flow f) ∈ s.log) :
      MicroOn A s { s with todo := s.todo ++ [.ctl (.flow r f)] }
  | eraseTodo (i) : MicroOn A s { s with todo := s.todo.eraseIdx i }
  -- sender links
  | sndClosed (r) : MicroOn A s (s.modSnd r fun l => { l with closed := true })
  | sndFailed (r e) (hk : s.Sends r) (he : s.Cause e) : MicroOn A s (s.sndRemoteDetached r e)
  | sndLimit (r n) : MicroOn A s (s.modSnd r fun l => { l with maxMessageSize := some n })
  | sndTag (r) : MicroOn A s (s.modSnd r fun l => { l with deliveryTag := l.deliveryTag + 1 })
  | flowLink (r f) (h : .ctl (.flow r f) ∈ s.todo) : MicroOn A s (s.applyFlow r f)
  | flowSess (f : Flow) :
      MicroOn A s { s.note (.windowed f) with
        nextIncomingId := f.nextOutgoingId
        remoteOutgoingWindow := f.outgoingWindow
        remoteIncomingWindow := (f.nextIncomingId.getD 0) + f.incomingWindow - s.nextOutgoingId }
  | drainWindow (p : Ref × UInt32 → Bool) (m) (hm : ∀ e, m = .error e → s.Cause e) :
      MicroOn A s { s.wakeAll ((s.pendingTransfers.filter p).map Prod.fst) m with
        pendingTransfers := s.pendingTransfers.filter fun x => !p x }
  -- sends
  | sendRefused (req e l) (hl : s.snd? req.link = some l)
      (he : l.error = some e ∨ e = .disconnected ∧ l.closed = true ∨
        e = .bodyTooLarge ∧ ∃ n, l.maxMessageSize = some n ∧ n.toNat < req.body.esize) :
      MicroOn A s { s with sends := s.sends ++ [⟨req, .done (.error e)⟩] }
  | sendNew (req tag l) (hl : s.snd? req.link = some l) (he : l.error = none) (hc : l.closed = false)
      (htag : tag = req.tag.getD (be 4 l.deliveryTag.toNat))
      (hsz : ∀ n, l.maxMessageSize = some n → req.body.esize ≤ n.toNat) :
      MicroOn A s { s with sends := s.sends ++ [⟨req, .credit tag (some (.ok ()))⟩] }
  | parkCredit (t req tag l) (ht : s.sends[t]? = some ⟨req, .credit tag (some (.ok ()))⟩) (hl : s.snd? req.link = some l)
      (h : l.linkCredit = 0 ∨ l.pending ≠ []) :
      MicroOn A s ((s.modSend t fun x => { x with st := .credit tag none }).modSnd req.link fun l =>
        { l with pending := l.pending ++ [t] })
  | parkWindow (t req tag l) (ht : s.sends[t]? = some ⟨req, .credit tag (some (.ok ()))⟩) (hl : s.snd? req.link = some l)
      (h : l.linkCredit ≠ 0) (hp : l.pending = []) (hw : s.remoteIncomingWindow = 0) :
      MicroOn A s { (s.takeCredit t req.link).modSend t fun x => { x with st := .window tag none } with
        pendingTransfers := s.pendingTransfers ++ [(t, UInt32.ofNat l.id)] }
  | sendNow (t req tag l) (ht : s.sends[t]? = some ⟨req, .credit tag (some (.ok ()))⟩) (hl : s.snd? req.link = some l)
      (h : l.linkCredit ≠ 0) (hp : l.pending = []) (hw : s.remoteIncomingWindow ≠ 0) :
      MicroOn A s ((s.takeCredit t req.link).emit t req (UInt32.ofNat l.id) tag)
  | reparkWindow (t req tag l) (ht : s.sends[t]? = some ⟨req, .window tag (some (.ok ()))⟩)
      (hl : s.snd? req.link = some l) (hw : s.remoteIncomingWindow = 0) :
      MicroOn A s { s.modSend t fun x => { x with st := .window tag none } with
        pendingTransfers := s.pendingTransfers ++ [(t, UInt32.ofNat l.id)] }
  | emitParked (t req tag l) (ht : s.sends[t]? = some ⟨req, .window tag (some (.ok ()))⟩)
      (hl : s.snd? req.link = some l) (hw : s.remoteIncomingWindow ≠ 0) :
      MicroOn A s (s.emit t req (UInt32.ofNat l.id) tag)
  | sendFailed (t x e) (ht : s.sends[t]? = some x)
      (h : ∃ tag, x.st = .credit tag (some (.error e)) ∨ x.st = .window tag (some (.error e))) :
      MicroOn A s (s.finishSend t (.error e))
  | sendCancel (t) : MicroOn A s (s.sendCancel t)
  -- deliveries
  | settle (d st) (h : s.free d = true ∧ A d) : MicroOn A s (s.settle d st)
  | update (d st) (h : s.free d = true ∧ A d) : MicroOn A s (s.updateState d st)
  | dropDlv (d) (h : s.free d = true ∧ A d) : MicroOn A s (s.dropDelivery d)
  | wait (d) (h : s.held d = true ∧ A d) : MicroOn A s (s.waitStart d)
  | waitResume (w) : MicroOn A s (s.waitResume w)
  | waitCancel (w) :
      MicroOn A s (s.modWait w fun t => { t with st := match t.st with | .done r => .done r | _ => .cancelled })
  | dispose (f : Frame) (disp no) (hd : f = .disposition disp) (h : s.log.getLast? = some (.peer f))
      (hn : (disp.last = none ∧ no = disp.first) ∨ ∃ last, disp.last = some last ∧ no ∈ idRange disp.first last) :
      MicroOn A s (disposeOne (disp.role = .receiver) disp s no)
  | failDlvs (b h) (f : Detach) (hf : .peer (.detach f) ∈ s.log) : MicroOn A s (s.failDeliveries b h (.linkDetached f.error))
  | clearSndDlvs (he : s.error.isSome) : MicroOn A s s.dropSent
  | clearRcvDlvs (he : s.error.isSome) : MicroOn A s s.dropReceived
  -- receiver links
  | rcvClosed (r) : MicroOn A s (s.modRcv r fun l => { l with closed := true })
  | rcvDetached (r e) : MicroOn A s (s.rcvRemoteDetached r e)
  | rcvReset (k r op) (h : s.links.get k = some (.rcv (.openingLocal (some (r, op))))) :
      MicroOn A s (s.modRcv r fun l => { l with queue := [], closed := true })
  | rcvLimit (r n) : MicroOn A s (s.modRcv r fun l => { l with maxMessageSize := n })
  | rcvErrTaken (r) : MicroOn A s (s.modRcv r fun l => { l with error := none })
  | grant (r n l) (hl : s.rcv? r = some l) :
      MicroOn A s ((s.note (.granted r n)).modRcv r fun l => { l with credit := l.credit + n })
  | recvNoCredit (r t l) (hl : s.rcv? r = some l) (hc : l.credit = 0) : MicroOn A s (s.note (.declined r t))
  | recvRefused (r t l) (hl : s.rcv? r = some l) (hc : l.credit ≠ 0) (h : Refusable s l t) :
      MicroOn A s ((s.note (.declined r t)).modRcv r fun l => { l with credit := l.charged t })
  | recvMerge (r t l body) (hk : s.Receives r) (hl : s.rcv? r = some l) (hc : l.credit ≠ 0) (hb : l.partialBody = some body) (hd : Continues s l t)
      (hm : t.head.more = true)
      (hs : t.body.isSome → body.length + optSum TransferBody.esize t.body ≤ l.maxMessageSize.toNat) :
      MicroOn A s ((s.note (.received r t)).modRcv r fun l =>
        { l with partialBody := some (body ++ optEnc TransferBody.tenc t.body) })
  | recvLast (r t l body) (hk : s.Receives r) (hl : s.rcv? r = some l) (hc : l.credit ≠ 0) (hb : l.partialBody = some body) (hd : Continues s l t)
      (hm : t.head.more = false) (hq : l.queue ≠ [])
      (hs : t.body.isSome → body.length + optSum TransferBody.esize t.body ≤ l.maxMessageSize.toNat) :
      MicroOn A s ((s.note (.received r t)).modRcv r fun l =>
        { l with credit := l.credit - 1, partialBody := none, deliveryCount := l.deliveryCount + 1
                 queue := setBackBody l.queue (body ++ optEnc TransferBody.tenc t.body) })
  | recvLost (r t l body) (hk : s.Receives r) (hl : s.rcv? r = some l) (hc : l.credit ≠ 0) (hb : l.partialBody = some body)
      (hm : t.head.more = false) (hq : l.queue = []) :
      MicroOn A s ((s.note (.received r t)).modRcv r fun l =>
        { l with credit := l.credit - 1, partialBody := none, deliveryCount := l.deliveryCount + 1 })
  | recvFirst (r t l id) (hk : s.Receives r) (hl : s.rcv? r = some l) (hc : l.credit ≠ 0) (hb : l.partialBody = none)
      (hm : t.head.more = true) (hi : t.head.deliveryId = some id) :
      MicroOn A s (((s.note (.received r t)).modRcv r fun l =>
        { l with partialBody := some (optEnc TransferBody.tenc t.body) }).startDelivery r l id { t with body := none })
  | recvSingle (r t l id) (hk : s.Receives r) (hl : s.rcv? r = some l) (hc : l.credit ≠ 0) (hb : l.partialBody = none)
      (hm : t.head.more = false) (hi : t.head.deliveryId = some id) :
      MicroOn A s (((s.note (.received r t)).modRcv r fun l =>
        { l with credit := l.credit - 1, deliveryCount := l.deliveryCount + 1 }).startDelivery r l id t)
  | handed (r l d t q) (hl : s.rcv? r = some l) (hq : l.queue = (d, t) :: q) (hp : l.partialBody = none ∨ q ≠ []) :
      MicroOn A s ((s.note (.handed r d t)).modRcv r fun l => { l with queue := q })

inductive MicrosOn (A : Ref → Prop) (s : Session) : Session → Prop
  | refl : MicrosOn A s s
  | tail {s' s''} : MicrosOn A s s' → MicroOn A s' s'' → MicrosOn A s s''

/-- A small change, whichever deliveries the application acts on. -/
abbrev Micro := MicroOn fun _ => True

abbrev Micros := MicrosOn fun _ => True

variable {A : Ref → Prop}

theorem MicrosOn.one {s s' : Session} (h : MicroOn A s s') : MicrosOn A s s' := .tail .refl h

theorem MicrosOn.trans {s s' s'' : Session} (h : MicrosOn A s s') (h' : MicrosOn A s' s'') : MicrosOn A s s'' := by
  induction h' with
  | refl => exact h
  | tail _ m ih => exact ih.tail m

theorem MicrosOn.invariant {P : Session → Prop} (hP : ∀ s s', MicroOn A s s' → P s → P s') {s s' : Session}
    (h : MicrosOn A s s') : P s → P s' := by
  intro hs
  induction h with
  | refl => exact hs
  | tail _ m ih => exact hP _ _ m ih

theorem Micros.invariant {P : Session → Prop} (hP : ∀ s s', Micro s s' → P s → P s') {s s' : Session}
    (h : Micros s s') : P s → P s' := MicrosOn.invariant hP h

theorem MicroOn.mono {B : Ref → Prop} (hB : ∀ d, A d → B d) {s s' : Session} (h : MicroOn A s s') : MicroOn B s s' := by
  cases h with
  | note e h => exact .note e h
  | newOp => exact .newOp
  | names n => exact .names n
  | bind a k h => exact .bind a k h
  | unbind f h => exact .unbind f h
  | ending => exact .ending
  | ended e => exact .ended e
  | insertSlot l h => exact .insertSlot l h
  | estSnd k r l old hl hk ho ht hc => exact .estSnd k r l old hl hk ho ht hc
  | estSndLocal k l op ho hk hp hc he hb => exact .estSndLocal k l op ho hk hp hc he hb
  | estRcv k r src ho => exact .estRcv k r src ho
  | estRcvLocal k r op ho => exact .estRcvLocal k r op ho
  | closeSlot k l old ho h hc => exact .closeSlot k l old ho h hc
  | removeSlot k hc => exact .removeSlot k hc
  | clearSlots hc => exact .clearSlots hc
  | newSnd a h hr => exact .newSnd a h hr
  | newRcvRemote a h => exact .newRcvRemote a h
  | newRcvLocal a op => exact .newRcvLocal a op
  | addTodo a h h' hf hr => exact .addTodo a h h' hf hr
  | addFlow r f k h hf => exact .addFlow r f k h hf
  | eraseTodo i => exact .eraseTodo i
  | sndClosed r => exact .sndClosed r
  | sndFailed r e hk he => exact .sndFailed r e hk he
  | sndLimit r n => exact .sndLimit r n
  | sndTag r => exact .sndTag r
  | flowLink r f h => exact .flowLink r f h
  | flowSess f => exact .flowSess f
  | drainWindow p m hm => exact .drainWindow p m hm
  | sendRefused req e l hl he => exact .sendRefused req e l hl he
  | sendNew req tag l hl he hc htag hsz => exact .sendNew req tag l hl he hc htag hsz
  | parkCredit t req tag l ht hl h => exact .parkCredit t req tag l ht hl h
  | parkWindow t req tag l ht hl h hp hw => exact .parkWindow t req tag l ht hl h hp hw
  | sendNow t req tag l ht hl h hp hw => exact .sendNow t req tag l ht hl h hp hw
  | reparkWindow t req tag l ht hl hw => exact .reparkWindow t req tag l ht hl hw
  | emitParked t req tag l ht hl hw => exact .emitParked t req tag l ht hl hw
  | sendFailed t x e ht h => exact .sendFailed t x e ht h
  | sendCancel t => exact .sendCancel t
  | settle d st h => exact .settle d st ⟨h.1, hB d h.2⟩
  | update d st h => exact .update d st ⟨h.1, hB d h.2⟩
  | dropDlv d h => exact .dropDlv d ⟨h.1, hB d h.2⟩
  | wait d h => exact .wait d ⟨h.1, hB d h.2⟩
  | waitResume w => exact .waitResume w
  | waitCancel w => exact .waitCancel w
  | dispose f disp no hd h hn => exact .dispose f disp no hd h hn
  | failDlvs b h f hf => exact .failDlvs b h f hf
  | clearSndDlvs he => exact .clearSndDlvs he
  | clearRcvDlvs he => exact .clearRcvDlvs he
  | rcvClosed r => exact .rcvClosed r
  | rcvDetached r e => exact .rcvDetached r e
  | rcvReset k r op h => exact .rcvReset k r op h
  | rcvLimit r n => exact .rcvLimit r n
  | rcvErrTaken r => exact .rcvErrTaken r
  | grant r n l hl => exact .grant r n l hl
  | recvNoCredit r t l hl hc => exact .recvNoCredit r t l hl hc
  | recvRefused r t l hl hc h => exact .recvRefused r t l hl hc h
  | recvMerge r t l body hk hl hc hb hd hm hs => exact .recvMerge r t l body hk hl hc hb hd hm hs
  | recvLast r t l body hk hl hc hb hd hm hq hs => exact .recvLast r t l body hk hl hc hb hd hm hq hs
  | recvLost r t l body hk hl hc hb hm hq => exact .recvLost r t l body hk hl hc hb hm hq
  | recvFirst r t l id hk hl hc hb hm hi => exact .recvFirst r t l id hk hl hc hb hm hi
  | recvSingle r t l id hk hl hc hb hm hi => exact .recvSingle r t l id hk hl hc hb hm hi
  | handed r l d t q hl hq hp => exact .handed r l d t q hl hq hp

theorem MicroOn.any {s s' : Session} (h : MicroOn A s s') : Micro s s' := h.mono fun _ _ => trivial

/-- What happened stays in the log. -/
theorem MicroOn.log_mem {s s' : Session} (h : MicroOn A s s') {e : Ev} (he : e ∈ s.log) : e ∈ s'.log := by
  cases h
  case settle d st _ =>
    rcases settle_log s d st with h | ⟨_, _, h⟩ <;> rw [h]
    · exact he
    · exact List.mem_append_left _ he
  case update d st _ =>
    rcases updateState_log s d st with h | ⟨_, _, h⟩ <;> rw [h]
    · exact he
    · exact List.mem_append_left _ he
  case dropDlv d _ =>
    rcases dropDelivery_log s d with h | ⟨_, _, h⟩ <;> rw [h]
    · exact he
    · exact List.mem_append_left _ he
  all_goals first | exact he | exact List.mem_append_left _ he | (simp [he]; done)

theorem MicrosOn.log_mem {s s' : Session} (h : MicrosOn A s s') {e : Ev} (he : e ∈ s.log) : e ∈ s'.log :=
  h.invariant (P := fun s => e ∈ s.log) (fun _ _ m h => m.log_mem h) he

/-! ## Decomposition of the functions of the model -/

namespace Session

theorem post_micro (s : Session) (f : Frame) (h : Ev.Allowed s (.frame f)) : MicroOn A s (s.post f) := .note _ h

theorem dropLink_micros (s : Session) (l : Link) : MicrosOn A s (s.dropLink l) := by
  unfold dropLink
  split <;> first
    | exact .one (.sndClosed _)
    | exact .one (.rcvClosed _)
    | exact .one (.note _ (by trivial))
    | exact .refl

theorem released_of {s : Session} {k : Nat} {old : Link} (ho : s.links.get k = some old)
    (hn : ∀ r, old ≠ .snd (.established r)) : s.Released k := by
  intro r l h
  rw [ho] at h
  exact absurd (Option.some.inj h) (hn r)

/-- The drop of what was in the slot, seen as happening first. -/
theorem drop_micros {s : Session} {k : Nat} {old : Link} (ho : s.links.get k = some old) (m : Slab Link)
    (h : ∀ s' : Session, s'.links = s.links → s'.snds.length = s.snds.length →
      (∀ r l, s.snd? r = some l → ∃ l', s'.snd? r = some l' ∧ l'.id = l.id) → s'.todo = s.todo → s'.Released k →
      MicroOn A s' { s' with links := m }) :
    MicrosOn A s ({ s with links := m }.dropLink old) := by
  by_cases hn : ∀ r, old ≠ .snd (.established r)
  · exact (MicrosOn.one (h s rfl rfl (fun r l hl => ⟨l, hl, rfl⟩) rfl (released_of ho hn))).trans (dropLink_micros _ _)
  · obtain ⟨r, rfl⟩ : ∃ r, old = .snd (.established r) := by
      exact Classical.not_forall_not.mp hn
    refine (MicrosOn.one (.sndClosed r)).trans (MicrosOn.one (h (s.modSnd r fun l => { l with closed := true }) rfl
      (List.length_modify ..) (fun q l hl => ?_) rfl ?_))
    · by_cases hq : r = q
      · subst hq
        refine ⟨{ l with closed := true }, ?_, rfl⟩
        simp only [snd?, modSnd, List.getElem?_modify] at hl ⊢
        rw [hl]
        simp
      · refine ⟨l, ?_, rfl⟩
        simp only [snd?, modSnd, List.getElem?_modify] at hl ⊢
        rw [hl]
        simp [hq]
    · intro q l hq hl
      obtain rfl : r = q := by
        rw [show (s.modSnd r fun l => { l with closed := true }).links = s.links from rfl, ho] at hq
        cases hq
        rfl
      simp only [snd?, modSnd, List.getElem?_modify] at hl
      cases hr : s.snds[r]? with
      | none => rw [hr] at hl; cases hl
      | some x =>
        rw [hr] at hl
        simp at hl
        rw [← hl]

theorem closeSlot_micros (s : Session) (k : Nat) (l : Link) (h : l.Bare) : MicrosOn A s (s.setLink k l) := by
  unfold setLink
  split
  · next old ho => exact drop_micros ho _ fun s' h₁ _ _ _ hc => by rw [← h₁] at ho ⊢; exact .closeSlot k l old ho h hc
  · exact .refl

theorem removeLink_micros (s : Session) (k : Nat) : MicrosOn A s (s.removeLink k) := by
  unfold removeLink
  split
  · next old ho => exact drop_micros ho _ fun s' h₁ _ _ _ hc => by rw [← h₁]; exact .removeSlot k hc
  · exact .refl

theorem rcvLinkFlow_micros (s : Session) (r : Ref) (l : Rcv) (hl : s.rcv? r = some l) (c : UInt32) :
    MicrosOn A s (s.rcvLinkFlow l.handle l.deliveryCount c) :=
  .one (.note _ ⟨rfl, rfl, .inl rfl, rfl, rfl, .inr ⟨r, l, hl, rfl, rfl, rfl⟩⟩)

theorem echoFlow_micro (s : Session) : MicroOn A s (s.post s.echoFlow) := by
  refine .note _ ⟨rfl, rfl, ?_, rfl, rfl, .inl ⟨rfl, rfl, rfl⟩⟩
  dsimp only
  cases s.isLocal
  · exact .inr ⟨rfl, rfl⟩
  · exact .inl rfl

theorem detachSender_micros (s : Session) (id : UInt32) (c : Bool) (e : Option Error) :
    MicrosOn A s (s.detachSender id c e) := by
  unfold detachSender
  refine (MicrosOn.one .newOp).trans ?_
  dsimp only
  split
  · exact (closeSlot_micros _ _ _ (by exact ⟨trivial, rfl⟩)).tail (.note _ (by trivial))
  · exact ((closeSlot_micros _ _ _ (by exact ⟨trivial, rfl⟩)).tail (.note _ (by trivial))).tail (.note _ (by trivial))
  · exact .one (.note _ (by trivial))

theorem closeSender_micros (s : Session) (r : Ref) (e : Option Error) : MicrosOn A s (s.closeSender r e) := by
  unfold closeSender
  split
  · split
    · exact (MicrosOn.one .newOp).tail (.note _ (by trivial))
    · exact (MicrosOn.one (.sndClosed r)).trans (detachSender_micros _ _ _ _)
  · exact .refl

theorem detachReceiver_micros (s : Session) (id : UInt32) (c : Bool) (e : Option Error) :
    MicrosOn A s (s.detachReceiver id c e) := by
  unfold detachReceiver
  refine (MicrosOn.one .newOp).trans ?_
  dsimp only
  split
  · refine MicrosOn.trans ?_ (removeLink_micros _ _)
    refine MicrosOn.tail (MicrosOn.tail ?_ (.note _ (by trivial))) (.note _ (by trivial))
    split
    · exact .one (.note _ (by trivial))
    · exact .refl
  · exact ((closeSlot_micros _ _ _ (by exact ⟨trivial, rfl⟩)).tail (.note _ (by trivial))).tail (.note _ (by trivial))
  · exact (MicrosOn.one (.note _ (by trivial))).trans (removeLink_micros _ _)
  · exact .one (.note _ (by trivial))
  · exact .one (.note _ (by trivial))

theorem closeReceiver_micros (s : Session) (r : Ref) (e : Option Error) : MicrosOn A s (s.closeReceiver r e) := by
  unfold closeReceiver
  split
  · dsimp only
    split
    · exact ((MicrosOn.one .newOp).tail (.note _ (by trivial))).tail (.rcvClosed r)
    · exact (detachReceiver_micros _ _ _ _).tail (.rcvClosed r)
  · exact .refl

theorem drainAll_micro (s : Session) (m) (hm : ∀ e, m = .error e → s.Cause e) :
    MicroOn A s (s.drainPending m) := by
  have h₁ : s.pendingTransfers.filter (fun _ => true) = s.pendingTransfers := List.filter_eq_self.mpr fun _ _ => rfl
  have h₂ : (s.pendingTransfers.filter fun x => !(fun _ => true) x) = [] := by simp
  have := MicroOn.drainWindow (A := A) (s := s) (fun _ => true) m hm
  rw [h₁, h₂] at this
  exact this

theorem handleFlow_micros (s : Session) (f : Flow) (l : Option Ref)
    (h : ∀ r, l = some r → .ctl (.flow r f) ∈ s.todo) : MicrosOn A s (s.handleFlow f l) := by
  unfold handleFlow
  refine (MicrosOn.one (.flowSess f)).trans ((MicrosOn.one (drainAll_micro _ (.ok ()) (by simp))).trans ?_)
  dsimp only
  split
  · next r =>
    have h := h r rfl
    split
    · exact (MicrosOn.one (echoFlow_micro _)).tail (.flowLink _ _ (by simpa [drainPending] using h))
    · exact .one (.flowLink _ _ (by simpa [drainPending] using h))
  · split
    · exact .one (echoFlow_micro _)
    · exact .refl

theorem checkAdd_micros (s : Session) (a b) : MicrosOn A s (s.checkAdd a b) := by
  unfold checkAdd
  split
  · exact .refl
  · exact .one (.note _ (by trivial))

theorem checkAdd_rcvs (s : Session) (a b) : (s.checkAdd a b).rcvs = s.rcvs := by
  unfold checkAdd; split <;> rfl

theorem checkAdd_links (s : Session) (a b) : (s.checkAdd a b).links = s.links := by
  unfold checkAdd; split <;> rfl

theorem setLinkCredit_micros (s : Session) (r : Ref) (n : UInt32) : MicrosOn A s (s.setLinkCredit r n) := by
  unfold setLinkCredit
  split
  · next l hl =>
    refine MicrosOn.trans ?_ (rcvLinkFlow_micros _ r { l with credit := l.credit + n } (by
      have hl' : ((s.note (.granted r n)).checkAdd l.credit n).rcvs[r]? = some l := by rw [checkAdd_rcvs]; exact hl
      simp only [rcv?, modRcv, List.getElem?_modify_eq, hl']; rfl) _)
    have : (((s.note (.granted r n)).checkAdd l.credit n).modRcv r fun l => { l with credit := l.credit + n })
        = (((s.note (.granted r n)).modRcv r fun l => { l with credit := l.credit + n }).checkAdd l.credit n) := by
      unfold checkAdd; split <;> rfl
    rw [this]
    exact (MicrosOn.one (.grant r n l hl)).trans (checkAdd_micros _ _ _)
  · exact .refl

/-! ### Receiving -/

theorem modRcv_modRcv (s : Session) (r : Ref) (f g : Rcv → Rcv) :
    (s.modRcv r f).modRcv r g = s.modRcv r fun l => g (f l) := by
  unfold modRcv
  simp only [List.modify_modify_eq]
  rfl

theorem modRcv_self (s : Session) (r : Ref) : s.modRcv r (fun l => l) = s := by
  unfold modRcv
  rw [show (fun l : Rcv => l) = _root_.id from rfl, List.modify_id]

theorem rcv?_modRcv_ne (s : Session) {r r' : Ref} (h : r ≠ r') (f : Rcv → Rcv) :
    (s.modRcv r f).rcv? r' = s.rcv? r' := by
  simp [modRcv, rcv?, h]

theorem charge_eq (s : Session) (r : Ref) (t : Transfer) :
    s.charge r t = s.modRcv r fun l => { l with credit := l.charged t } := by
  unfold charge Rcv.charged
  split
  · exact (modRcv_self _ _).symm
  · rfl

theorem charge_more {t : Transfer} (h : t.head.more = true) (s : Session) (r : Ref) : s.charge r t = s := by
  simp [charge, h]

theorem charge_last {t : Transfer} (h : t.head.more = false) (s : Session) (r : Ref) :
    s.charge r t = s.modRcv r fun l => { l with credit := l.credit - 1 } := by
  simp [charge, h]

theorem charge_note (s : Session) (e : Ev) (r : Ref) (t : Transfer) : (s.charge r t).note e = (s.note e).charge r t := by
  unfold charge; split <;> rfl

theorem charge_dlvs (s : Session) (r : Ref) (t : Transfer) : (s.charge r t).dlvs = s.dlvs := by
  unfold charge; split <;> rfl

theorem backId_congr {s s' : Session} (h : s.dlvs = s'.dlvs) (l : Rcv) : s.backId l = s'.backId l := by
  simp only [backId, dlv?, h]

theorem countDelivery_eq {l : Rcv} (r : Ref) :
    (∀ s : Session, s.countDelivery r l = s.modRcv r (fun l => { l with deliveryCount := l.deliveryCount + 1 })) ∨
    (∀ s : Session, s.countDelivery r l =
      (s.modRcv r (fun l => { l with deliveryCount := l.deliveryCount + 1 })).note .overflow) := by
  unfold countDelivery checkAdd
  split
  · exact .inl fun _ => rfl
  · exact .inr fun _ => rfl

theorem note_modRcv (s : Session) (e : Ev) (r : Ref) (f : Rcv → Rcv) : (s.note e).modRcv r f = (s.modRcv r f).note e := rfl

theorem continueTransfer_micros (s : Session) (r : Ref) (t : Transfer) (l : Rcv) (body : Bytes)
    (hk : s.Receives r) (hl : s.rcv? r = some l) (hc : l.credit ≠ 0) (hb : l.partialBody = some body) :
    MicrosOn A s ((s.charge r t).continueTransfer r l body t).1 := by
  have hback : (s.charge r t).backId l = s.backId l :=
    backId_congr (charge_dlvs _ _ _) l
  unfold continueTransfer
  rw [hback]
  simp only [charge_note]
  split
  · next hw =>
    have hr : Refusable s l t := by unfold Refusable; rw [hb]; exact .inl hw
    rw [charge_eq]
    exact (MicrosOn.one (.recvRefused r t l hl hc hr)).trans (closeReceiver_micros _ _ _)
  · next hw =>
    have hcont : Continues s l t := fun hs => Decidable.not_not.mp (not_and.mp hw hs)
    split
    · next hz =>
      have hr : Refusable s l t := by unfold Refusable; rw [hb]; exact .inr hz
      rw [charge_eq]
      exact (MicrosOn.one (.recvRefused r t l hl hc hr)).trans (closeReceiver_micros _ _ _)
    · next hz =>
      have hz' : t.body.isSome → body.length + optSum TransferBody.esize t.body ≤ l.maxMessageSize.toNat := by
        intro h; have := not_and.mp hz h; omega
      split
      · next hm =>
        rw [charge_more hm]
        exact MicrosOn.one (.recvMerge r t l body hk hl hc hb hcont hm hz')
      · next hm =>
        have hm' : t.head.more = false := by simpa using hm
        rw [charge_last hm']
        split
        · next hq =>
          rcases countDelivery_eq (l := l) r with h | h
          · rw [h, modRcv_modRcv, modRcv_modRcv, modRcv_modRcv, modRcv_modRcv]
            exact MicrosOn.one (.recvLast r t l body hk hl hc hb hcont hm' hq hz')
          · rw [h, note_modRcv, note_modRcv, modRcv_modRcv, modRcv_modRcv, modRcv_modRcv, modRcv_modRcv]
            exact (MicrosOn.one (.recvLast r t l body hk hl hc hb hcont hm' hq hz')).tail (.note .overflow (by trivial))
        · next hq =>
          refine MicrosOn.trans ?_ (closeReceiver_micros _ _ _)
          have hq' : l.queue = [] := by simpa using hq
          rcases countDelivery_eq (l := l) r with h | h
          · rw [h, modRcv_modRcv, modRcv_modRcv, modRcv_modRcv]
            exact MicrosOn.one (.recvLost r t l body hk hl hc hb hm' hq')
          · rw [h, note_modRcv, modRcv_modRcv, modRcv_modRcv, modRcv_modRcv]
            exact (MicrosOn.one (.recvLost r t l body hk hl hc hb hm' hq')).tail (.note .overflow (by trivial))

theorem startDelivery_note (s : Session) (e : Ev) (r : Ref) (l : Rcv) (id : UInt32) (t : Transfer) :
    (s.note e).startDelivery r l id t = (s.startDelivery r l id t).note e := by
  unfold startDelivery newRcv
  cases t.head.settled.getD false
  · simp only [Bool.false_eq_true, if_false]
    show Session.modRcv _ _ _ = _
    cases h : s.unsettledRcv.get id with
    | none => simp only [note, h]; rfl
    | some old =>
      simp only [note, h]
      cases old.tx <;> rfl
  · rfl

theorem beginTransfer_micros (s : Session) (r : Ref) (t : Transfer) (l : Rcv)
    (hk : s.Receives r) (hl : s.rcv? r = some l) (hc : l.credit ≠ 0) (hb : l.partialBody = none) :
    MicrosOn A s ((s.charge r t).beginTransfer r l t).1 := by
  unfold beginTransfer
  simp only [charge_note]
  split
  · next id hi =>
    split
    · next hm =>
      rw [charge_more hm]
      exact MicrosOn.one (.recvFirst r t l id hk hl hc hb hm hi)
    · next hm =>
      have hm' : t.head.more = false := by simpa using hm
      rw [charge_last hm']
      rcases countDelivery_eq (l := l) r with h | h
      · rw [h, modRcv_modRcv]
        exact MicrosOn.one (.recvSingle r t l id hk hl hc hb hm' hi)
      · rw [h, modRcv_modRcv, startDelivery_note]
        exact (MicrosOn.one (.recvSingle r t l id hk hl hc hb hm' hi)).tail (.note .overflow (by trivial))
  · next hi =>
    have hr : Refusable s l t := by unfold Refusable; rw [hb]; exact hi
    rw [charge_eq]
    exact (MicrosOn.one (.recvRefused r t l hl hc hr)).trans (closeReceiver_micros _ _ _)

theorem handleTransfer_micros (s : Session) (r : Ref) (t : Transfer) (hk : s.Receives r) : MicrosOn A s (s.handleTransfer r t).1 := by
  unfold handleTransfer
  split
  · exact .refl
  · next l hl =>
    split
    · next hc => exact (MicrosOn.one (.recvNoCredit r t l hl hc)).trans (closeReceiver_micros _ _ _)
    · next hc =>
      split
      · next body hb => exact continueTransfer_micros s r t l body hk hl hc hb
      · next hb => exact beginTransfer_micros s r t l hk hl hc hb

theorem pollRecv_micros (s : Session) (r : Ref) : MicrosOn A s (s.pollRecv r).1 := by
  unfold pollRecv
  split
  · exact .refl
  · next l hl =>
    have hstop : MicrosOn A s (if l.closed = true then
        (match l.error with
        | some e => (s.modRcv r fun l => { l with error := none }, Recv.error (.linkDetached (some e)))
        | none => (s, Recv.ended)) else (s, Recv.pending)).1 := by
      split
      · split
        · exact .one (.rcvErrTaken r)
        · exact .refl
      · exact .refl
    dsimp only
    split
    · exact hstop
    · next hp =>
      split
      · next d t q hq =>
        refine .one (.handed r l d t q hl hq ?_)
        rcases hpb : l.partialBody with _ | b
        · exact .inl rfl
        · right
          intro hqn
          exact hp ⟨by rw [hpb]; rfl, by rw [hq, hqn]; rfl⟩
      · exact hstop

theorem getDelivery_micros (s : Session) (r : Ref) : MicrosOn A s (s.getDelivery r).1 := by
  unfold getDelivery
  split
  · exact .refl
  · next l hl =>
    split
    · next hp =>
      split
      · next d t q hq =>
        refine .one (.handed r l d t q hl hq ?_)
        rcases hp with hp | hp
        · exact .inl (by simpa using hp)
        · right
          intro hqn
          rw [hq, hqn] at hp
          exact absurd hp (by simp)
      · exact .refl
    · exact .refl

/-! ### Sending -/

theorem windowLoop_consume_micros (s : Session) (t : Ref) (req : SendReq) (tag : Bytes) (l : Snd)
    (ht : s.sends[t]? = some ⟨req, .credit tag (some (.ok ()))⟩) (hl : s.snd? req.link = some l)
    (h : l.linkCredit ≠ 0) (hp : l.pending = []) :
    MicrosOn A s ((s.takeCredit t req.link).windowLoop t req tag) := by
  have hl' : (s.takeCredit t req.link).snd? req.link
      = some { l with linkCredit := l.linkCredit - 1, deliveryCount := l.deliveryCount + 1 } := by
    simp only [snd?] at hl
    simp [takeCredit, modSnd, snd?, hl]
  unfold windowLoop
  rw [hl']
  dsimp only
  split
  · next hw => exact .one (.parkWindow t req tag l ht hl h hp hw)
  · next hw => exact .one (.sendNow t req tag l ht hl h hp hw)

theorem creditLoop_micros (s : Session) (t : Ref) (req : SendReq) (tag : Bytes)
    (ht : s.sends[t]? = some ⟨req, .credit tag (some (.ok ()))⟩) : MicrosOn A s (s.creditLoop t req tag) := by
  unfold creditLoop
  split
  · next l hl =>
    split
    · next h => exact .one (.parkCredit t req tag l ht hl h)
    · next h =>
      have h' := not_or.mp h
      exact windowLoop_consume_micros s t req tag l ht hl h'.1 (Decidable.not_not.mp h'.2)
  · exact .refl

theorem windowLoop_micros (s : Session) (t : Ref) (req : SendReq) (tag : Bytes)
    (ht : s.sends[t]? = some ⟨req, .window tag (some (.ok ()))⟩) : MicrosOn A s (s.windowLoop t req tag) := by
  unfold windowLoop
  split
  · next l hl =>
    dsimp only
    split
    · next hw => exact .one (.reparkWindow t req tag l ht hl hw)
    · next hw => exact .one (.emitParked t req tag l ht hl hw)
  · exact .refl

theorem sendStart_go_micros (s : Session) (req : SendReq) (l : Snd) (hl : s.snd? req.link = some l)
    (he : l.error = none) (hc : l.closed = false) (hsz : ∀ n, l.maxMessageSize = some n → req.body.esize ≤ n.toNat) :
    MicrosOn A s (sendStart.go req s s.sends.length l) := by
  unfold sendStart.go
  split
  · next tag htag =>
    refine (MicrosOn.one (.sendNew req tag l hl he hc (by rw [htag]; rfl) hsz)).trans (creditLoop_micros _ _ _ _ ?_)
    simp
  · next htag =>
    refine ((MicrosOn.one (.sendNew req (be 4 l.deliveryTag.toNat) l hl he hc (by rw [htag]; rfl) hsz)).tail (.sndTag req.link)).trans
      (creditLoop_micros _ _ _ _ ?_)
    simp [modSnd]

theorem sendStart_micros (s : Session) (req : SendReq) : MicrosOn A s (s.sendStart req) := by
  unfold sendStart
  split
  · next l hl =>
    dsimp only
    split
    · next e he => exact .one (.sendRefused req _ l hl (.inl he))
    · next he =>
      split
      · next hc => exact .one (.sendRefused req _ l hl (.inr (.inl ⟨rfl, hc⟩)))
      · next hc =>
        have hc' : l.closed = false := by simpa using hc
        split
        · next n hn =>
          split
          · next hz => exact .one (.sendRefused req _ l hl (.inr (.inr ⟨rfl, n, hn, hz⟩)))
          · next hz =>
            exact sendStart_go_micros s req l hl he hc' (fun m hm => by
              obtain rfl : n = m := by simpa [hn] using hm
              omega)
        · next hn => exact sendStart_go_micros s req l hl he hc' (fun m hm => by simp [hn] at hm)
  · exact .refl

theorem sendResume_micros (s : Session) (t : Ref) : MicrosOn A s (s.sendResume t) := by
  unfold sendResume
  split
  · next req tag mail ht =>
    split
    · next e => exact .one (.sendFailed t _ e ht ⟨tag, .inl rfl⟩)
    · exact creditLoop_micros s t req tag ht
  · next req tag mail ht =>
    split
    · next e => exact .one (.sendFailed t _ e ht ⟨tag, .inr rfl⟩)
    · exact windowLoop_micros s t req tag ht
  · exact .refl

/-! ### Attaching and detaching -/

theorem attachLocalSender_micros (s : Session) (a : Attach) : MicrosOn A s (s.attachLocalSender a) :=
  (((MicrosOn.one (.insertSlot (.snd (.opening (some s.ops))) ⟨trivial, rfl⟩)).tail .newOp).tail (.names _)).tail
    (post_micro _ _ (by trivial))

theorem attachLocalReceiver_micros (s : Session) (a : Attach) : MicrosOn A s (s.attachLocalReceiver a) :=
  (((MicrosOn.one (.newRcvLocal a s.ops)).tail .newOp).tail (.names _)).tail (post_micro _ _ (by trivial))

theorem confirmSender_micros (s : Session) (a response : Attach) (r : Ref)
    (ht : ∃ g, .ctl (.attachSender r a g) ∈ s.todo) : MicrosOn A s (s.confirmSender a response r) := by
  unfold confirmSender
  split
  · next l hl =>
    dsimp only
    have hreg : MicrosOn A s (s.registerSender a l.id) :=
      (MicrosOn.one (.names (match a.source.bind Source.address with
        | some addr => s.linksByName.insert addr l.id
        | none => s.linksByName))).tail (.bind a l.id (.inr ⟨r, ht⟩))
    refine hreg.trans ?_
    have hl' : (s.registerSender a l.id).snd? r = some l := hl
    have ht' : ∃ a' g, .ctl (.attachSender r a' g) ∈ (s.registerSender a l.id).todo := ⟨a, ht⟩
    generalize s.registerSender a l.id = s' at hl' ht'
    split
    · refine MicrosOn.tail ?_ (post_micro _ _ (by trivial))
      unfold setLink
      split
      · next old ho =>
        refine drop_micros ho _ fun s'' h₁ _ h₂ h₃ hc => ?_
        obtain ⟨l', hl'', hid⟩ := h₂ r l hl'
        rw [← h₁] at ho ⊢
        exact .estSnd l.id r l' old hl'' hid ho (by rw [h₃]; exact ht') hc
      · exact .refl
    · exact .one (.note _ (by trivial))
  · exact .refl

theorem refuseSender_micros (s : Session) (a : Attach) (r : Ref) (e : Error) : MicrosOn A s (s.refuseSender a r e) := by
  unfold refuseSender
  split
  · exact ((MicrosOn.one (post_micro _ _ (by trivial))).tail (post_micro _ _ (by trivial))).trans (removeLink_micros _ _)
  · exact .refl

theorem confirmReceiver_micros (s : Session) (r : Ref) (response : Attach) : MicrosOn A s (s.confirmReceiver r response) := by
  unfold confirmReceiver
  split
  · split
    · next k r' src ho =>
      refine MicrosOn.tail ?_ (post_micro _ _ (by trivial))
      unfold setLink
      rw [ho]
      exact .one (.estRcv _ r' src ho)
    · exact .refl
  · exact .refl

theorem handleAttach_micros (s : Session) (a : Attach) (ha : .peer (.attach a) ∈ s.log) : MicrosOn A s (s.handleAttach a).1 := by
  unfold handleAttach
  split
  · next index _ =>
    split
    · next tx ho =>
      dsimp only
      have h : MicrosOn A s { s with
          remoteHandles := s.remoteHandles.insert a.handle index
          snds := s.snds ++ [sndNew index a.name a.handle (a.initialDeliveryCount.getD 0) (a.maxMessageSize.map clampU32)]
          links := s.links.set index (.snd (.established s.snds.length)) } :=
        (MicrosOn.one (.bind a index (.inl ha))).tail
          (.estSndLocal index (sndNew index a.name a.handle (a.initialDeliveryCount.getD 0)
            (a.maxMessageSize.map clampU32)) tx ho rfl rfl rfl rfl ⟨a, ha, rfl⟩)
      split
      · exact h.tail (.note _ (by trivial))
      · exact h
    · next r op ho =>
      exact ((MicrosOn.one (.bind a index (.inl ha))).tail (.estRcvLocal index r op ho)).tail
        (.note _ (by trivial))
    · exact .refl
  · exact .refl

theorem failDlvs_links (s : Session) (b h e) : (s.failDeliveries b h e).links = s.links := by
  have key : ∀ (m : List (UInt32 × DlvInner)) (s : Session),
      (m.foldl (fun s d => if d.2.handle = h then s.notify d.2.tx true else s) s).links = s.links := by
    intro m
    induction m with
    | nil => intro s; rfl
    | cons d m ih =>
      intro s
      refine (ih _).trans ?_
      dsimp only
      split
      · cases d.2.tx <;> rfl
      · rfl
  unfold failDeliveries setUnsettled
  split <;> exact key _ _

theorem forget_micros (s : Session) (k : Nat) (f : Detach) (hf : .peer (.detach f) ∈ s.log) (hc : s.Released k) :
    MicrosOn A s (s.forget k f.handle) :=
  (MicrosOn.one (.removeSlot k hc)).tail (.unbind f hf)

theorem forget_other {s : Session} (s' : Session) {k : Nat} {old : Link} (f : Detach) (ho : s.links.get k = some old)
    (hn : ∀ r, old ≠ .snd (.established r)) (hl : s'.links = s.links) (hf : .peer (.detach f) ∈ s'.log) :
    MicrosOn A s' (s'.forget k f.handle) :=
  forget_micros s' k f hf (released_of (by rw [hl]; exact ho) hn)

theorem failPending_micros (s : Session) (h : UInt32) (e : PErr) (he : s.Cause e) : MicrosOn A s (s.failPending h e) := by
  have := MicroOn.drainWindow (A := A) (s := s) (fun p => decide (p.2 = h)) (.error e) (by rintro _ ⟨⟩; exact he)
  have hf : (s.pendingTransfers.filter fun x => !(fun p : Ref × UInt32 => decide (p.2 = h)) x)
      = s.pendingTransfers.filter fun p => ¬ p.2 = h := by
    congr 1; funext x; simp
  rw [hf] at this
  exact .one this

theorem detachEstablishedSender_micros (s : Session) (r : Ref) (l : Snd) (f : Detach) (hf : .peer (.detach f) ∈ s.log)
    (hk : s.Sends r) : MicrosOn A s (s.detachEstablishedSender r l f) := by
  unfold detachEstablishedSender
  refine MicrosOn.tail ?_ (post_micro _ _ (by trivial))
  refine MicrosOn.tail ?_ (.sndFailed _ _ (by simpa [failPending, Session.Sends] using hk)
    (.inr ⟨f, by simpa [failPending] using hf, rfl⟩))
  refine MicrosOn.tail ?_ (.failDlvs _ _ f (by simpa [failPending] using hf))
  exact (MicrosOn.one (.names _)).trans (failPending_micros _ _ _ (.inr ⟨f, hf, rfl⟩))

theorem detachEstablishedReceiver_micros (s : Session) (r : Ref) (l : Rcv) (f : Detach)
    (hf : .peer (.detach f) ∈ s.log) : MicrosOn A s (s.detachEstablishedReceiver r l f) :=
  ((MicrosOn.one (.failDlvs _ _ f hf)).tail (post_micro _ _ (by trivial))).tail (.rcvDetached _ _)

theorem sndRemoteDetached_closed {s : Session} {r : Ref} {e : PErr} {l : Snd} (h : (s.sndRemoteDetached r e).snd? r = some l) :
    l.closed = true := by
  unfold sndRemoteDetached at h
  cases hs : s.snd? r with
  | none =>
    rw [hs] at h
    dsimp only at h
    rw [hs] at h
    cases h
  | some x =>
    rw [hs] at h
    dsimp only at h
    have : (s.wakeAll x.pending (.error e)).snds[r]? = some x := by rw [wakeAll_snds]; exact hs
    simp only [snd?, modSnd, List.getElem?_modify, this] at h
    simp at h
    rw [← h]

theorem detachEstablishedSender_released {s : Session} {r : Ref} {l : Snd} {f : Detach} {k : Nat}
    (ho : s.links.get k = some (.snd (.established r))) (hl : s.snd? r = some l) :
    (s.detachEstablishedSender r l f).Released k := by
  intro q x hq hx
  have h₁ : (s.detachEstablishedSender r l f).links = s.links := by simp [detachEstablishedSender, failPending]
  rw [h₁, ho] at hq
  cases hq
  unfold detachEstablishedSender at hx
  exact sndRemoteDetached_closed hx

theorem handleDetach_micros (s : Session) (f : Detach) (hf : .peer (.detach f) ∈ s.log) : MicrosOn A s (s.handleDetach f).1 := by
  unfold handleDetach
  dsimp only
  split
  · exact .refl
  · next idx _ =>
    split
    · exact .refl
    · next ho =>
      refine MicrosOn.trans ?_ (forget_other _ _ ho (by simp) (by split <;> rfl) (by split <;> simp [note, hf]))
      split
      · exact .one (.note _ (by trivial))
      · exact .refl
    · next ho =>
      split
      · next l hl => exact ((detachEstablishedSender_micros _ _ _ _ hf ⟨idx, ho⟩).trans (forget_micros _ _ _ (by simp [detachEstablishedSender, failPending, post, note, hf]) (detachEstablishedSender_released ho hl))).tail (.sndClosed _)
      · exact .refl
    · next ho => exact forget_other _ _ ho (by simp) rfl hf
    · next ho =>
      refine MicrosOn.trans ?_ (forget_other _ _ ho (by simp) (by split <;> rfl) (by split <;> simp [note, hf]))
      split
      · exact .one (.note _ (by trivial))
      · exact .refl
    · exact .refl
    · next item ho =>
      refine MicrosOn.trans ?_ (forget_other _ _ ho (by simp) (by split <;> rfl) (by split <;> simp [note, hf]))
      split
      · exact (MicrosOn.one (.rcvReset _ _ _ ho)).tail (.note _ (by trivial))
      · exact .refl
    · next ho =>
      split
      · exact ((detachEstablishedReceiver_micros _ _ _ _ hf).trans (forget_other _ _ ho (by simp) (by simp [detachEstablishedReceiver]) (by simp [detachEstablishedReceiver, post, note, hf]))).tail (.rcvClosed _)
      · exact .refl
    · next ho =>
      refine MicrosOn.trans ?_ (forget_other _ _ ho (by simp) (by split <;> rfl) (by split <;> simp [note, hf]))
      split
      · exact .one (.note _ (by trivial))
      · exact .refl

/-! ### Dispositions, ending -/

theorem settleDeliveries_micros (s : Session) (d : Disposition) (h : s.log.getLast? = some (.peer (.disposition d))) :
    MicrosOn A s (s.settleDeliveries d) := by
  unfold settleDeliveries
  dsimp only
  split
  · next last hlast =>
    have key : ∀ (ids : List UInt32) (s : Session), (∀ no ∈ ids, no ∈ idRange d.first last) →
        s.log.getLast? = some (.peer (.disposition d)) → MicrosOn A s (ids.foldl (disposeOne (d.role = .receiver) d) s) := by
      intro ids
      induction ids with
      | nil => intro s _ _; exact .refl
      | cons no ids ih =>
        intro s hin hlog
        refine (MicrosOn.one (.dispose _ d no rfl hlog (.inr ⟨last, hlast, hin no (by simp)⟩))).trans ?_
        exact ih _ (fun x hx => hin x (by simp [hx])) (by rw [disposeOne_log]; exact hlog)
    exact key _ s (fun _ h => h) h
  · next hlast => exact .one (.dispose _ d d.first rfl h (.inl ⟨hlast, rfl⟩))

theorem failLink_micros (e : PErr) (s : Session) (l : Link) (k : Nat) (hl : s.links.get k = some l) (he : s.error = some e) :
    MicrosOn A s (failLink e s l) := by
  unfold failLink
  split <;> first
    | exact .one (.sndFailed _ _ ⟨k, hl⟩ (.inl he))
    | exact .one (.rcvDetached _ _)
    | exact .one (.note _ (by trivial))
    | exact .refl

theorem clearLink_micros (s : Session) (l : Link) : MicrosOn A s (clearLink s l) := by
  unfold clearLink
  split
  · exact .refl
  · exact dropLink_micros _ _

theorem foldl_micros {α} {f : Session → α → Session} (hf : ∀ s a, MicrosOn A s (f s a)) (l : List α) (s : Session) :
    MicrosOn A s (l.foldl f s) := by
  induction l generalizing s with
  | nil => exact .refl
  | cons a l ih => exact (hf s a).trans (ih _)

theorem failLink_links (e : PErr) (s : Session) (l : Link) : (failLink e s l).links = s.links := by
  unfold failLink; split <;> simp

theorem failLink_error (e : PErr) (s : Session) (l : Link) : (failLink e s l).error = s.error := by
  unfold failLink; split <;> simp

theorem _root_.Amqp.Rt.Slab.get_of_mem_values {α : Type} {m : Slab α} {a : α} (h : a ∈ m.values) : ∃ k, m.get k = some a := by
  obtain ⟨o, ho, rfl⟩ : ∃ o ∈ m.slots, o = some a := by simpa [Slab.values] using h
  obtain ⟨k, hk⟩ := List.mem_iff_getElem?.mp ho
  exact ⟨k, by simp [Slab.get, hk]⟩

theorem failLinks_micros (s : Session) (e : PErr) (he : s.error = some e) : MicrosOn A s (s.failLinks e) := by
  refine (MicrosOn.one (.names .empty)).trans ?_
  have key : ∀ (ls : List Link) (s : Session), (∀ l ∈ ls, ∃ k, s.links.get k = some l) → s.error = some e →
      MicrosOn A s (ls.foldl (failLink e) s) := by
    intro ls
    induction ls with
    | nil => intro s _ _; exact .refl
    | cons l ls ih =>
      intro s h he
      obtain ⟨k, hk⟩ := h l (by simp)
      refine (failLink_micros e s l k hk he).trans (ih _ (fun l' hl' => ?_) (by rw [failLink_error]; exact he))
      rw [failLink_links]
      exact h l' (by simp [hl'])
  exact key _ _ (fun l hl => Slab.get_of_mem_values hl) he

theorem clearLinks_micros (s : Session) (hc : ∀ k, s.Released k) : MicrosOn A s s.clearLinks :=
  (MicrosOn.one (.clearSlots hc)).trans (foldl_micros clearLink_micros _ _)

theorem failLink_closed (e : PErr) {s : Session} {x : Link} {r : Ref} (h : ∀ l, s.snd? r = some l → l.closed = true) :
    ∀ l, (failLink e s x).snd? r = some l → l.closed = true := by
  intro l hl
  unfold failLink at hl
  split at hl
  · next q =>
    by_cases hq : q = r
    · subst hq
      exact sndRemoteDetached_closed hl
    · refine h l ?_
      rw [← hl]
      unfold sndRemoteDetached
      split
      · simp [snd?, modSnd, List.getElem?_modify, hq]
      · rfl
  all_goals exact h l hl

theorem failLinks_released (s : Session) (e : PErr) (k : Nat) : (s.failLinks e).Released k := by
  intro r l hk hl
  have hlinks : ∀ (ls : List Link) (s : Session), (ls.foldl (failLink e) s).links = s.links := by
    intro ls
    induction ls with
    | nil => intro s; rfl
    | cons x ls ih => intro s; exact (ih _).trans (failLink_links ..)
  have keep : ∀ (ls : List Link) (s : Session), (∀ l, s.snd? r = some l → l.closed = true) →
      ∀ l, (ls.foldl (failLink e) s).snd? r = some l → l.closed = true := by
    intro ls
    induction ls with
    | nil => intro s h; exact h
    | cons x ls ih => intro s h; exact ih _ (failLink_closed e h)
  have key : ∀ (ls : List Link) (s : Session), .snd (.established r) ∈ ls →
      ∀ l, (ls.foldl (failLink e) s).snd? r = some l → l.closed = true := by
    intro ls
    induction ls with
    | nil => intro s h; cases h
    | cons x ls ih =>
      intro s h
      rcases List.mem_cons.mp h with rfl | h
      · exact keep ls _ fun l hl => sndRemoteDetached_closed hl
      · exact ih _ h
  refine key _ _ ?_ l hl
  unfold failLinks at hk
  rw [hlinks] at hk
  have hk : s.links.get k = some (.snd (.established r)) := hk
  rw [Slab.get] at hk
  refine List.mem_filterMap.mpr ⟨_, List.mem_iff_getElem?.mpr ⟨k, ?_⟩, rfl⟩
  cases h : s.links.slots[k]? with
  | none => rw [h] at hk; cases hk
  | some o => rw [h] at hk; exact congrArg some hk

theorem setError_micros (s : Session) (e : PErr) : MicrosOn A s (s.setError e) :=
  ((((MicrosOn.one (.ended e)).tail (drainAll_micro _ (.error e) (by rintro _ ⟨⟩; exact .inl rfl))).tail (.clearSndDlvs (by simp [drainPending]))).tail (.clearRcvDlvs (by simp [drainPending]))).trans
    ((failLinks_micros _ e (by simp [drainPending])).trans (clearLinks_micros _ (failLinks_released _ e)))

theorem endLocal_micros (s : Session) : MicrosOn A s s.endLocal := by
  unfold endLocal
  split
  · exact .refl
  · split
    · exact .refl
    · exact (((MicrosOn.one (.note _ (by trivial))).tail (post_micro _ _ (by trivial))).tail .ending).tail
        (.note _ (by trivial))

/-! ### Steps -/

theorem handleAttach_log (s : Session) (a : Attach) (h : (s.handleAttach a).2 = false) :
    (s.handleAttach a).1 = s := by
  unfold handleAttach at h ⊢
  split at h
  · split at h <;> cases h
  · rfl

theorem onAttach_micros (s : Session) (a : Attach) (ha : .peer (.attach a) ∈ s.log) :
    MicrosOn A s ((s.onAttach a).1.enqueue (s.onAttach a).2) := by
  have hm := handleAttach_micros (A := A) s a ha
  unfold onAttach
  split
  · next s' h => rw [h] at hm; exact hm
  · next s' h =>
    obtain rfl : s' = s := by
      have := handleAttach_log s a (by rw [h])
      rw [h] at this
      exact this
    split
    · next hr => exact .one (.newSnd a ha hr)
    · next hr =>
      refine ((MicrosOn.one (.newRcvRemote a ha)).tail (.bind a _ (.inl ha))).tail
        (.addTodo (.ctl (.attachReceiver s'.rcvs.length a (receiverResponse s'.links.vacantKey a)))
          (by intros; simp) (by intros; simp) (by exact ha) ?_)
      intro r f g h
      cases h
      exact ⟨hr, rcvNew (UInt32.ofNat s'.links.vacantKey) a.handle a, _, by simp [rcv?], rfl, rfl, rfl⟩

/-- Actions that need no care when they are queued. -/
def _root_.Amqp.Rt.Action.Plain : Action → Prop
  | .flow .. | .attachSender .. | .attachReceiver .. => False
  | _ => True

theorem enqueue_micros (s : Session) (a : Action) (h : a.Plain) (hf : (Todo.ctl a).From s.log) : MicrosOn A s (s.enqueue a) := by
  cases a <;> first
    | exact .refl
    | exact h.elim
    | exact .one (.addTodo _ (by intros; simp) (by intros; simp) hf (by intros; simp_all))

theorem handleDetach_action (s : Session) (f : Detach) : (s.handleDetach f).2.Plain := by
  unfold handleDetach
  dsimp only
  repeat' split
  all_goals trivial

theorem handleDetach_from (s : Session) (f : Detach) (log : List Ev) (h : .peer (.detach f) ∈ log) :
    (Todo.ctl (s.handleDetach f).2).From log := by
  unfold handleDetach
  dsimp only
  repeat' split
  all_goals first | trivial | exact h | exact ⟨f, h, rfl⟩

theorem handleTransfer_action (s : Session) (r : Ref) (t : Transfer) :
    (s.handleTransfer r t).2 = .none ∨ (s.handleTransfer r t).2 = .transfer r := by
  unfold handleTransfer continueTransfer beginTransfer
  dsimp only
  repeat' split
  all_goals first | exact .inl rfl | exact .inr rfl

theorem handleFrame_micros (s : Session) (f : Frame) (h : s.log.getLast? = some (.peer f)) :
    MicrosOn A s (finishFrame (s.handleFrame f)) := by
  unfold handleFrame
  split
  · exact .refl
  · split
    · next flow =>
      split
      · next r ho =>
        obtain ⟨k, hk, hk'⟩ := Option.bind_eq_some_iff.mp ho
        exact .one (.addFlow r flow k hk' (List.mem_of_getLast? h))
      · exact handleFlow_micros s flow none (by simp)
    · next d => exact settleDeliveries_micros s d h
    · next t =>
      split
      · exact .one (.note _ (by trivial))
      · split
        · exact .one (.note _ (by trivial))
        · exact .one (.note _ (by trivial))
        · exact .one (.note _ (by trivial))
        · exact .one (.note _ (by trivial))
        · next r hr =>
          have hm := handleTransfer_micros (A := A) s r t ⟨_, hr⟩
          rcases handleTransfer_action s r t with ha | ha
          · unfold finishFrame; dsimp only; rw [ha]; exact hm
          · unfold finishFrame; dsimp only; rw [ha]; exact hm
        · exact .refl
    · next d =>
      have hd := handleDetach_micros (A := A) s d (List.mem_of_getLast? h)
      exact hd.trans (enqueue_micros _ _ (handleDetach_action s d)
        (handleDetach_from s d _ (hd.log_mem (List.mem_of_getLast? h))))
    · exact .refl

theorem onPeer_micros (s : Session) (f : Frame) : MicrosOn A s (s.onPeer f) := by
  unfold onPeer
  refine (MicrosOn.one (.note (.peer f) (by trivial))).trans ?_
  dsimp only
  split
  · split
    · exact .refl
    · exact onAttach_micros _ _ (by simp [note])
  · split
    · exact .refl
    · next e _ =>
      exact ((setError_micros _ _).trans (enqueue_micros _ (.sessionEnded _) (by trivial)
        (by exact ⟨e, (setError_micros (A := A) _ _).log_mem (by simp [note])⟩))).tail (post_micro _ _ (by trivial))
  · exact handleFrame_micros _ _ (by simp [note])

theorem onComplete_micros (s : Session) (edit : Attach → Attach) (e : Option Error) (t : Todo) (ht : t ∈ s.todo) :
    MicrosOn A s (s.onComplete edit e t) := by
  unfold onComplete
  split
  · split
    · exact closeReceiver_micros _ _ _
    · exact .one (.addTodo _ (by intros; simp) (by intros; simp) (by trivial) (by intros; simp_all))
  · split
    · exact closeReceiver_micros _ _ _
    · exact (confirmReceiver_micros _ _ _).trans (setLinkCredit_micros _ _ _)
  · split
    · exact refuseSender_micros _ _ _ _
    · exact confirmSender_micros _ _ _ _ ⟨_, ht⟩
  · split
    · exact closeSender_micros _ _ _
    · exact handleFlow_micros _ _ _ (by rintro _ ⟨⟩; exact ht)
  · split
    · exact closeSender_micros _ _ _
    · exact .refl
  · split
    · exact closeReceiver_micros _ _ _
    · exact .refl
  · exact .refl

/-- The delivery the application acts on. -/
def _root_.Amqp.Rt.Step.actsOn : Step → Ref → Prop
  | .settle d _, d' | .update d _, d' | .dropDelivery d, d' | .wait d, d' => d = d'
  | _, _ => False

theorem step_microsOn (s : Session) (a : Step) (hA : ∀ d, a.actsOn d → A d) : MicrosOn A s (s.step a) := by
  cases a <;> unfold step
  case peer f => exact onPeer_micros s f
  case endConfirmed e =>
    dsimp only
    split
    · exact .refl
    · exact setError_micros _ _
  case complete i edit e =>
    dsimp only
    split
    · next t ht => exact (onComplete_micros _ _ _ _ (List.mem_of_getElem? ht)).tail (.eraseTodo i)
    · exact .refl
  case attachSender a => exact attachLocalSender_micros s a
  case attachReceiver a => exact attachLocalReceiver_micros s a
  case send req => exact sendStart_micros s req
  case resumeSend t => exact sendResume_micros s t
  case cancelSend t => exact .one (.sendCancel t)
  case closeSender r e => exact closeSender_micros s r e
  case detachSender h e => exact detachSender_micros s _ _ _
  case closeReceiver r e => exact closeReceiver_micros s r e
  case detachReceiver h e => exact detachReceiver_micros s _ _ _
  case grant r n => exact setLinkCredit_micros s r n
  case recv r => exact pollRecv_micros s r
  case take r => exact getDelivery_micros s r
  case limitSender r n => exact .one (.sndLimit r n)
  case limitReceiver r n => exact .one (.rcvLimit r n)
  case settle d st =>
    dsimp only
    split
    · next h => exact .one (.settle d st ⟨h, hA d rfl⟩)
    · exact .refl
  case update d st =>
    dsimp only
    split
    · next h => exact .one (.update d st ⟨h, hA d rfl⟩)
    · exact .refl
  case dropDelivery d =>
    dsimp only
    split
    · next h => exact .one (.dropDlv d ⟨h, hA d rfl⟩)
    · exact .refl
  case wait d =>
    dsimp only
    split
    · next h => exact .one (.wait d ⟨h, hA d rfl⟩)
    · exact .refl
  case resumeWait w => exact .one (.waitResume w)
  case cancelWait w => exact .one (.waitCancel w)
  case endSession => exact endLocal_micros s
  case fail e => exact setError_micros s e

theorem step_micros (s : Session) (a : Step) : Micros s (s.step a) := step_microsOn s a fun _ _ => trivial

theorem run_micros (s : Session) (steps : List Step) : Micros s (s.run steps) := foldl_micros step_micros steps s

/-- An invariant of the small changes that holds in fresh sessions holds in every reachable state. -/
theorem Reachable.invariant {P : Session → Prop} (h₀ : ∀ s, Fresh s → P s) (hP : ∀ s s', Micro s s' → P s → P s')
    {s : Session} (h : Reachable s) : P s := by
  obtain ⟨s₀, steps, hf, rfl⟩ := h
  exact (run_micros s₀ steps).invariant hP (h₀ s₀ hf)

end Session
end Amqp.Rt
