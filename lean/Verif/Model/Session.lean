import Verif.Model.Runtime
/-!
# Sessions, links and deliveries

Models `src/session.rs`, `src/sndlink.rs`, `src/rcvlink.rs` and `src/delivery.rs`.

The runtime is single-threaded and cooperative: a block of code between two `await`s runs alone.  The state of a session
is one value; every atomic block is a function from state to state, and an execution is any sequence of such blocks
(`Model/SessionStep.lean`).  `Rc<UnsafeCell<T>>` objects (links, deliveries) live in lists and are referred to by index,
so that an object outlives its slab entry exactly when somebody still holds it.  A suspended `async fn` is an entry of
`sends` or `waits`; the one-shot channel it awaits is identified with the entry.

What the session does to the outside (frames posted, control frames queued, one-shot channels completed) is appended to
`log`.  `Ev.panic` marks a Rust panic.  `Ev.overflow` marks `u32` overflow in unchecked `+=`: a debug build panics, a
release build wraps; the state shows the wrapped value.

`AmqpCodec::new()` has `max_size` 0, for which `encode` cannot fail, so posting a frame cannot fail here.

Not modelled: logging, `reader_task`/`on_close`/`on_credit` wake-ups (every future may be polled at any time), and the
capacity of buffers.
-/

namespace Amqp.Rt

/-- Index of a link or delivery object, of a suspended future, or of a one-shot channel. -/
abbrev Ref := Nat

/-- `SenderLinkInner` (sndlink.rs:20-34). -/
structure Snd where
  id : Nat
  name : Str
  remoteHandle : UInt32
  deliveryCount : UInt32
  deliveryTag : UInt32
  linkCredit : UInt32
  /-- The channel senders of the futures blocked on credit, oldest first. -/
  pending : List Ref
  error : Option PErr
  closed : Bool
  maxMessageSize : Option UInt32

/-- `ReceiverLinkInner` (rcvlink.rs:24-37).  The queue holds the delivery object and the transfer. -/
structure Rcv where
  name : Str
  handle : UInt32
  remoteHandle : UInt32
  closed : Bool
  queue : List (Ref × Transfer)
  credit : UInt32
  deliveryCount : UInt32
  error : Option Error
  partialBody : Option Bytes
  maxMessageSize : UInt64

/-- `Delivery` (delivery.rs:22-28), held by the application; `dropped` once it has let go of it. -/
structure Dlv where
  id : UInt32
  tag : Bytes
  /-- `Flags::SENDER` -/
  sender : Bool
  /-- `Flags::LOCAL_SETTLED` -/
  localSettled : Bool
  /-- `Flags::REMOTE_SETTLED` -/
  remoteSettled : Bool
  dropped : Bool

/-- `DeliveryInner` (delivery.rs:30-37), the session's record of an unsettled delivery. -/
structure DlvInner where
  handle : UInt32
  settled : Bool
  state : Option DeliveryState
  error : Option PErr
  /-- The `wait` future to notify. -/
  tx : Option Ref

/-- `DeliveryInner::new` (delivery.rs:248-257). -/
def DlvInner.new (handle : UInt32) : DlvInner :=
  { handle, settled := false, state := none, error := none, tx := none }

/-- `SenderLinkState` (session.rs:238-244); the payload of the one-shot states is the channel. -/
inductive SndState where
  | established (link : Ref)
  | openingRemote
  | opening (tx : Option Ref)
  | closing (tx : Option Ref)

/-- `ReceiverLinkState` (session.rs:246-257). -/
inductive RcvState where
  | opening (link : Option (Ref × Option Source))
  | openingLocal (link : Option (Ref × Ref))
  | established (link : Ref)
  | closing (tx : Option Ref)

/-- `Either<SenderLinkState, ReceiverLinkState>`. -/
inductive Link where
  | snd (s : SndState)
  | rcv (r : RcvState)

/-- The arguments of `TransferBuilder::send` (delivery.rs:290-296). -/
structure SendReq where
  link : Ref
  body : TransferBody
  tag : Option Bytes
  settled : Bool
  format : Option UInt32

/-- Where a `TransferBuilder::send` future is: blocked on link credit (sndlink.rs:358), blocked on the session window
(session.rs:1214), finished with the delivery object or an error, or dropped by the application.  `mail` is what the
channel has been sent. -/
inductive SendState where
  | credit (tag : Bytes) (mail : Option (Except PErr Unit))
  | window (tag : Bytes) (mail : Option (Except PErr Unit))
  | done (r : Except PErr Ref)
  | cancelled

structure SendTask where
  req : SendReq
  st : SendState

/-- Where a `Delivery::wait` future is (delivery.rs:149-195).  `mail` is `true` if the channel was sent `()`, `false`
if its sender was dropped. -/
inductive WaitState where
  | waiting (mail : Option Bool)
  | done (r : Except PErr (Option DeliveryState))
  | cancelled

structure WaitTask where
  dlv : Ref
  st : WaitState

/-- `ControlFrameKind` (control.rs:29-42), the kinds the session queues itself. -/
inductive Control where
  | localDetachSender (d : Detach) (link : Ref)
  | localDetachReceiver (d : Detach) (link : Ref)
  | localSessionEnded (links : List (Ref ⊕ Ref))

/-- `Action` (types.rs:24-34), the kinds `SessionInner` returns. -/
inductive Action where
  | none
  | attachSender (link : Ref) (frame response : Attach)
  | attachReceiver (link : Ref) (frame response : Attach)
  | detachSender (link : Ref) (frame : Detach)
  | detachReceiver (link : Ref) (frame : Detach)
  | sessionEnded (links : List (Ref ⊕ Ref))
  | flow (link : Ref) (frame : Flow)
  | transfer (link : Ref)

/-- What happened, oldest first.  The constructors after `overflow` are bookkeeping for the properties: they name things
the code does or is given but does not record. -/
inductive Ev where
  /-- A frame posted on the session's channel. -/
  | frame (f : Frame)
  /-- A control frame queued for the control service. -/
  | control (k : Control)
  /-- `ConnectionRef::close_session`. -/
  | closeSession (id : Nat)
  /-- An `attach()` future completed with a sender (`inl`) or receiver (`inr`) link. -/
  | attached (op : Ref) (link : Ref ⊕ Ref)
  | attachFailed (op : Ref) (e : PErr)
  /-- A `close()`/`detach` future completed. -/
  | detached (op : Ref) (r : Except PErr Unit)
  /-- A one-shot channel was dropped unsent: its future resolves to `Disconnected`. -/
  | opDropped (op : Ref)
  /-- A frame was refused: the dispatcher stops with this error. -/
  | refused (e : PErr)
  | panic
  | overflow
  /-- A frame arrived from the peer. -/
  | peer (f : Frame)
  /-- A delivery got its id; its transfer frames are posted next. -/
  | begun (task link : Ref) (id : UInt32)
  /-- A send used one unit of its link's credit. -/
  | took (task link : Ref)
  /-- A flow frame was applied to a sender link. -/
  | applied (link : Ref) (flow : Flow)
  /-- A flow frame was applied to the session's window. -/
  | windowed (flow : Flow)
  /-- The application granted credit on a receiver link. -/
  | granted (link : Ref) (credit : UInt32)
  /-- A receiver link took in a transfer frame. -/
  | received (link : Ref) (t : Transfer)
  /-- A receiver link refused a transfer frame and closes itself. -/
  | declined (link : Ref) (t : Transfer)
  /-- The application took a delivery from a receiver link. -/
  | handed (link : Ref) (dlv : Ref) (t : Transfer)
  /-- A disposition for a delivery object is posted next. -/
  | disposed (dlv : Ref) (settled : Bool) (state : DeliveryState)

/-- What the dispatcher is waiting for: the control service's answer to an action, or (dispatcher.rs:339-353) the
application service's answer to a new receiver link. -/
inductive Todo where
  | ctl (a : Action)
  | attached (link : Ref) (response : Attach)

/-- `SessionInner` (session.rs:32-55) and the objects reachable from it. -/
structure Session where
  id : Nat
  isLocal : Bool
  ended : Bool
  ending : Bool
  /-- `self.sink.0.max_frame_size`, fixed when the connection is created. -/
  maxFrameSize : UInt32
  nextOutgoingId : UInt32
  remoteChannelId : UInt16
  nextIncomingId : UInt32
  remoteOutgoingWindow : UInt32
  remoteIncomingWindow : UInt32
  links : Slab Link
  linksByName : Map Str Nat
  remoteHandles : Map UInt32 Nat
  error : Option PErr
  /-- `PendingTransfer`s: the blocked future and the link handle. -/
  pendingTransfers : List (Ref × UInt32)
  unsettledSnd : Map UInt32 DlvInner
  unsettledRcv : Map UInt32 DlvInner
  snds : List Snd
  rcvs : List Rcv
  dlvs : List Dlv
  sends : List SendTask
  waits : List WaitTask
  ops : Nat
  /-- Control frames and service calls in flight (`ctl_fut` of dispatcher.rs, and spawned tasks). -/
  todo : List Todo
  log : List Ev

/-- `SessionInner::new` (session.rs:287-315). -/
def Session.new (id : Nat) (isLocal : Bool) (maxFrameSize : UInt32) (remoteChannelId : UInt16) (b : Begin) : Session :=
  { id, isLocal, ended := false, ending := false, maxFrameSize, nextOutgoingId := 1, remoteChannelId,
    nextIncomingId := b.nextOutgoingId, remoteOutgoingWindow := b.outgoingWindow,
    remoteIncomingWindow := b.incomingWindow, links := .empty, linksByName := .empty, remoteHandles := .empty,
    error := none, pendingTransfers := [], unsettledSnd := .empty, unsettledRcv := .empty, snds := [], rcvs := [],
    dlvs := [], sends := [], waits := [], ops := 0, todo := [], log := [] }

namespace Session

/-! ## Small steps -/

def note (s : Session) (e : Ev) : Session := { s with log := s.log ++ [e] }

/-- `SessionInner::post_frame` (session.rs:1332-1334). -/
def post (s : Session) (f : Frame) : Session := s.note (.frame f)

def snd? (s : Session) (r : Ref) : Option Snd := s.snds[r]?
def rcv? (s : Session) (r : Ref) : Option Rcv := s.rcvs[r]?
def dlv? (s : Session) (r : Ref) : Option Dlv := s.dlvs[r]?

def modSnd (s : Session) (r : Ref) (f : Snd → Snd) : Session := { s with snds := s.snds.modify r f }
def modRcv (s : Session) (r : Ref) (f : Rcv → Rcv) : Session := { s with rcvs := s.rcvs.modify r f }
def modDlv (s : Session) (r : Ref) (f : Dlv → Dlv) : Session := { s with dlvs := s.dlvs.modify r f }
def modSend (s : Session) (t : Ref) (f : SendTask → SendTask) : Session := { s with sends := s.sends.modify t f }
def modWait (s : Session) (w : Ref) (f : WaitTask → WaitTask) : Session := { s with waits := s.waits.modify w f }

/-- `tx.send(mail)` on the channel of a blocked `send` future. -/
def SendTask.wake (m : Except PErr Unit) (t : SendTask) : SendTask :=
  match t.st with
  | .credit tag none => { t with st := .credit tag (some m) }
  | .window tag none => { t with st := .window tag (some m) }
  | _ => t

def wake (s : Session) (t : Ref) (m : Except PErr Unit) : Session := s.modSend t (SendTask.wake m)

/-- `tx.send(mail)` on a list of channels, in order. -/
def wakeAll (s : Session) (ts : List Ref) (m : Except PErr Unit) : Session := ts.foldl (fun s t => s.wake t m) s

/-- `tx.send(())` (`true`) or drop (`false`) of the channel of a `wait` future. -/
def WaitTask.wake (m : Bool) (w : WaitTask) : WaitTask :=
  match w.st with
  | .waiting none => { w with st := .waiting (some m) }
  | _ => w

def notify (s : Session) (w : Option Ref) (m : Bool) : Session :=
  match w with
  | some w => s.modWait w (WaitTask.wake m)
  | none => s

/-- `unsettled_deliveries` (session.rs:326-335). -/
def unsettled (s : Session) (sender : Bool) : Map UInt32 DlvInner := if sender then s.unsettledSnd else s.unsettledRcv

def setUnsettled (s : Session) (sender : Bool) (m : Map UInt32 DlvInner) : Session :=
  if sender then { s with unsettledSnd := m } else { s with unsettledRcv := m }

/-- What dropping a slab entry does: the `Drop` impls of the established links (sndlink.rs:408-417,
rcvlink.rs:475-479), and a one-shot channel dropped unsent. -/
def dropLink (s : Session) : Link → Session
  | .snd (.established r) => s.modSnd r fun l => { l with closed := true }
  | .rcv (.established r) => s.modRcv r fun l => { l with closed := true }
  | .snd (.opening (some op)) | .snd (.closing (some op)) | .rcv (.closing (some op))
  | .rcv (.openingLocal (some (_, op))) => s.note (.opDropped op)
  | _ => s

/-- `*slot = link`, dropping what was there. -/
def setLink (s : Session) (k : Nat) (l : Link) : Session :=
  match s.links.get k with
  | some old => ({ s with links := s.links.set k l }).dropLink old
  | none => s

/-- `if self.links.contains(k) { self.links.remove(k) }`. -/
def removeLink (s : Session) (k : Nat) : Session :=
  match s.links.get k with
  | some old => ({ s with links := s.links.remove k }).dropLink old
  | none => s

/-- `self.links.insert(link)`. -/
def insertLink (s : Session) (l : Link) : Session := { s with links := s.links.insert l }

/-- A fresh one-shot channel. -/
def newOp (s : Session) : Session := { s with ops := s.ops + 1 }

/-! ## Deliveries (delivery.rs) -/

/-- `DeliveryInner::set_error` (delivery.rs:262-267), on a delivery that is dropped right after (session.rs:350-355):
the waiter is notified. -/
def failInner (s : Session) (d : DlvInner) : Session := s.notify d.tx true

/-- `DeliveryInner::handle_disposition` (delivery.rs:269-280): the new record; its waiter is notified by the caller. -/
def _root_.Amqp.Rt.DlvInner.dispose (d : DlvInner) (disp : Disposition) : DlvInner :=
  { d with settled := d.settled || disp.settled, state := if disp.state.isSome then disp.state else d.state, tx := none }

/-- `Delivery::new_rcv` (delivery.rs:40-65).  An entry already present under that id is replaced, and its waiter
notified by its `Drop`. -/
def newRcv (s : Session) (id handle : UInt32) (tag : Bytes) (settled : Bool) : Session × Ref :=
  let s' := if settled then s else
    let s' := { s with unsettledRcv := s.unsettledRcv.insert id (DlvInner.new handle) }
    match s.unsettledRcv.get id with
    | some old => s'.notify old.tx true
    | none => s'
  ({ s' with dlvs := s'.dlvs ++ [{ id, tag, sender := false, localSettled := settled, remoteSettled := false,
                                     dropped := false }] }, s'.dlvs.length)

/-- The disposition the delivery API posts (delivery.rs:102-113 and its two siblings). -/
def dispFrame (d : Dlv) (settled : Bool) (state : DeliveryState) : Frame :=
  .disposition { role := if d.sender then .sender else .receiver, first := d.id, last := none, settled,
                 state := some state, batchable := false }

def postDisp (s : Session) (r : Ref) (d : Dlv) (settled : Bool) (state : DeliveryState) : Session :=
  (s.note (.disposed r settled state)).post (dispFrame d settled state)

/-- `Delivery::settle` (delivery.rs:93-116). -/
def settle (s : Session) (r : Ref) (state : DeliveryState) : Session :=
  match s.dlv? r with
  | some d =>
    if d.remoteSettled then s
    else if d.localSettled then s
    else (s.modDlv r fun d => { d with localSettled := true }).postDisp r d true state
  | none => s

/-- `Delivery::update_state` (delivery.rs:118-137). -/
def updateState (s : Session) (r : Ref) (state : DeliveryState) : Session :=
  match s.dlv? r with
  | some d => if d.remoteSettled || d.localSettled then s else s.postDisp r d false state
  | none => s

/-- The state of the rejection sent by `Drop` (delivery.rs:222-240). -/
def dropRejection : DeliveryState :=
  .rejected { error := some { condition := .custom (sym "Internal error"), description := none, info := none } }

/-- `Drop for Delivery` (delivery.rs:214-245). -/
def dropDelivery (s : Session) (r : Ref) : Session :=
  match s.dlv? r with
  | some d =>
    let s := s.modDlv r fun d => { d with dropped := true }
    match (s.unsettled d.sender).get d.id with
    | some inner =>
      let s := (s.setUnsettled d.sender ((s.unsettled d.sender).erase d.id)).notify inner.tx true
      if !d.remoteSettled && !d.localSettled then s.postDisp r d true dropRejection else s
    | none => s
  | none => s

/-- `Delivery::check_inner` (delivery.rs:197-211): the answer, if there is one, and the record afterwards. -/
def checkInner (d : DlvInner) : Option (Except PErr (Option DeliveryState)) × DlvInner :=
  match d.state with
  | some (.modified m) => (some (.ok (some (.modified m))), { d with state := none })
  | some st => (some (.ok (some st)), d)
  | none => (d.error.map .error, d)

def finishWait (s : Session) (w : Ref) (r : Except PErr (Option DeliveryState)) : Session :=
  s.modWait w fun t => { t with st := .done r }

/-- `Delivery::wait`, first poll (delivery.rs:149-175). -/
def waitStart (s : Session) (r : Ref) : Session :=
  match s.dlv? r with
  | some d =>
    let w := s.waits.length
    let s := { s with waits := s.waits ++ [(⟨r, .waiting none⟩ : WaitTask)] }
    if d.localSettled then s.finishWait w (.ok none)
    else match (s.unsettled d.sender).get d.id with
      | some inner =>
        match checkInner inner with
        | (some res, inner') =>
          (s.setUnsettled d.sender ((s.unsettled d.sender).insert d.id inner')).finishWait w res
        | (none, inner') =>
          (s.setUnsettled d.sender ((s.unsettled d.sender).insert d.id { inner' with tx := some w })).notify inner'.tx false
      | none => s.finishWait w (.error (.linkDetached none))
  | none => s

/-- `Delivery::wait` once its channel has fired (delivery.rs:172-195). -/
def waitResume (s : Session) (w : Ref) : Session :=
  match s.waits[w]? with
  | some { dlv := r, st := .waiting (some mail) } =>
    if !mail then s.finishWait w (.error .connectionDropped)
    else match s.dlv? r with
      | some d =>
        match (s.unsettled d.sender).get d.id with
        | some inner =>
          let s := if inner.settled then s.modDlv r fun d => { d with remoteSettled := true } else s
          match checkInner inner with
          | (some res, inner') =>
            (s.setUnsettled d.sender ((s.unsettled d.sender).insert d.id inner')).finishWait w res
          | (none, _) => s.finishWait w (.ok none)
        | none => s.finishWait w (.error (.linkDetached none))
      | none => s
  | _ => s

/-! ## Sending (sndlink.rs, session.rs) -/

/-- `SenderLinkInner::remote_detached` (sndlink.rs:245-262). -/
def sndRemoteDetached (s : Session) (r : Ref) (e : PErr) : Session :=
  match s.snd? r with
  | some l => (s.wakeAll l.pending (.error e)).modSnd r fun l => { l with pending := [], closed := true, error := some e }
  | none => s

/-- `SenderLinkInner::apply_flow` (sndlink.rs:292-324). -/
def applyFlow (s : Session) (r : Ref) (f : Flow) : Session :=
  let s := s.note (.applied r f)
  match f.linkCredit with
  | some credit =>
    match s.snd? r with
    | some l =>
      (s.wakeAll l.pending (.ok ())).modSnd r fun l =>
        { l with linkCredit := (f.deliveryCount.getD 0) + credit - l.deliveryCount, pending := [] }
    | none => s
  | none => s

/-- The reply to a flow with `echo` (session.rs:1152-1168). -/
def echoFlow (s : Session) : Frame :=
  .flow { nextIncomingId := if s.isLocal then some s.nextIncomingId else none, incomingWindow := 0xffffffff,
          nextOutgoingId := s.nextOutgoingId, outgoingWindow := s.remoteIncomingWindow, handle := none,
          deliveryCount := none, linkCredit := none, available := none, drain := false, echo := false,
          properties := none }

/-- `while let Some(tr) = self.pending_transfers.pop_front() { tr.tx.send(m) }` (session.rs:345-347, 1148-1150). -/
def drainPending (s : Session) (m : Except PErr Unit) : Session :=
  { s.wakeAll (s.pendingTransfers.map Prod.fst) m with pendingTransfers := [] }

/-- `SessionInner::handle_flow` (session.rs:1128-1176). -/
def handleFlow (s : Session) (f : Flow) (link : Option Ref) : Session :=
  let s := { s.note (.windowed f) with
    nextIncomingId := f.nextOutgoingId
    remoteOutgoingWindow := f.outgoingWindow
    remoteIncomingWindow := (f.nextIncomingId.getD 0) + f.incomingWindow - s.nextOutgoingId }
  let s := s.drainPending (.ok ())
  let s := if f.echo then s.post s.echoFlow else s
  match link with
  | some r => s.applyFlow r f
  | none => s

/-- `SessionInner::rcv_link_flow` (session.rs:1178-1193). -/
def rcvLinkFlow (s : Session) (handle deliveryCount credit : UInt32) : Session :=
  s.post (.flow { nextIncomingId := some s.nextIncomingId, incomingWindow := 0xffffffff,
                  nextOutgoingId := s.nextOutgoingId, outgoingWindow := s.remoteIncomingWindow, handle := some handle,
                  deliveryCount := some deliveryCount, linkCredit := some credit, available := none, drain := false,
                  echo := false, properties := none })

/-- `Transfer(Box::default())` (definitions.rs:2621). -/
def emptyTransfer : TransferHead :=
  { handle := 0, deliveryId := none, deliveryTag := none, messageFormat := none, settled := none, more := false,
    rcvSettleMode := none, state := none, resume := false, aborted := false, batchable := false }

/-- The payload limit per transfer frame (session.rs:1238-1245). -/
def chunkSize (maxFrameSize : UInt32) : Nat :=
  if maxFrameSize > 2048 then (maxFrameSize - 2048).toNat
  else if maxFrameSize = 0 then 0xffffffff
  else maxFrameSize.toNat

/-- The loop that sends the chunks after the first (session.rs:1293-1310).  The body shrinks by at least one byte per
round, so its length is enough fuel. -/
def chunkFrames (handle : UInt32) (format : Option UInt32) (max : Nat) : Nat → Bytes → List Frame
  | 0, _ => []
  | n + 1, body =>
    if body = [] then []
    else
      .transfer { head := { emptyTransfer with
                    handle, messageFormat := format, batchable := true
                    more := !(body.drop (min max body.length)).isEmpty }
                  body := some (.data (body.take (min max body.length))) } ::
        chunkFrames handle format max n (body.drop (min max body.length))

/-- `TransferBody::message_format` (protocol/mod.rs:217-222). -/
def _root_.Amqp.TransferBody.format : TransferBody → Option UInt32
  | .data _ => none
  | .message m => m.messageFormat

/-- The transfer frames of one delivery (session.rs:1227-1327). -/
def transferFrames (maxFrameSize : UInt32) (handle : UInt32) (id : UInt32) (tag : Bytes) (body : TransferBody)
    (settled : Bool) (format : Option UInt32) : List Frame :=
  let state := if settled then some (DeliveryState.accepted {}) else none
  let format := if format.isNone then body.format else format
  let max := chunkSize maxFrameSize
  if body.esize > max then
    let bytes := body.tenc
    .transfer { head := { emptyTransfer with
                  handle, more := true, state, batchable := true, deliveryId := some id, deliveryTag := some tag
                  messageFormat := format, settled := if settled then some true else none }
                body := some (.data (bytes.take (min max bytes.length))) } ::
      chunkFrames handle format max bytes.length (bytes.drop (min max bytes.length))
  else
    [.transfer { head := { emptyTransfer with
                   handle, state, deliveryId := some id, deliveryTag := some tag, messageFormat := format
                   settled := if settled then some true else none }
                 body := some body }]

def postAll (s : Session) (fs : List Frame) : Session := { s with log := s.log ++ fs.map .frame }

def finishSend (s : Session) (t : Ref) (r : Except PErr Ref) : Session :=
  s.modSend t fun x => { x with st := .done r }

/-- The rest of `send_transfer` once the window is open, up to the return of `TransferBuilder::send`
(session.rs:1222-1330, delivery.rs:346-357).  An unsettled delivery still recorded under the id is replaced and its
waiter notified. -/
def emit (s : Session) (t : Ref) (req : SendReq) (handle : UInt32) (tag : Bytes) : Session :=
  let id := s.nextOutgoingId
  let s := { s with remoteIncomingWindow := s.remoteIncomingWindow - 1, nextOutgoingId := s.nextOutgoingId + 1 }
  let s := s.note (.begun t req.link id)
  let s := if req.settled then s else
    let s' := { s with unsettledSnd := s.unsettledSnd.insert id (DlvInner.new handle) }
    match s.unsettledSnd.get id with
    | some old => s'.notify old.tx true
    | none => s'
  let s := s.postAll (transferFrames s.maxFrameSize handle id tag req.body req.settled req.format)
  let s := s.finishSend t (.ok s.dlvs.length)
  { s with dlvs := s.dlvs ++ [{ id, tag, sender := true, localSettled := req.settled, remoteSettled := false,
                                dropped := false }] }

/-- The window loop of `send_transfer` (session.rs:1204-1220). -/
def windowLoop (s : Session) (t : Ref) (req : SendReq) (tag : Bytes) : Session :=
  match s.snd? req.link with
  | some l =>
    let handle := UInt32.ofNat l.id
    if s.remoteIncomingWindow = 0 then
      { s.modSend t fun x => { x with st := .window tag none } with
        pendingTransfers := s.pendingTransfers ++ [(t, handle)] }
    else s.emit t req handle tag
  | none => s

/-- A send goes ahead (sndlink.rs:366-368). -/
def takeCredit (s : Session) (t r : Ref) : Session :=
  (s.note (.took t r)).modSnd r fun l =>
    { l with linkCredit := l.linkCredit - 1, deliveryCount := l.deliveryCount + 1 }

/-- The credit loop of `SenderLinkInner::send` (sndlink.rs:339-371). -/
def creditLoop (s : Session) (t : Ref) (req : SendReq) (tag : Bytes) : Session :=
  match s.snd? req.link with
  | some l =>
    if l.linkCredit = 0 ∨ l.pending ≠ [] then
      (s.modSend t fun x => { x with st := .credit tag none }).modSnd req.link fun l =>
        { l with pending := l.pending ++ [t] }
    else (s.takeCredit t req.link).windowLoop t req tag
  | none => s

/-- `TransferBuilder::send`, first poll (delivery.rs:328-345, sndlink.rs:333-337 and `get_tag` 374-388). -/
def sendStart (s : Session) (req : SendReq) : Session :=
  match s.snd? req.link with
  | some l =>
    let t := s.sends.length
    let start (st : SendState) : Session := { s with sends := s.sends ++ [{ req, st }] }
    match l.error with
    | some e => start (.done (.error e))
    | none =>
      if l.closed then start (.done (.error .disconnected))
      else match l.maxMessageSize with
        | some limit =>
          if req.body.esize > limit.toNat then start (.done (.error .bodyTooLarge)) else go s t l
        | none => go s t l
  | none => s
where
  /-- The new future enters the credit loop as if it had just been woken. -/
  go (s : Session) (t : Ref) (l : Snd) : Session :=
    match req.tag with
    | some tag => { s with sends := s.sends ++ [(⟨req, .credit tag (some (.ok ()))⟩ : SendTask)] }.creditLoop t req tag
    | none =>
      let tag := be 4 l.deliveryTag.toNat
      let s := { s with sends := s.sends ++ [(⟨req, .credit tag (some (.ok ()))⟩ : SendTask)] }
      (s.modSnd req.link fun l => { l with deliveryTag := l.deliveryTag + 1 }).creditLoop t req tag

/-- `TransferBuilder::send`, a later poll. -/
def sendResume (s : Session) (t : Ref) : Session :=
  match s.sends[t]? with
  | some { req, st := .credit tag (some mail) } =>
    match mail with
    | .error e => s.finishSend t (.error e)
    | .ok () => s.creditLoop t req tag
  | some { req, st := .window tag (some mail) } =>
    match mail with
    | .error e => s.finishSend t (.error e)
    | .ok () => s.windowLoop t req tag
  | _ => s

/-- The application drops a `send` future. -/
def sendCancel (s : Session) (t : Ref) : Session :=
  s.modSend t fun x => match x.st with
    | .done _ => x
    | _ => { x with st := .cancelled }

/-! ## Attaching and detaching (session.rs) -/

/-- `SessionInner::attach_local_sender_link` (session.rs:438-458). -/
def attachLocalSender (s : Session) (frame : Attach) : Session :=
  let token := s.links.vacantKey
  let s := (s.insertLink (.snd (.opening (some s.ops)))).newOp
  { s with linksByName := s.linksByName.insert frame.name token }.post
    (.attach { frame with handle := UInt32.ofNat token })

/-- `ReceiverLinkInner::new` (rcvlink.rs:224-247). -/
def rcvNew (handle remoteHandle : UInt32) (frame : Attach) : Rcv :=
  { name := frame.name, handle, remoteHandle, closed := false, queue := [], credit := 0, error := none,
    partialBody := none, deliveryCount := frame.initialDeliveryCount.getD 0, maxMessageSize := 262144 }

/-- `SessionInner::attach_local_receiver_link` (session.rs:648-673). -/
def attachLocalReceiver (s : Session) (frame : Attach) : Session :=
  let token := s.links.vacantKey
  let r := s.rcvs.length
  let s := { s with rcvs := s.rcvs ++ [rcvNew (UInt32.ofNat token) (UInt32.ofNat token) frame] }
  let s := (s.insertLink (.rcv (.openingLocal (some (r, s.ops))))).newOp
  { s with linksByName := s.linksByName.insert frame.name token }.post
    (.attach { frame with handle := UInt32.ofNat token })

/-- `SenderLinkInner::new` (sndlink.rs:179-202). -/
def sndNew (id : Nat) (name : Str) (handle deliveryCount : UInt32) (maxMessageSize : Option UInt32) : Snd :=
  { id, name, remoteHandle := handle, deliveryCount, deliveryTag := 0, linkCredit := 0, pending := [], error := none,
    closed := false, maxMessageSize }

/-- `u32::try_from(size).unwrap_or(u32::MAX)`. -/
def clampU32 (n : UInt64) : UInt32 := if n.toNat < 2 ^ 32 then n.toUInt32 else 0xffffffff

/-- `SenderLinkInner::with` (sndlink.rs:204-227): the link is named after the source address. -/
def sndWith (id : Nat) (frame : Attach) : Snd :=
  let name := match frame.source with
    | some src => src.address.getD ⟨[]⟩
    | none => ⟨[]⟩
  sndNew id name frame.handle (frame.initialDeliveryCount.getD 0) (frame.maxMessageSize.map clampU32)

/-- The response prepared by `new_remote_sender` (session.rs:417-432). -/
def senderResponse (id : Nat) (a : Attach) : Attach :=
  { name := a.name, handle := UInt32.ofNat id, role := .sender, sndSettleMode := a.sndSettleMode,
    rcvSettleMode := a.rcvSettleMode, source := a.source, target := a.target, unsettled := none,
    incompleteUnsettled := false, initialDeliveryCount := some (a.initialDeliveryCount.getD 0), maxMessageSize := none,
    offeredCapabilities := none, desiredCapabilities := none, properties := none }

/-- `new_remote_sender` (session.rs:412-435) and the creation of the link object (connection.rs:426-432). -/
def newRemoteSender (s : Session) (a : Attach) : Session × Action :=
  let id := s.links.vacantKey
  let r := s.snds.length
  ({ s.insertLink (.snd .openingRemote) with snds := s.snds ++ [sndWith id a] },
   .attachSender r a (senderResponse id a))

/-- The response prepared by `attach_remote_receiver_link` (session.rs:628-643). -/
def receiverResponse (token : Nat) (a : Attach) : Attach :=
  { name := a.name, handle := UInt32.ofNat token, role := .receiver, sndSettleMode := a.sndSettleMode,
    rcvSettleMode := .first, source := a.source, target := a.target, unsettled := none, incompleteUnsettled := false,
    initialDeliveryCount := some 0, maxMessageSize := none, offeredCapabilities := none, desiredCapabilities := none,
    properties := none }

/-- `attach_remote_receiver_link` (session.rs:612-646). -/
def newRemoteReceiver (s : Session) (a : Attach) : Session × Action :=
  let token := s.links.vacantKey
  let r := s.rcvs.length
  let s := { s with rcvs := s.rcvs ++ [rcvNew (UInt32.ofNat token) a.handle a] }
  let s := s.insertLink (.rcv (.opening (some (r, a.source))))
  ({ s with remoteHandles := s.remoteHandles.insert a.handle token }, .attachReceiver r a (receiverResponse token a))

/-- The link is registered under its source address and its remote handle (session.rs:467-474). -/
def registerSender (s : Session) (attach : Attach) (id : Nat) : Session :=
  { s with
    linksByName := match attach.source.bind Source.address with
      | some addr => s.linksByName.insert addr id
      | none => s.linksByName
    remoteHandles := s.remoteHandles.insert attach.handle id }

/-- `attach_remote_sender_link` (session.rs:461-493), run when the control service has accepted the link. -/
def confirmSender (s : Session) (attach response : Attach) (r : Ref) : Session :=
  match s.snd? r with
  | some l =>
    let s := s.registerSender attach l.id
    if s.links.contains l.id then
      (s.setLink l.id (.snd (.established r))).post
        (.attach { response with handle := UInt32.ofNat l.id, maxMessageSize := l.maxMessageSize.map UInt32.toUInt64 })
    else s.note .panic
  | none => s

/-- `detach_unconfirmed_sender_link` (session.rs:555-591), run when the control service has refused the link. -/
def refuseSender (s : Session) (attach : Attach) (r : Ref) (e : Error) : Session :=
  match s.snd? r with
  | some l =>
    let s := s.post (.attach
      { name := attach.name, handle := UInt32.ofNat l.id, role := attach.role, sndSettleMode := .unsettled,
        rcvSettleMode := .first, source := none, target := none, unsettled := none, incompleteUnsettled := false,
        initialDeliveryCount := none, maxMessageSize := none, offeredCapabilities := none, desiredCapabilities := none,
        properties := none })
    let s := s.post (.detach { handle := UInt32.ofNat l.id, closed := true, error := some e })
    s.removeLink l.id
  | none => s

/-- `confirm_receiver_link` (rcvlink.rs:86-95, session.rs:675-692). -/
def confirmReceiver (s : Session) (r : Ref) (response : Attach) : Session :=
  match s.rcv? r with
  | some l =>
    match s.links.get l.handle.toNat with
    | some (.rcv (.opening (some (r', _)))) =>
      (s.setLink l.handle.toNat (.rcv (.established r'))).post
        (.attach { response with maxMessageSize := if l.maxMessageSize ≠ 0 then some l.maxMessageSize else none })
    -- `l.take()` on an entry already taken, or another state: an error is logged
    | _ => s
  | none => s

/-- `SessionInner::detach_sender_link` (session.rs:496-552); `op` is the caller's channel. -/
def detachSender (s : Session) (id : UInt32) (closed : Bool) (error : Option Error) : Session :=
  let op := s.ops
  let s := s.newOp
  let detach : Detach := { handle := id, closed, error }
  match s.links.get id.toNat with
  | some (.snd (.opening _)) => (s.setLink id.toNat (.snd (.closing (some op)))).post (.detach detach)
  | some (.snd (.established r)) =>
    ((s.setLink id.toNat (.snd (.closing (some op)))).post (.detach detach)).note (.control (.localDetachSender detach r))
  | _ => s.note (.detached op (.ok ()))

/-- `SenderLinkInner::close` (sndlink.rs:264-290). -/
def closeSender (s : Session) (r : Ref) (error : Option Error) : Session :=
  match s.snd? r with
  | some l =>
    if l.closed then s.newOp.note (.detached s.ops (.ok ()))
    else (s.modSnd r fun l => { l with closed := true }).detachSender (UInt32.ofNat l.id) true error
  | none => s

/-- `SessionInner::detach_receiver_link` (session.rs:695-769). -/
def detachReceiver (s : Session) (id : UInt32) (closed : Bool) (error : Option Error) : Session :=
  let op := s.ops
  let s := s.newOp
  let detach : Detach := { handle := id, closed, error }
  match s.links.get id.toNat with
  | some (.rcv (.opening inner)) =>
    let s := match inner with
      | some (r, source) =>
        s.post (.attach
          { name := ((s.rcv? r).map Rcv.name).getD ⟨[]⟩, handle := id, role := .receiver, sndSettleMode := .mixed,
            rcvSettleMode := .first, source, target := none, unsettled := none, incompleteUnsettled := false,
            initialDeliveryCount := some 0, maxMessageSize := none, offeredCapabilities := none,
            desiredCapabilities := none, properties := none })
      | none => s
    ((s.post (.detach detach)).note (.detached op (.ok ()))).removeLink id.toNat
  | some (.rcv (.established r)) =>
    ((s.setLink id.toNat (.rcv (.closing (some op)))).post (.detach detach)).note
      (.control (.localDetachReceiver detach r))
  | some (.rcv (.closing _)) => (s.note (.detached op (.ok ()))).removeLink id.toNat
  | some (.rcv (.openingLocal _)) => s.note .panic
  | _ => s.note (.detached op (.ok ()))

/-- `ReceiverLinkInner::close` (rcvlink.rs:267-290). -/
def closeReceiver (s : Session) (r : Ref) (error : Option Error) : Session :=
  match s.rcv? r with
  | some l =>
    let s := if l.closed then s.newOp.note (.detached s.ops (.ok ())) else s.detachReceiver l.handle true error
    s.modRcv r fun l => { l with closed := true }
  | none => s

/-! ## Receiving (rcvlink.rs) -/

/-- `ReceiverLink::remote_detached` (rcvlink.rs:150-171). -/
def rcvRemoteDetached (s : Session) (r : Ref) (e : Option Error) : Session :=
  s.modRcv r fun l => { l with closed := true, error := e }

/-- `u32` addition in place, with the overflow marked. -/
def checkAdd (s : Session) (a b : UInt32) : Session := if a.toNat + b.toNat < 2 ^ 32 then s else s.note .overflow

/-- `ReceiverLinkInner::set_link_credit` (rcvlink.rs:292-298). -/
def setLinkCredit (s : Session) (r : Ref) (credit : UInt32) : Session :=
  match s.rcv? r with
  | some l =>
    (((s.note (.granted r credit)).checkAdd l.credit credit).modRcv r fun l =>
      { l with credit := l.credit + credit }).rcvLinkFlow l.handle l.deliveryCount credit
  | none => s

/-- A constant string of the code, as a value. -/
def text (s : String) : Str := ⟨ascii s⟩

def linkError (e : LinkError) (description : Option Str) : Option Error :=
  some { condition := .linkError e, description, info := none }

/-- The name and settled flag of the delivery a first transfer starts (rcvlink.rs:388-394, 408-414). -/
def startDelivery (s : Session) (r : Ref) (l : Rcv) (id : UInt32) (t : Transfer) : Session :=
  let (s, d) := s.newRcv id l.handle (t.head.deliveryTag.getD []) (t.head.settled.getD false)
  s.modRcv r fun l => { l with queue := l.queue ++ [(d, t)] }

/-- Puts the reassembled body into the transfer at the back of the queue (rcvlink.rs:353-354). -/
def setBackBody (q : List (Ref × Transfer)) (b : Bytes) : List (Ref × Transfer) :=
  match q.getLast? with
  | some (d, t) => q.dropLast ++ [(d, { t with body := some (.data b) })]
  | none => q

/-- `self.delivery_count += 1`. -/
def countDelivery (s : Session) (r : Ref) (l : Rcv) : Session :=
  (s.checkAdd l.deliveryCount 1).modRcv r fun l => { l with deliveryCount := l.deliveryCount + 1 }

/-- `if !transfer.0.more { self.credit -= 1 }` (rcvlink.rs:317-319). -/
def charge (s : Session) (r : Ref) (t : Transfer) : Session :=
  if t.head.more then s else s.modRcv r fun l => { l with credit := l.credit - 1 }

/-- The id of the delivery at the back of the queue. -/
def backId (s : Session) (l : Rcv) : Option UInt32 := l.queue.getLast?.bind fun q => (s.dlv? q.1).map Dlv.id

/-- A transfer that continues a delivery (rcvlink.rs:322-378); `l` is the link as it was when the frame came in. -/
def continueTransfer (s : Session) (r : Ref) (l : Rcv) (body : Bytes) (t : Transfer) : Session × Action :=
  if t.head.deliveryId.isSome ∧ s.backId l ≠ t.head.deliveryId then
    ((s.note (.declined r t)).closeReceiver r (linkError .detachForced (some (text "delivery_id is wrong"))), .none)
  else if t.body.isSome ∧ body.length + optSum TransferBody.esize t.body > l.maxMessageSize.toNat then
    ((s.note (.declined r t)).closeReceiver r (linkError .messageSizeExceeded none), .none)
  else
    let s := (s.note (.received r t)).modRcv r fun l => { l with partialBody := some (body ++ optEnc TransferBody.tenc t.body) }
    if t.head.more then (s, .none)
    else
      let s := (s.countDelivery r l).modRcv r fun l => { l with partialBody := none }
      if l.queue ≠ [] then
        (s.modRcv r fun l => { l with queue := setBackBody l.queue (body ++ optEnc TransferBody.tenc t.body) },
          .transfer r)
      else (s.closeReceiver r (linkError .detachForced (some (text "Internal error"))), .none)

/-- A transfer that begins a delivery (rcvlink.rs:379-450). -/
def beginTransfer (s : Session) (r : Ref) (l : Rcv) (t : Transfer) : Session × Action :=
  match t.head.deliveryId with
  | some id =>
    if t.head.more then
      let s := (s.note (.received r t)).modRcv r fun l => { l with partialBody := some (optEnc TransferBody.tenc t.body) }
      (s.startDelivery r l id { t with body := none }, .none)
    else (((s.note (.received r t)).countDelivery r l).startDelivery r l id t, .transfer r)
  | none => ((s.note (.declined r t)).closeReceiver r (linkError .detachForced (some (text "delivery_id is required"))), .none)

/-- `ReceiverLinkInner::handle_transfer` (rcvlink.rs:301-451). -/
def handleTransfer (s : Session) (r : Ref) (t : Transfer) : Session × Action :=
  match s.rcv? r with
  | none => (s, .none)
  | some l =>
    if l.credit = 0 then ((s.note (.declined r t)).closeReceiver r (linkError .transferLimitExceeded none), .none)
    else match l.partialBody with
      | some body => (s.charge r t).continueTransfer r l body t
      | none => (s.charge r t).beginTransfer r l t

/-- What `ReceiverLink::poll_recv` returns (rcvlink.rs:183-212). -/
inductive Recv where
  | pending
  | ended
  | error (e : PErr)
  | item (d : Ref) (t : Transfer)

/-- `ReceiverLink::poll_recv` (rcvlink.rs:183-212). -/
def pollRecv (s : Session) (r : Ref) : Session × Recv :=
  match s.rcv? r with
  | none => (s, .pending)
  | some l =>
    let stop : Session × Recv :=
      if l.closed then
        match l.error with
        | some e => (s.modRcv r fun l => { l with error := none }, .error (.linkDetached (some e)))
        | none => (s, .ended)
      else (s, .pending)
    if l.partialBody.isSome ∧ l.queue.length = 1 then stop
    else match l.queue with
      | (d, t) :: q => ((s.note (.handed r d t)).modRcv r fun l => { l with queue := q }, .item d t)
      | [] => stop

/-- `ReceiverLink::get_delivery` (rcvlink.rs:117-124). -/
def getDelivery (s : Session) (r : Ref) : Session × Option (Ref × Transfer) :=
  match s.rcv? r with
  | none => (s, none)
  | some l =>
    if l.partialBody.isNone ∨ l.queue.length > 1 then
      match l.queue with
      | (d, t) :: q => ((s.note (.handed r d t)).modRcv r fun l => { l with queue := q }, some (d, t))
      | [] => (s, none)
    else (s, none)

/-! ## Frames from the peer (session.rs) -/

/-- The ids of an inclusive range of `u32`s, `from..=to` (session.rs:1113): empty if the end is before the start. -/
def idRange (first last : UInt32) : List UInt32 :=
  (List.range (last.toNat + 1 - first.toNat)).map fun i => UInt32.ofNat (first.toNat + i)

/-- One round of the loop of `settle_deliveries` (session.rs:1114-1115). -/
def disposeOne (sender : Bool) (disp : Disposition) (s : Session) (no : UInt32) : Session :=
  match (s.unsettled sender).get no with
  | some d => (s.setUnsettled sender ((s.unsettled sender).insert no (d.dispose disp))).notify d.tx true
  | none => s

/-- `settle_deliveries` (session.rs:1091-1126). -/
def settleDeliveries (s : Session) (disp : Disposition) : Session :=
  let sender := disp.role = .receiver
  match disp.last with
  | some last => (idRange disp.first last).foldl (disposeOne sender disp) s
  | none => disposeOne sender disp s disp.first

/-- `for delivery in map.values_mut() { if delivery.handle() == handle { delivery.set_error(err) } }`
(session.rs:992-996, 1045-1049). -/
def failDeliveries (s : Session) (sender : Bool) (handle : UInt32) (e : PErr) : Session :=
  let m := s.unsettled sender
  let s := m.entries.foldl (fun s d => if d.2.handle = handle then s.notify d.2.tx true else s) s
  s.setUnsettled sender (m.mapVals fun _ d => if d.handle = handle then { d with error := some e, tx := none } else d)

/-- `handle_attach` (session.rs:869-937): `true` if the attach answered a local one. -/
def handleAttach (s : Session) (a : Attach) : Session × Bool :=
  match s.linksByName.get a.name with
  | some index =>
    match s.links.get index with
    | some (.snd (.opening tx)) =>
      let r := s.snds.length
      let l := sndNew index a.name a.handle (a.initialDeliveryCount.getD 0) (a.maxMessageSize.map clampU32)
      let s := { s with
        remoteHandles := s.remoteHandles.insert a.handle index
        snds := s.snds ++ [l]
        links := s.links.set index (.snd (.established r)) }
      (match tx with
        | some op => s.note (.attached op (.inl r))
        | none => s, true)
    | some (.rcv (.openingLocal (some (r, op)))) =>
      ({ s with
          remoteHandles := s.remoteHandles.insert a.handle index
          links := s.links.set index (.rcv (.established r)) }.note (.attached op (.inr r)), true)
    | _ => (s, true)
  | none => (s, false)

/-- The `Attach` arm of `ConnectionInner::handle_frame` (connection.rs:419-443). -/
def onAttach (s : Session) (a : Attach) : Session × Action :=
  match s.handleAttach a with
  | (s, true) => (s, .none)
  | (s, false) =>
    match a.role with
    | .receiver => s.newRemoteSender a
    | .sender => s.newRemoteReceiver a

/-- `Err(LinkDetached)` if the detach carries an error, else `Ok` (session.rs:1013-1019, 1067-1073). -/
def detachResult (e : Option Error) : Except PErr Unit :=
  match e with
  | some e => .error (.linkDetached (some e))
  | none => .ok ()

/-- The end of `handle_detach` (session.rs:1082-1087).  The state that was matched on has its channel taken, so dropping
it has no further effect. -/
def forget (s : Session) (idx : Nat) (handle : UInt32) : Session :=
  { s with links := s.links.remove idx, remoteHandles := s.remoteHandles.erase handle }

/-- `pending_transfers` entries of a handle fail (session.rs:978-988). -/
def failPending (s : Session) (handle : UInt32) (e : PErr) : Session :=
  { s.wakeAll ((s.pendingTransfers.filter fun p => p.2 = handle).map Prod.fst) (.error e) with
    pendingTransfers := s.pendingTransfers.filter fun p => ¬ p.2 = handle }

/-- `handle_detach` on an established sender link (session.rs:966-1004). -/
def detachEstablishedSender (s : Session) (r : Ref) (l : Snd) (f : Detach) : Session :=
  let e := PErr.linkDetached f.error
  let s := { s with linksByName := s.linksByName.erase l.name }
  let s := s.failPending l.remoteHandle e
  let s := s.failDeliveries true (UInt32.ofNat l.id) e
  (s.sndRemoteDetached r e).post (.detach { handle := UInt32.ofNat l.id, closed := true, error := f.error })

/-- `handle_detach` on an established receiver link (session.rs:1039-1064). -/
def detachEstablishedReceiver (s : Session) (r : Ref) (l : Rcv) (f : Detach) : Session :=
  let s := s.failDeliveries false l.handle (.linkDetached f.error)
  (s.post (.detach { handle := l.handle, closed := true, error := none })).rcvRemoteDetached r f.error

/-- `handle_detach` (session.rs:941-1089). -/
def handleDetach (s : Session) (f : Detach) : Session × Action :=
  let idx := match s.remoteHandles.get f.handle with
    | some idx => some idx
    | none => if s.links.contains f.handle.toNat then some f.handle.toNat else none
  match idx with
  | none => (s, .none)
  | some idx =>
    match s.links.get idx with
    | none => (s, .none)
    | some (.snd (.opening tx)) =>
      ((match tx with
        | some op => s.note (.attachFailed op (.linkDetached f.error))
        | none => s).forget idx f.handle, .none)
    | some (.snd (.established r)) =>
      match s.snd? r with
      | some l =>
        (((s.detachEstablishedSender r l f).forget idx f.handle).modSnd r fun l => { l with closed := true },
          .detachSender r f)
      | none => (s, .none)
    | some (.snd .openingRemote) => (s.forget idx f.handle, .none)
    | some (.snd (.closing tx)) =>
      ((match tx with
        | some op => s.note (.detached op (detachResult f.error))
        | none => s).forget idx f.handle, .none)
    | some (.rcv (.opening _)) => (s, .none)
    | some (.rcv (.openingLocal item)) =>
      ((match item with
        | some (r, op) =>
          -- `ReceiverLinkInner::detached`; the queue of a link that never was established is empty
          (s.modRcv r fun l => { l with queue := [], closed := true }).note (.attachFailed op (.linkDetached f.error))
        | none => s).forget idx f.handle, .none)
    | some (.rcv (.established r)) =>
      match s.rcv? r with
      | some l =>
        (((s.detachEstablishedReceiver r l f).forget idx f.handle).modRcv r fun l => { l with closed := true },
          .detachReceiver r { f with error := none })
      | none => (s, .none)
    | some (.rcv (.closing tx)) =>
      ((match tx with
        | some op => s.note (.detached op (detachResult f.error))
        | none => s).forget idx f.handle, .none)

/-- `SessionInner::handle_frame` (session.rs:790-866).  `next_incoming_id.wrapping_add(1)` is computed and discarded by
the code. -/
def handleFrame (s : Session) (f : Frame) : Session × Except PErr Action :=
  if s.error.isSome then (s, .ok .none)
  else match f with
    | .flow flow =>
      match (flow.handle.bind s.remoteHandles.get).bind s.links.get with
      | some (.snd (.established r)) => (s, .ok (.flow r flow))
      | _ => (s.handleFlow flow none, .ok .none)
    | .disposition d => (s.settleDeliveries d, .ok .none)
    | .transfer t =>
      match s.remoteHandles.get t.head.handle with
      | none => (s, .error (.unknownLink f))
      | some idx =>
        match s.links.get idx with
        | none => (s, .error (.unknownLink f))
        | some (.snd _) => (s, .error (.unexpected f))
        | some (.rcv (.opening _)) => (s, .error (.unexpectedOpeningState f))
        | some (.rcv (.openingLocal _)) => (s, .error (.unexpectedOpeningState f))
        | some (.rcv (.established r)) => let (s, a) := s.handleTransfer r t; (s, .ok a)
        | some (.rcv (.closing _)) => (s, .ok .none)
    | .detach d => let (s, a) := s.handleDetach d; (s, .ok a)
    | _ => (s, .ok .none)

/-! ## Ending (session.rs) -/

/-- `get_all_links` (session.rs:392-405). -/
def allLinks (s : Session) : List (Ref ⊕ Ref) :=
  s.links.values.filterMap fun
    | .snd (.established r) => some (.inl r)
    | .rcv (.established r) => some (.inr r)
    | _ => none

/-- One round of the loop over the links in `set_error` (session.rs:359-374). -/
def failLink (e : PErr) (s : Session) : Link → Session
  | .snd (.established r) => s.sndRemoteDetached r e
  | .snd (.closing (some op)) => s.note (.detached op (.error e))
  | .rcv (.established r) => s.rcvRemoteDetached r none
  | _ => s

/-- What dropping the links that remain after that loop still does: the channels of opening links, and of closing
receivers, are dropped unsent. -/
def clearLink (s : Session) : Link → Session
  | .snd (.closing _) => s
  | l => s.dropLink l

/-- `for (_, promise) in map.drain() { promise.set_error(err) }` (session.rs:350-355), for deliveries sent. -/
def dropSent (s : Session) : Session :=
  { s.unsettledSnd.entries.foldl (fun s d => s.failInner d.2) s with unsettledSnd := .empty }

/-- The same for deliveries received. -/
def dropReceived (s : Session) : Session :=
  { s.unsettledRcv.entries.foldl (fun s d => s.failInner d.2) s with unsettledRcv := .empty }

/-- The loop over the links in `set_error` (session.rs:358-375); it changes no entry of the slab but by taking channels. -/
def failLinks (s : Session) (e : PErr) : Session :=
  s.links.values.foldl (failLink e) { s with linksByName := .empty }

/-- `self.links.clear()` (session.rs:376), after that loop. -/
def clearLinks (s : Session) : Session := s.links.values.foldl clearLink { s with links := .empty }

/-- `SessionInner::set_error` (session.rs:338-380).  `remote_handles` is not cleared.  The error is stored first here; the
code stores it last, and nothing in between looks at it. -/
def setError (s : Session) (e : PErr) : Session :=
  (((({ s with error := some e, ended := true }.drainPending (.error e)).dropSent).dropReceived).failLinks e).clearLinks

/-- `SessionInner::end` (session.rs:383-390), on the `End` frame. -/
def remoteEnd (s : Session) (e : Option Error) : Session × Action :=
  (s.setError (.sessionEnded e), .sessionEnded s.allLinks)

/-- `Session::end` (session.rs:101-128). -/
def endLocal (s : Session) : Session :=
  if s.ended then s
  else if s.ending then s
  else
    { (s.note (.closeSession s.remoteChannelId.toNat)).post (.end_ { error := none }) with ending := true }.note
      (.control (.localSessionEnded s.allLinks))

end Session
end Amqp.Rt
