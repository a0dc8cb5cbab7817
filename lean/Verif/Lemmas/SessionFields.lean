import Verif.Model.SessionStep
/-!
# Which fields the session functions leave alone

One lemma per function and field it does not touch (generated; all proofs are by unfolding).
-/

namespace Amqp.Rt.Session

theorem foldl_field {α β : Type} {f : Session → α → Session} (g : Session → β) (h : ∀ s a, g (f s a) = g s)
    (l : List α) (s : Session) : g (l.foldl f s) = g s := by
  induction l generalizing s with
  | nil => rfl
  | cons a l ih => exact (ih _).trans (h s a)

@[simp] theorem note_id (s : Session) (e : Ev) : (s.note e).id = s.id := rfl
@[simp] theorem note_isLocal (s : Session) (e : Ev) : (s.note e).isLocal = s.isLocal := rfl
@[simp] theorem note_ended (s : Session) (e : Ev) : (s.note e).ended = s.ended := rfl
@[simp] theorem note_ending (s : Session) (e : Ev) : (s.note e).ending = s.ending := rfl
@[simp] theorem note_maxFrameSize (s : Session) (e : Ev) : (s.note e).maxFrameSize = s.maxFrameSize := rfl
@[simp] theorem note_nextOutgoingId (s : Session) (e : Ev) : (s.note e).nextOutgoingId = s.nextOutgoingId := rfl
@[simp] theorem note_remoteChannelId (s : Session) (e : Ev) : (s.note e).remoteChannelId = s.remoteChannelId := rfl
@[simp] theorem note_nextIncomingId (s : Session) (e : Ev) : (s.note e).nextIncomingId = s.nextIncomingId := rfl
@[simp] theorem note_remoteOutgoingWindow (s : Session) (e : Ev) : (s.note e).remoteOutgoingWindow = s.remoteOutgoingWindow := rfl
@[simp] theorem note_remoteIncomingWindow (s : Session) (e : Ev) : (s.note e).remoteIncomingWindow = s.remoteIncomingWindow := rfl
@[simp] theorem note_links (s : Session) (e : Ev) : (s.note e).links = s.links := rfl
@[simp] theorem note_linksByName (s : Session) (e : Ev) : (s.note e).linksByName = s.linksByName := rfl
@[simp] theorem note_remoteHandles (s : Session) (e : Ev) : (s.note e).remoteHandles = s.remoteHandles := rfl
@[simp] theorem note_error (s : Session) (e : Ev) : (s.note e).error = s.error := rfl
@[simp] theorem note_pendingTransfers (s : Session) (e : Ev) : (s.note e).pendingTransfers = s.pendingTransfers := rfl
@[simp] theorem note_unsettledSnd (s : Session) (e : Ev) : (s.note e).unsettledSnd = s.unsettledSnd := rfl
@[simp] theorem note_unsettledRcv (s : Session) (e : Ev) : (s.note e).unsettledRcv = s.unsettledRcv := rfl
@[simp] theorem note_snds (s : Session) (e : Ev) : (s.note e).snds = s.snds := rfl
@[simp] theorem note_rcvs (s : Session) (e : Ev) : (s.note e).rcvs = s.rcvs := rfl
@[simp] theorem note_dlvs (s : Session) (e : Ev) : (s.note e).dlvs = s.dlvs := rfl
@[simp] theorem note_sends (s : Session) (e : Ev) : (s.note e).sends = s.sends := rfl
@[simp] theorem note_waits (s : Session) (e : Ev) : (s.note e).waits = s.waits := rfl
@[simp] theorem note_ops (s : Session) (e : Ev) : (s.note e).ops = s.ops := rfl
@[simp] theorem note_todo (s : Session) (e : Ev) : (s.note e).todo = s.todo := rfl
@[simp] theorem post_id (s : Session) (f : Frame) : (s.post f).id = s.id := rfl
@[simp] theorem post_isLocal (s : Session) (f : Frame) : (s.post f).isLocal = s.isLocal := rfl
@[simp] theorem post_ended (s : Session) (f : Frame) : (s.post f).ended = s.ended := rfl
@[simp] theorem post_ending (s : Session) (f : Frame) : (s.post f).ending = s.ending := rfl
@[simp] theorem post_maxFrameSize (s : Session) (f : Frame) : (s.post f).maxFrameSize = s.maxFrameSize := rfl
@[simp] theorem post_nextOutgoingId (s : Session) (f : Frame) : (s.post f).nextOutgoingId = s.nextOutgoingId := rfl
@[simp] theorem post_remoteChannelId (s : Session) (f : Frame) : (s.post f).remoteChannelId = s.remoteChannelId := rfl
@[simp] theorem post_nextIncomingId (s : Session) (f : Frame) : (s.post f).nextIncomingId = s.nextIncomingId := rfl
@[simp] theorem post_remoteOutgoingWindow (s : Session) (f : Frame) : (s.post f).remoteOutgoingWindow = s.remoteOutgoingWindow := rfl
@[simp] theorem post_remoteIncomingWindow (s : Session) (f : Frame) : (s.post f).remoteIncomingWindow = s.remoteIncomingWindow := rfl
@[simp] theorem post_links (s : Session) (f : Frame) : (s.post f).links = s.links := rfl
@[simp] theorem post_linksByName (s : Session) (f : Frame) : (s.post f).linksByName = s.linksByName := rfl
@[simp] theorem post_remoteHandles (s : Session) (f : Frame) : (s.post f).remoteHandles = s.remoteHandles := rfl
@[simp] theorem post_error (s : Session) (f : Frame) : (s.post f).error = s.error := rfl
@[simp] theorem post_pendingTransfers (s : Session) (f : Frame) : (s.post f).pendingTransfers = s.pendingTransfers := rfl
@[simp] theorem post_unsettledSnd (s : Session) (f : Frame) : (s.post f).unsettledSnd = s.unsettledSnd := rfl
@[simp] theorem post_unsettledRcv (s : Session) (f : Frame) : (s.post f).unsettledRcv = s.unsettledRcv := rfl
@[simp] theorem post_snds (s : Session) (f : Frame) : (s.post f).snds = s.snds := rfl
@[simp] theorem post_rcvs (s : Session) (f : Frame) : (s.post f).rcvs = s.rcvs := rfl
@[simp] theorem post_dlvs (s : Session) (f : Frame) : (s.post f).dlvs = s.dlvs := rfl
@[simp] theorem post_sends (s : Session) (f : Frame) : (s.post f).sends = s.sends := rfl
@[simp] theorem post_waits (s : Session) (f : Frame) : (s.post f).waits = s.waits := rfl
@[simp] theorem post_ops (s : Session) (f : Frame) : (s.post f).ops = s.ops := rfl
@[simp] theorem post_todo (s : Session) (f : Frame) : (s.post f).todo = s.todo := rfl
@[simp] theorem postAll_id (s : Session) (fs : List Frame) : (s.postAll fs).id = s.id := rfl
@[simp] theorem postAll_isLocal (s : Session) (fs : List Frame) : (s.postAll fs).isLocal = s.isLocal := rfl
@[simp] theorem postAll_ended (s : Session) (fs : List Frame) : (s.postAll fs).ended = s.ended := rfl
@[simp] theorem postAll_ending (s : Session) (fs : List Frame) : (s.postAll fs).ending = s.ending := rfl
@[simp] theorem postAll_maxFrameSize (s : Session) (fs : List Frame) : (s.postAll fs).maxFrameSize = s.maxFrameSize := rfl
@[simp] theorem postAll_nextOutgoingId (s : Session) (fs : List Frame) : (s.postAll fs).nextOutgoingId = s.nextOutgoingId := rfl
@[simp] theorem postAll_remoteChannelId (s : Session) (fs : List Frame) : (s.postAll fs).remoteChannelId = s.remoteChannelId := rfl
@[simp] theorem postAll_nextIncomingId (s : Session) (fs : List Frame) : (s.postAll fs).nextIncomingId = s.nextIncomingId := rfl
@[simp] theorem postAll_remoteOutgoingWindow (s : Session) (fs : List Frame) : (s.postAll fs).remoteOutgoingWindow = s.remoteOutgoingWindow := rfl
@[simp] theorem postAll_remoteIncomingWindow (s : Session) (fs : List Frame) : (s.postAll fs).remoteIncomingWindow = s.remoteIncomingWindow := rfl
@[simp] theorem postAll_links (s : Session) (fs : List Frame) : (s.postAll fs).links = s.links := rfl
@[simp] theorem postAll_linksByName (s : Session) (fs : List Frame) : (s.postAll fs).linksByName = s.linksByName := rfl
@[simp] theorem postAll_remoteHandles (s : Session) (fs : List Frame) : (s.postAll fs).remoteHandles = s.remoteHandles := rfl
@[simp] theorem postAll_error (s : Session) (fs : List Frame) : (s.postAll fs).error = s.error := rfl
@[simp] theorem postAll_pendingTransfers (s : Session) (fs : List Frame) : (s.postAll fs).pendingTransfers = s.pendingTransfers := rfl
@[simp] theorem postAll_unsettledSnd (s : Session) (fs : List Frame) : (s.postAll fs).unsettledSnd = s.unsettledSnd := rfl
@[simp] theorem postAll_unsettledRcv (s : Session) (fs : List Frame) : (s.postAll fs).unsettledRcv = s.unsettledRcv := rfl
@[simp] theorem postAll_snds (s : Session) (fs : List Frame) : (s.postAll fs).snds = s.snds := rfl
@[simp] theorem postAll_rcvs (s : Session) (fs : List Frame) : (s.postAll fs).rcvs = s.rcvs := rfl
@[simp] theorem postAll_dlvs (s : Session) (fs : List Frame) : (s.postAll fs).dlvs = s.dlvs := rfl
@[simp] theorem postAll_sends (s : Session) (fs : List Frame) : (s.postAll fs).sends = s.sends := rfl
@[simp] theorem postAll_waits (s : Session) (fs : List Frame) : (s.postAll fs).waits = s.waits := rfl
@[simp] theorem postAll_ops (s : Session) (fs : List Frame) : (s.postAll fs).ops = s.ops := rfl
@[simp] theorem postAll_todo (s : Session) (fs : List Frame) : (s.postAll fs).todo = s.todo := rfl
@[simp] theorem postDisp_id (s : Session) (r : Ref) (d : Dlv) (b : Bool) (st : DeliveryState) : (s.postDisp r d b st).id = s.id := rfl
@[simp] theorem postDisp_isLocal (s : Session) (r : Ref) (d : Dlv) (b : Bool) (st : DeliveryState) : (s.postDisp r d b st).isLocal = s.isLocal := rfl
@[simp] theorem postDisp_ended (s : Session) (r : Ref) (d : Dlv) (b : Bool) (st : DeliveryState) : (s.postDisp r d b st).ended = s.ended := rfl
@[simp] theorem postDisp_ending (s : Session) (r : Ref) (d : Dlv) (b : Bool) (st : DeliveryState) : (s.postDisp r d b st).ending = s.ending := rfl
@[simp] theorem postDisp_maxFrameSize (s : Session) (r : Ref) (d : Dlv) (b : Bool) (st : DeliveryState) : (s.postDisp r d b st).maxFrameSize = s.maxFrameSize := rfl
@[simp] theorem postDisp_nextOutgoingId (s : Session) (r : Ref) (d : Dlv) (b : Bool) (st : DeliveryState) : (s.postDisp r d b st).nextOutgoingId = s.nextOutgoingId := rfl
@[simp] theorem postDisp_remoteChannelId (s : Session) (r : Ref) (d : Dlv) (b : Bool) (st : DeliveryState) : (s.postDisp r d b st).remoteChannelId = s.remoteChannelId := rfl
@[simp] theorem postDisp_nextIncomingId (s : Session) (r : Ref) (d : Dlv) (b : Bool) (st : DeliveryState) : (s.postDisp r d b st).nextIncomingId = s.nextIncomingId := rfl
@[simp] theorem postDisp_remoteOutgoingWindow (s : Session) (r : Ref) (d : Dlv) (b : Bool) (st : DeliveryState) : (s.postDisp r d b st).remoteOutgoingWindow = s.remoteOutgoingWindow := rfl
@[simp] theorem postDisp_remoteIncomingWindow (s : Session) (r : Ref) (d : Dlv) (b : Bool) (st : DeliveryState) : (s.postDisp r d b st).remoteIncomingWindow = s.remoteIncomingWindow := rfl
@[simp] theorem postDisp_links (s : Session) (r : Ref) (d : Dlv) (b : Bool) (st : DeliveryState) : (s.postDisp r d b st).links = s.links := rfl
@[simp] theorem postDisp_linksByName (s : Session) (r : Ref) (d : Dlv) (b : Bool) (st : DeliveryState) : (s.postDisp r d b st).linksByName = s.linksByName := rfl
@[simp] theorem postDisp_remoteHandles (s : Session) (r : Ref) (d : Dlv) (b : Bool) (st : DeliveryState) : (s.postDisp r d b st).remoteHandles = s.remoteHandles := rfl
@[simp] theorem postDisp_error (s : Session) (r : Ref) (d : Dlv) (b : Bool) (st : DeliveryState) : (s.postDisp r d b st).error = s.error := rfl
@[simp] theorem postDisp_pendingTransfers (s : Session) (r : Ref) (d : Dlv) (b : Bool) (st : DeliveryState) : (s.postDisp r d b st).pendingTransfers = s.pendingTransfers := rfl
@[simp] theorem postDisp_unsettledSnd (s : Session) (r : Ref) (d : Dlv) (b : Bool) (st : DeliveryState) : (s.postDisp r d b st).unsettledSnd = s.unsettledSnd := rfl
@[simp] theorem postDisp_unsettledRcv (s : Session) (r : Ref) (d : Dlv) (b : Bool) (st : DeliveryState) : (s.postDisp r d b st).unsettledRcv = s.unsettledRcv := rfl
@[simp] theorem postDisp_snds (s : Session) (r : Ref) (d : Dlv) (b : Bool) (st : DeliveryState) : (s.postDisp r d b st).snds = s.snds := rfl
@[simp] theorem postDisp_rcvs (s : Session) (r : Ref) (d : Dlv) (b : Bool) (st : DeliveryState) : (s.postDisp r d b st).rcvs = s.rcvs := rfl
@[simp] theorem postDisp_dlvs (s : Session) (r : Ref) (d : Dlv) (b : Bool) (st : DeliveryState) : (s.postDisp r d b st).dlvs = s.dlvs := rfl
@[simp] theorem postDisp_sends (s : Session) (r : Ref) (d : Dlv) (b : Bool) (st : DeliveryState) : (s.postDisp r d b st).sends = s.sends := rfl
@[simp] theorem postDisp_waits (s : Session) (r : Ref) (d : Dlv) (b : Bool) (st : DeliveryState) : (s.postDisp r d b st).waits = s.waits := rfl
@[simp] theorem postDisp_ops (s : Session) (r : Ref) (d : Dlv) (b : Bool) (st : DeliveryState) : (s.postDisp r d b st).ops = s.ops := rfl
@[simp] theorem postDisp_todo (s : Session) (r : Ref) (d : Dlv) (b : Bool) (st : DeliveryState) : (s.postDisp r d b st).todo = s.todo := rfl
@[simp] theorem modSnd_id (s : Session) (r : Ref) (f : Snd → Snd) : (s.modSnd r f).id = s.id := rfl
@[simp] theorem modSnd_isLocal (s : Session) (r : Ref) (f : Snd → Snd) : (s.modSnd r f).isLocal = s.isLocal := rfl
@[simp] theorem modSnd_ended (s : Session) (r : Ref) (f : Snd → Snd) : (s.modSnd r f).ended = s.ended := rfl
@[simp] theorem modSnd_ending (s : Session) (r : Ref) (f : Snd → Snd) : (s.modSnd r f).ending = s.ending := rfl
@[simp] theorem modSnd_maxFrameSize (s : Session) (r : Ref) (f : Snd → Snd) : (s.modSnd r f).maxFrameSize = s.maxFrameSize := rfl
@[simp] theorem modSnd_nextOutgoingId (s : Session) (r : Ref) (f : Snd → Snd) : (s.modSnd r f).nextOutgoingId = s.nextOutgoingId := rfl
@[simp] theorem modSnd_remoteChannelId (s : Session) (r : Ref) (f : Snd → Snd) : (s.modSnd r f).remoteChannelId = s.remoteChannelId := rfl
@[simp] theorem modSnd_nextIncomingId (s : Session) (r : Ref) (f : Snd → Snd) : (s.modSnd r f).nextIncomingId = s.nextIncomingId := rfl
@[simp] theorem modSnd_remoteOutgoingWindow (s : Session) (r : Ref) (f : Snd → Snd) : (s.modSnd r f).remoteOutgoingWindow = s.remoteOutgoingWindow := rfl
@[simp] theorem modSnd_remoteIncomingWindow (s : Session) (r : Ref) (f : Snd → Snd) : (s.modSnd r f).remoteIncomingWindow = s.remoteIncomingWindow := rfl
@[simp] theorem modSnd_links (s : Session) (r : Ref) (f : Snd → Snd) : (s.modSnd r f).links = s.links := rfl
@[simp] theorem modSnd_linksByName (s : Session) (r : Ref) (f : Snd → Snd) : (s.modSnd r f).linksByName = s.linksByName := rfl
@[simp] theorem modSnd_remoteHandles (s : Session) (r : Ref) (f : Snd → Snd) : (s.modSnd r f).remoteHandles = s.remoteHandles := rfl
@[simp] theorem modSnd_error (s : Session) (r : Ref) (f : Snd → Snd) : (s.modSnd r f).error = s.error := rfl
@[simp] theorem modSnd_pendingTransfers (s : Session) (r : Ref) (f : Snd → Snd) : (s.modSnd r f).pendingTransfers = s.pendingTransfers := rfl
@[simp] theorem modSnd_unsettledSnd (s : Session) (r : Ref) (f : Snd → Snd) : (s.modSnd r f).unsettledSnd = s.unsettledSnd := rfl
@[simp] theorem modSnd_unsettledRcv (s : Session) (r : Ref) (f : Snd → Snd) : (s.modSnd r f).unsettledRcv = s.unsettledRcv := rfl
@[simp] theorem modSnd_rcvs (s : Session) (r : Ref) (f : Snd → Snd) : (s.modSnd r f).rcvs = s.rcvs := rfl
@[simp] theorem modSnd_dlvs (s : Session) (r : Ref) (f : Snd → Snd) : (s.modSnd r f).dlvs = s.dlvs := rfl
@[simp] theorem modSnd_sends (s : Session) (r : Ref) (f : Snd → Snd) : (s.modSnd r f).sends = s.sends := rfl
@[simp] theorem modSnd_waits (s : Session) (r : Ref) (f : Snd → Snd) : (s.modSnd r f).waits = s.waits := rfl
@[simp] theorem modSnd_ops (s : Session) (r : Ref) (f : Snd → Snd) : (s.modSnd r f).ops = s.ops := rfl
@[simp] theorem modSnd_todo (s : Session) (r : Ref) (f : Snd → Snd) : (s.modSnd r f).todo = s.todo := rfl
@[simp] theorem modSnd_log (s : Session) (r : Ref) (f : Snd → Snd) : (s.modSnd r f).log = s.log := rfl
@[simp] theorem modRcv_id (s : Session) (r : Ref) (f : Rcv → Rcv) : (s.modRcv r f).id = s.id := rfl
@[simp] theorem modRcv_isLocal (s : Session) (r : Ref) (f : Rcv → Rcv) : (s.modRcv r f).isLocal = s.isLocal := rfl
@[simp] theorem modRcv_ended (s : Session) (r : Ref) (f : Rcv → Rcv) : (s.modRcv r f).ended = s.ended := rfl
@[simp] theorem modRcv_ending (s : Session) (r : Ref) (f : Rcv → Rcv) : (s.modRcv r f).ending = s.ending := rfl
@[simp] theorem modRcv_maxFrameSize (s : Session) (r : Ref) (f : Rcv → Rcv) : (s.modRcv r f).maxFrameSize = s.maxFrameSize := rfl
@[simp] theorem modRcv_nextOutgoingId (s : Session) (r : Ref) (f : Rcv → Rcv) : (s.modRcv r f).nextOutgoingId = s.nextOutgoingId := rfl
@[simp] theorem modRcv_remoteChannelId (s : Session) (r : Ref) (f : Rcv → Rcv) : (s.modRcv r f).remoteChannelId = s.remoteChannelId := rfl
@[simp] theorem modRcv_nextIncomingId (s : Session) (r : Ref) (f : Rcv → Rcv) : (s.modRcv r f).nextIncomingId = s.nextIncomingId := rfl
@[simp] theorem modRcv_remoteOutgoingWindow (s : Session) (r : Ref) (f : Rcv → Rcv) : (s.modRcv r f).remoteOutgoingWindow = s.remoteOutgoingWindow := rfl
@[simp] theorem modRcv_remoteIncomingWindow (s : Session) (r : Ref) (f : Rcv → Rcv) : (s.modRcv r f).remoteIncomingWindow = s.remoteIncomingWindow := rfl
@[simp] theorem modRcv_links (s : Session) (r : Ref) (f : Rcv → Rcv) : (s.modRcv r f).links = s.links := rfl
@[simp] theorem modRcv_linksByName (s : Session) (r : Ref) (f : Rcv → Rcv) : (s.modRcv r f).linksByName = s.linksByName := rfl
@[simp] theorem modRcv_remoteHandles (s : Session) (r : Ref) (f : Rcv → Rcv) : (s.modRcv r f).remoteHandles = s.remoteHandles := rfl
@[simp] theorem modRcv_error (s : Session) (r : Ref) (f : Rcv → Rcv) : (s.modRcv r f).error = s.error := rfl
@[simp] theorem modRcv_pendingTransfers (s : Session) (r : Ref) (f : Rcv → Rcv) : (s.modRcv r f).pendingTransfers = s.pendingTransfers := rfl
@[simp] theorem modRcv_unsettledSnd (s : Session) (r : Ref) (f : Rcv → Rcv) : (s.modRcv r f).unsettledSnd = s.unsettledSnd := rfl
@[simp] theorem modRcv_unsettledRcv (s : Session) (r : Ref) (f : Rcv → Rcv) : (s.modRcv r f).unsettledRcv = s.unsettledRcv := rfl
@[simp] theorem modRcv_snds (s : Session) (r : Ref) (f : Rcv → Rcv) : (s.modRcv r f).snds = s.snds := rfl
@[simp] theorem modRcv_dlvs (s : Session) (r : Ref) (f : Rcv → Rcv) : (s.modRcv r f).dlvs = s.dlvs := rfl
@[simp] theorem modRcv_sends (s : Session) (r : Ref) (f : Rcv → Rcv) : (s.modRcv r f).sends = s.sends := rfl
@[simp] theorem modRcv_waits (s : Session) (r : Ref) (f : Rcv → Rcv) : (s.modRcv r f).waits = s.waits := rfl
@[simp] theorem modRcv_ops (s : Session) (r : Ref) (f : Rcv → Rcv) : (s.modRcv r f).ops = s.ops := rfl
@[simp] theorem modRcv_todo (s : Session) (r : Ref) (f : Rcv → Rcv) : (s.modRcv r f).todo = s.todo := rfl
@[simp] theorem modRcv_log (s : Session) (r : Ref) (f : Rcv → Rcv) : (s.modRcv r f).log = s.log := rfl
@[simp] theorem modDlv_id (s : Session) (r : Ref) (f : Dlv → Dlv) : (s.modDlv r f).id = s.id := rfl
@[simp] theorem modDlv_isLocal (s : Session) (r : Ref) (f : Dlv → Dlv) : (s.modDlv r f).isLocal = s.isLocal := rfl
@[simp] theorem modDlv_ended (s : Session) (r : Ref) (f : Dlv → Dlv) : (s.modDlv r f).ended = s.ended := rfl
@[simp] theorem modDlv_ending (s : Session) (r : Ref) (f : Dlv → Dlv) : (s.modDlv r f).ending = s.ending := rfl
@[simp] theorem modDlv_maxFrameSize (s : Session) (r : Ref) (f : Dlv → Dlv) : (s.modDlv r f).maxFrameSize = s.maxFrameSize := rfl
@[simp] theorem modDlv_nextOutgoingId (s : Session) (r : Ref) (f : Dlv → Dlv) : (s.modDlv r f).nextOutgoingId = s.nextOutgoingId := rfl
@[simp] theorem modDlv_remoteChannelId (s : Session) (r : Ref) (f : Dlv → Dlv) : (s.modDlv r f).remoteChannelId = s.remoteChannelId := rfl
@[simp] theorem modDlv_nextIncomingId (s : Session) (r : Ref) (f : Dlv → Dlv) : (s.modDlv r f).nextIncomingId = s.nextIncomingId := rfl
@[simp] theorem modDlv_remoteOutgoingWindow (s : Session) (r : Ref) (f : Dlv → Dlv) : (s.modDlv r f).remoteOutgoingWindow = s.remoteOutgoingWindow := rfl
@[simp] theorem modDlv_remoteIncomingWindow (s : Session) (r : Ref) (f : Dlv → Dlv) : (s.modDlv r f).remoteIncomingWindow = s.remoteIncomingWindow := rfl
@[simp] theorem modDlv_links (s : Session) (r : Ref) (f : Dlv → Dlv) : (s.modDlv r f).links = s.links := rfl
@[simp] theorem modDlv_linksByName (s : Session) (r : Ref) (f : Dlv → Dlv) : (s.modDlv r f).linksByName = s.linksByName := rfl
@[simp] theorem modDlv_remoteHandles (s : Session) (r : Ref) (f : Dlv → Dlv) : (s.modDlv r f).remoteHandles = s.remoteHandles := rfl
@[simp] theorem modDlv_error (s : Session) (r : Ref) (f : Dlv → Dlv) : (s.modDlv r f).error = s.error := rfl
@[simp] theorem modDlv_pendingTransfers (s : Session) (r : Ref) (f : Dlv → Dlv) : (s.modDlv r f).pendingTransfers = s.pendingTransfers := rfl
@[simp] theorem modDlv_unsettledSnd (s : Session) (r : Ref) (f : Dlv → Dlv) : (s.modDlv r f).unsettledSnd = s.unsettledSnd := rfl
@[simp] theorem modDlv_unsettledRcv (s : Session) (r : Ref) (f : Dlv → Dlv) : (s.modDlv r f).unsettledRcv = s.unsettledRcv := rfl
@[simp] theorem modDlv_snds (s : Session) (r : Ref) (f : Dlv → Dlv) : (s.modDlv r f).snds = s.snds := rfl
@[simp] theorem modDlv_rcvs (s : Session) (r : Ref) (f : Dlv → Dlv) : (s.modDlv r f).rcvs = s.rcvs := rfl
@[simp] theorem modDlv_sends (s : Session) (r : Ref) (f : Dlv → Dlv) : (s.modDlv r f).sends = s.sends := rfl
@[simp] theorem modDlv_waits (s : Session) (r : Ref) (f : Dlv → Dlv) : (s.modDlv r f).waits = s.waits := rfl
@[simp] theorem modDlv_ops (s : Session) (r : Ref) (f : Dlv → Dlv) : (s.modDlv r f).ops = s.ops := rfl
@[simp] theorem modDlv_todo (s : Session) (r : Ref) (f : Dlv → Dlv) : (s.modDlv r f).todo = s.todo := rfl
@[simp] theorem modDlv_log (s : Session) (r : Ref) (f : Dlv → Dlv) : (s.modDlv r f).log = s.log := rfl
@[simp] theorem modSend_id (s : Session) (r : Ref) (f : SendTask → SendTask) : (s.modSend r f).id = s.id := rfl
@[simp] theorem modSend_isLocal (s : Session) (r : Ref) (f : SendTask → SendTask) : (s.modSend r f).isLocal = s.isLocal := rfl
@[simp] theorem modSend_ended (s : Session) (r : Ref) (f : SendTask → SendTask) : (s.modSend r f).ended = s.ended := rfl
@[simp] theorem modSend_ending (s : Session) (r : Ref) (f : SendTask → SendTask) : (s.modSend r f).ending = s.ending := rfl
@[simp] theorem modSend_maxFrameSize (s : Session) (r : Ref) (f : SendTask → SendTask) : (s.modSend r f).maxFrameSize = s.maxFrameSize := rfl
@[simp] theorem modSend_nextOutgoingId (s : Session) (r : Ref) (f : SendTask → SendTask) : (s.modSend r f).nextOutgoingId = s.nextOutgoingId := rfl
@[simp] theorem modSend_remoteChannelId (s : Session) (r : Ref) (f : SendTask → SendTask) : (s.modSend r f).remoteChannelId = s.remoteChannelId := rfl
@[simp] theorem modSend_nextIncomingId (s : Session) (r : Ref) (f : SendTask → SendTask) : (s.modSend r f).nextIncomingId = s.nextIncomingId := rfl
@[simp] theorem modSend_remoteOutgoingWindow (s : Session) (r : Ref) (f : SendTask → SendTask) : (s.modSend r f).remoteOutgoingWindow = s.remoteOutgoingWindow := rfl
@[simp] theorem modSend_remoteIncomingWindow (s : Session) (r : Ref) (f : SendTask → SendTask) : (s.modSend r f).remoteIncomingWindow = s.remoteIncomingWindow := rfl
@[simp] theorem modSend_links (s : Session) (r : Ref) (f : SendTask → SendTask) : (s.modSend r f).links = s.links := rfl
@[simp] theorem modSend_linksByName (s : Session) (r : Ref) (f : SendTask → SendTask) : (s.modSend r f).linksByName = s.linksByName := rfl
@[simp] theorem modSend_remoteHandles (s : Session) (r : Ref) (f : SendTask → SendTask) : (s.modSend r f).remoteHandles = s.remoteHandles := rfl
@[simp] theorem modSend_error (s : Session) (r : Ref) (f : SendTask → SendTask) : (s.modSend r f).error = s.error := rfl
@[simp] theorem modSend_pendingTransfers (s : Session) (r : Ref) (f : SendTask → SendTask) : (s.modSend r f).pendingTransfers = s.pendingTransfers := rfl
@[simp] theorem modSend_unsettledSnd (s : Session) (r : Ref) (f : SendTask → SendTask) : (s.modSend r f).unsettledSnd = s.unsettledSnd := rfl
@[simp] theorem modSend_unsettledRcv (s : Session) (r : Ref) (f : SendTask → SendTask) : (s.modSend r f).unsettledRcv = s.unsettledRcv := rfl
@[simp] theorem modSend_snds (s : Session) (r : Ref) (f : SendTask → SendTask) : (s.modSend r f).snds = s.snds := rfl
@[simp] theorem modSend_rcvs (s : Session) (r : Ref) (f : SendTask → SendTask) : (s.modSend r f).rcvs = s.rcvs := rfl
@[simp] theorem modSend_dlvs (s : Session) (r : Ref) (f : SendTask → SendTask) : (s.modSend r f).dlvs = s.dlvs := rfl
@[simp] theorem modSend_waits (s : Session) (r : Ref) (f : SendTask → SendTask) : (s.modSend r f).waits = s.waits := rfl
@[simp] theorem modSend_ops (s : Session) (r : Ref) (f : SendTask → SendTask) : (s.modSend r f).ops = s.ops := rfl
@[simp] theorem modSend_todo (s : Session) (r : Ref) (f : SendTask → SendTask) : (s.modSend r f).todo = s.todo := rfl
@[simp] theorem modSend_log (s : Session) (r : Ref) (f : SendTask → SendTask) : (s.modSend r f).log = s.log := rfl
@[simp] theorem modWait_id (s : Session) (r : Ref) (f : WaitTask → WaitTask) : (s.modWait r f).id = s.id := rfl
@[simp] theorem modWait_isLocal (s : Session) (r : Ref) (f : WaitTask → WaitTask) : (s.modWait r f).isLocal = s.isLocal := rfl
@[simp] theorem modWait_ended (s : Session) (r : Ref) (f : WaitTask → WaitTask) : (s.modWait r f).ended = s.ended := rfl
@[simp] theorem modWait_ending (s : Session) (r : Ref) (f : WaitTask → WaitTask) : (s.modWait r f).ending = s.ending := rfl
@[simp] theorem modWait_maxFrameSize (s : Session) (r : Ref) (f : WaitTask → WaitTask) : (s.modWait r f).maxFrameSize = s.maxFrameSize := rfl
@[simp] theorem modWait_nextOutgoingId (s : Session) (r : Ref) (f : WaitTask → WaitTask) : (s.modWait r f).nextOutgoingId = s.nextOutgoingId := rfl
@[simp] theorem modWait_remoteChannelId (s : Session) (r : Ref) (f : WaitTask → WaitTask) : (s.modWait r f).remoteChannelId = s.remoteChannelId := rfl
@[simp] theorem modWait_nextIncomingId (s : Session) (r : Ref) (f : WaitTask → WaitTask) : (s.modWait r f).nextIncomingId = s.nextIncomingId := rfl
@[simp] theorem modWait_remoteOutgoingWindow (s : Session) (r : Ref) (f : WaitTask → WaitTask) : (s.modWait r f).remoteOutgoingWindow = s.remoteOutgoingWindow := rfl
@[simp] theorem modWait_remoteIncomingWindow (s : Session) (r : Ref) (f : WaitTask → WaitTask) : (s.modWait r f).remoteIncomingWindow = s.remoteIncomingWindow := rfl
@[simp] theorem modWait_links (s : Session) (r : Ref) (f : WaitTask → WaitTask) : (s.modWait r f).links = s.links := rfl
@[simp] theorem modWait_linksByName (s : Session) (r : Ref) (f : WaitTask → WaitTask) : (s.modWait r f).linksByName = s.linksByName := rfl
@[simp] theorem modWait_remoteHandles (s : Session) (r : Ref) (f : WaitTask → WaitTask) : (s.modWait r f).remoteHandles = s.remoteHandles := rfl
@[simp] theorem modWait_error (s : Session) (r : Ref) (f : WaitTask → WaitTask) : (s.modWait r f).error = s.error := rfl
@[simp] theorem modWait_pendingTransfers (s : Session) (r : Ref) (f : WaitTask → WaitTask) : (s.modWait r f).pendingTransfers = s.pendingTransfers := rfl
@[simp] theorem modWait_unsettledSnd (s : Session) (r : Ref) (f : WaitTask → WaitTask) : (s.modWait r f).unsettledSnd = s.unsettledSnd := rfl
@[simp] theorem modWait_unsettledRcv (s : Session) (r : Ref) (f : WaitTask → WaitTask) : (s.modWait r f).unsettledRcv = s.unsettledRcv := rfl
@[simp] theorem modWait_snds (s : Session) (r : Ref) (f : WaitTask → WaitTask) : (s.modWait r f).snds = s.snds := rfl
@[simp] theorem modWait_rcvs (s : Session) (r : Ref) (f : WaitTask → WaitTask) : (s.modWait r f).rcvs = s.rcvs := rfl
@[simp] theorem modWait_dlvs (s : Session) (r : Ref) (f : WaitTask → WaitTask) : (s.modWait r f).dlvs = s.dlvs := rfl
@[simp] theorem modWait_sends (s : Session) (r : Ref) (f : WaitTask → WaitTask) : (s.modWait r f).sends = s.sends := rfl
@[simp] theorem modWait_ops (s : Session) (r : Ref) (f : WaitTask → WaitTask) : (s.modWait r f).ops = s.ops := rfl
@[simp] theorem modWait_todo (s : Session) (r : Ref) (f : WaitTask → WaitTask) : (s.modWait r f).todo = s.todo := rfl
@[simp] theorem modWait_log (s : Session) (r : Ref) (f : WaitTask → WaitTask) : (s.modWait r f).log = s.log := rfl
@[simp] theorem wake_id (s : Session) (t : Ref) (m : Except PErr Unit) : (s.wake t m).id = s.id := rfl
@[simp] theorem wake_isLocal (s : Session) (t : Ref) (m : Except PErr Unit) : (s.wake t m).isLocal = s.isLocal := rfl
@[simp] theorem wake_ended (s : Session) (t : Ref) (m : Except PErr Unit) : (s.wake t m).ended = s.ended := rfl
@[simp] theorem wake_ending (s : Session) (t : Ref) (m : Except PErr Unit) : (s.wake t m).ending = s.ending := rfl
@[simp] theorem wake_maxFrameSize (s : Session) (t : Ref) (m : Except PErr Unit) : (s.wake t m).maxFrameSize = s.maxFrameSize := rfl
@[simp] theorem wake_nextOutgoingId (s : Session) (t : Ref) (m : Except PErr Unit) : (s.wake t m).nextOutgoingId = s.nextOutgoingId := rfl
@[simp] theorem wake_remoteChannelId (s : Session) (t : Ref) (m : Except PErr Unit) : (s.wake t m).remoteChannelId = s.remoteChannelId := rfl
@[simp] theorem wake_nextIncomingId (s : Session) (t : Ref) (m : Except PErr Unit) : (s.wake t m).nextIncomingId = s.nextIncomingId := rfl
@[simp] theorem wake_remoteOutgoingWindow (s : Session) (t : Ref) (m : Except PErr Unit) : (s.wake t m).remoteOutgoingWindow = s.remoteOutgoingWindow := rfl
@[simp] theorem wake_remoteIncomingWindow (s : Session) (t : Ref) (m : Except PErr Unit) : (s.wake t m).remoteIncomingWindow = s.remoteIncomingWindow := rfl
@[simp] theorem wake_links (s : Session) (t : Ref) (m : Except PErr Unit) : (s.wake t m).links = s.links := rfl
@[simp] theorem wake_linksByName (s : Session) (t : Ref) (m : Except PErr Unit) : (s.wake t m).linksByName = s.linksByName := rfl
@[simp] theorem wake_remoteHandles (s : Session) (t : Ref) (m : Except PErr Unit) : (s.wake t m).remoteHandles = s.remoteHandles := rfl
@[simp] theorem wake_error (s : Session) (t : Ref) (m : Except PErr Unit) : (s.wake t m).error = s.error := rfl
@[simp] theorem wake_pendingTransfers (s : Session) (t : Ref) (m : Except PErr Unit) : (s.wake t m).pendingTransfers = s.pendingTransfers := rfl
@[simp] theorem wake_unsettledSnd (s : Session) (t : Ref) (m : Except PErr Unit) : (s.wake t m).unsettledSnd = s.unsettledSnd := rfl
@[simp] theorem wake_unsettledRcv (s : Session) (t : Ref) (m : Except PErr Unit) : (s.wake t m).unsettledRcv = s.unsettledRcv := rfl
@[simp] theorem wake_snds (s : Session) (t : Ref) (m : Except PErr Unit) : (s.wake t m).snds = s.snds := rfl
@[simp] theorem wake_rcvs (s : Session) (t : Ref) (m : Except PErr Unit) : (s.wake t m).rcvs = s.rcvs := rfl
@[simp] theorem wake_dlvs (s : Session) (t : Ref) (m : Except PErr Unit) : (s.wake t m).dlvs = s.dlvs := rfl
@[simp] theorem wake_waits (s : Session) (t : Ref) (m : Except PErr Unit) : (s.wake t m).waits = s.waits := rfl
@[simp] theorem wake_ops (s : Session) (t : Ref) (m : Except PErr Unit) : (s.wake t m).ops = s.ops := rfl
@[simp] theorem wake_todo (s : Session) (t : Ref) (m : Except PErr Unit) : (s.wake t m).todo = s.todo := rfl
@[simp] theorem wake_log (s : Session) (t : Ref) (m : Except PErr Unit) : (s.wake t m).log = s.log := rfl
@[simp] theorem wakeAll_id (s : Session) (ts : List Ref) (m : Except PErr Unit) : (s.wakeAll ts m).id = s.id := foldl_field Session.id (f := fun s t => s.wake t m) (fun _ _ => rfl) ts s
@[simp] theorem wakeAll_isLocal (s : Session) (ts : List Ref) (m : Except PErr Unit) : (s.wakeAll ts m).isLocal = s.isLocal := foldl_field Session.isLocal (f := fun s t => s.wake t m) (fun _ _ => rfl) ts s
@[simp] theorem wakeAll_ended (s : Session) (ts : List Ref) (m : Except PErr Unit) : (s.wakeAll ts m).ended = s.ended := foldl_field Session.ended (f := fun s t => s.wake t m) (fun _ _ => rfl) ts s
@[simp] theorem wakeAll_ending (s : Session) (ts : List Ref) (m : Except PErr Unit) : (s.wakeAll ts m).ending = s.ending := foldl_field Session.ending (f := fun s t => s.wake t m) (fun _ _ => rfl) ts s
@[simp] theorem wakeAll_maxFrameSize (s : Session) (ts : List Ref) (m : Except PErr Unit) : (s.wakeAll ts m).maxFrameSize = s.maxFrameSize := foldl_field Session.maxFrameSize (f := fun s t => s.wake t m) (fun _ _ => rfl) ts s
@[simp] theorem wakeAll_nextOutgoingId (s : Session) (ts : List Ref) (m : Except PErr Unit) : (s.wakeAll ts m).nextOutgoingId = s.nextOutgoingId := foldl_field Session.nextOutgoingId (f := fun s t => s.wake t m) (fun _ _ => rfl) ts s
@[simp] theorem wakeAll_remoteChannelId (s : Session) (ts : List Ref) (m : Except PErr Unit) : (s.wakeAll ts m).remoteChannelId = s.remoteChannelId := foldl_field Session.remoteChannelId (f := fun s t => s.wake t m) (fun _ _ => rfl) ts s
@[simp] theorem wakeAll_nextIncomingId (s : Session) (ts : List Ref) (m : Except PErr Unit) : (s.wakeAll ts m).nextIncomingId = s.nextIncomingId := foldl_field Session.nextIncomingId (f := fun s t => s.wake t m) (fun _ _ => rfl) ts s
@[simp] theorem wakeAll_remoteOutgoingWindow (s : Session) (ts : List Ref) (m : Except PErr Unit) : (s.wakeAll ts m).remoteOutgoingWindow = s.remoteOutgoingWindow := foldl_field Session.remoteOutgoingWindow (f := fun s t => s.wake t m) (fun _ _ => rfl) ts s
@[simp] theorem wakeAll_remoteIncomingWindow (s : Session) (ts : List Ref) (m : Except PErr Unit) : (s.wakeAll ts m).remoteIncomingWindow = s.remoteIncomingWindow := foldl_field Session.remoteIncomingWindow (f := fun s t => s.wake t m) (fun _ _ => rfl) ts s
@[simp] theorem wakeAll_links (s : Session) (ts : List Ref) (m : Except PErr Unit) : (s.wakeAll ts m).links = s.links := foldl_field Session.links (f := fun s t => s.wake t m) (fun _ _ => rfl) ts s
@[simp] theorem wakeAll_linksByName (s : Session) (ts : List Ref) (m : Except PErr Unit) : (s.wakeAll ts m).linksByName = s.linksByName := foldl_field Session.linksByName (f := fun s t => s.wake t m) (fun _ _ => rfl) ts s
@[simp] theorem wakeAll_remoteHandles (s : Session) (ts : List Ref) (m : Except PErr Unit) : (s.wakeAll ts m).remoteHandles = s.remoteHandles := foldl_field Session.remoteHandles (f := fun s t => s.wake t m) (fun _ _ => rfl) ts s
@[simp] theorem wakeAll_error (s : Session) (ts : List Ref) (m : Except PErr Unit) : (s.wakeAll ts m).error = s.error := foldl_field Session.error (f := fun s t => s.wake t m) (fun _ _ => rfl) ts s
@[simp] theorem wakeAll_pendingTransfers (s : Session) (ts : List Ref) (m : Except PErr Unit) : (s.wakeAll ts m).pendingTransfers = s.pendingTransfers := foldl_field Session.pendingTransfers (f := fun s t => s.wake t m) (fun _ _ => rfl) ts s
@[simp] theorem wakeAll_unsettledSnd (s : Session) (ts : List Ref) (m : Except PErr Unit) : (s.wakeAll ts m).unsettledSnd = s.unsettledSnd := foldl_field Session.unsettledSnd (f := fun s t => s.wake t m) (fun _ _ => rfl) ts s
@[simp] theorem wakeAll_unsettledRcv (s : Session) (ts : List Ref) (m : Except PErr Unit) : (s.wakeAll ts m).unsettledRcv = s.unsettledRcv := foldl_field Session.unsettledRcv (f := fun s t => s.wake t m) (fun _ _ => rfl) ts s
@[simp] theorem wakeAll_snds (s : Session) (ts : List Ref) (m : Except PErr Unit) : (s.wakeAll ts m).snds = s.snds := foldl_field Session.snds (f := fun s t => s.wake t m) (fun _ _ => rfl) ts s
@[simp] theorem wakeAll_rcvs (s : Session) (ts : List Ref) (m : Except PErr Unit) : (s.wakeAll ts m).rcvs = s.rcvs := foldl_field Session.rcvs (f := fun s t => s.wake t m) (fun _ _ => rfl) ts s
@[simp] theorem wakeAll_dlvs (s : Session) (ts : List Ref) (m : Except PErr Unit) : (s.wakeAll ts m).dlvs = s.dlvs := foldl_field Session.dlvs (f := fun s t => s.wake t m) (fun _ _ => rfl) ts s
@[simp] theorem wakeAll_waits (s : Session) (ts : List Ref) (m : Except PErr Unit) : (s.wakeAll ts m).waits = s.waits := foldl_field Session.waits (f := fun s t => s.wake t m) (fun _ _ => rfl) ts s
@[simp] theorem wakeAll_ops (s : Session) (ts : List Ref) (m : Except PErr Unit) : (s.wakeAll ts m).ops = s.ops := foldl_field Session.ops (f := fun s t => s.wake t m) (fun _ _ => rfl) ts s
@[simp] theorem wakeAll_todo (s : Session) (ts : List Ref) (m : Except PErr Unit) : (s.wakeAll ts m).todo = s.todo := foldl_field Session.todo (f := fun s t => s.wake t m) (fun _ _ => rfl) ts s
@[simp] theorem wakeAll_log (s : Session) (ts : List Ref) (m : Except PErr Unit) : (s.wakeAll ts m).log = s.log := foldl_field Session.log (f := fun s t => s.wake t m) (fun _ _ => rfl) ts s
@[simp] theorem notify_id (s : Session) (w : Option Ref) (m : Bool) : (s.notify w m).id = s.id := by cases w <;> rfl
@[simp] theorem notify_isLocal (s : Session) (w : Option Ref) (m : Bool) : (s.notify w m).isLocal = s.isLocal := by cases w <;> rfl
@[simp] theorem notify_ended (s : Session) (w : Option Ref) (m : Bool) : (s.notify w m).ended = s.ended := by cases w <;> rfl
@[simp] theorem notify_ending (s : Session) (w : Option Ref) (m : Bool) : (s.notify w m).ending = s.ending := by cases w <;> rfl
@[simp] theorem notify_maxFrameSize (s : Session) (w : Option Ref) (m : Bool) : (s.notify w m).maxFrameSize = s.maxFrameSize := by cases w <;> rfl
@[simp] theorem notify_nextOutgoingId (s : Session) (w : Option Ref) (m : Bool) : (s.notify w m).nextOutgoingId = s.nextOutgoingId := by cases w <;> rfl
@[simp] theorem notify_remoteChannelId (s : Session) (w : Option Ref) (m : Bool) : (s.notify w m).remoteChannelId = s.remoteChannelId := by cases w <;> rfl
@[simp] theorem notify_nextIncomingId (s : Session) (w : Option Ref) (m : Bool) : (s.notify w m).nextIncomingId = s.nextIncomingId := by cases w <;> rfl
@[simp] theorem notify_remoteOutgoingWindow (s : Session) (w : Option Ref) (m : Bool) : (s.notify w m).remoteOutgoingWindow = s.remoteOutgoingWindow := by cases w <;> rfl
@[simp] theorem notify_remoteIncomingWindow (s : Session) (w : Option Ref) (m : Bool) : (s.notify w m).remoteIncomingWindow = s.remoteIncomingWindow := by cases w <;> rfl
@[simp] theorem notify_links (s : Session) (w : Option Ref) (m : Bool) : (s.notify w m).links = s.links := by cases w <;> rfl
@[simp] theorem notify_linksByName (s : Session) (w : Option Ref) (m : Bool) : (s.notify w m).linksByName = s.linksByName := by cases w <;> rfl
@[simp] theorem notify_remoteHandles (s : Session) (w : Option Ref) (m : Bool) : (s.notify w m).remoteHandles = s.remoteHandles := by cases w <;> rfl
@[simp] theorem notify_error (s : Session) (w : Option Ref) (m : Bool) : (s.notify w m).error = s.error := by cases w <;> rfl
@[simp] theorem notify_pendingTransfers (s : Session) (w : Option Ref) (m : Bool) : (s.notify w m).pendingTransfers = s.pendingTransfers := by cases w <;> rfl
@[simp] theorem notify_unsettledSnd (s : Session) (w : Option Ref) (m : Bool) : (s.notify w m).unsettledSnd = s.unsettledSnd := by cases w <;> rfl
@[simp] theorem notify_unsettledRcv (s : Session) (w : Option Ref) (m : Bool) : (s.notify w m).unsettledRcv = s.unsettledRcv := by cases w <;> rfl
@[simp] theorem notify_snds (s : Session) (w : Option Ref) (m : Bool) : (s.notify w m).snds = s.snds := by cases w <;> rfl
@[simp] theorem notify_rcvs (s : Session) (w : Option Ref) (m : Bool) : (s.notify w m).rcvs = s.rcvs := by cases w <;> rfl
@[simp] theorem notify_dlvs (s : Session) (w : Option Ref) (m : Bool) : (s.notify w m).dlvs = s.dlvs := by cases w <;> rfl
@[simp] theorem notify_sends (s : Session) (w : Option Ref) (m : Bool) : (s.notify w m).sends = s.sends := by cases w <;> rfl
@[simp] theorem notify_ops (s : Session) (w : Option Ref) (m : Bool) : (s.notify w m).ops = s.ops := by cases w <;> rfl
@[simp] theorem notify_todo (s : Session) (w : Option Ref) (m : Bool) : (s.notify w m).todo = s.todo := by cases w <;> rfl
@[simp] theorem notify_log (s : Session) (w : Option Ref) (m : Bool) : (s.notify w m).log = s.log := by cases w <;> rfl
@[simp] theorem setUnsettled_id (s : Session) (b : Bool) (m : Map UInt32 DlvInner) : (s.setUnsettled b m).id = s.id := by cases b <;> rfl
@[simp] theorem setUnsettled_isLocal (s : Session) (b : Bool) (m : Map UInt32 DlvInner) : (s.setUnsettled b m).isLocal = s.isLocal := by cases b <;> rfl
@[simp] theorem setUnsettled_ended (s : Session) (b : Bool) (m : Map UInt32 DlvInner) : (s.setUnsettled b m).ended = s.ended := by cases b <;> rfl
@[simp] theorem setUnsettled_ending (s : Session) (b : Bool) (m : Map UInt32 DlvInner) : (s.setUnsettled b m).ending = s.ending := by cases b <;> rfl
@[simp] theorem setUnsettled_maxFrameSize (s : Session) (b : Bool) (m : Map UInt32 DlvInner) : (s.setUnsettled b m).maxFrameSize = s.maxFrameSize := by cases b <;> rfl
@[simp] theorem setUnsettled_nextOutgoingId (s : Session) (b : Bool) (m : Map UInt32 DlvInner) : (s.setUnsettled b m).nextOutgoingId = s.nextOutgoingId := by cases b <;> rfl
@[simp] theorem setUnsettled_remoteChannelId (s : Session) (b : Bool) (m : Map UInt32 DlvInner) : (s.setUnsettled b m).remoteChannelId = s.remoteChannelId := by cases b <;> rfl
@[simp] theorem setUnsettled_nextIncomingId (s : Session) (b : Bool) (m : Map UInt32 DlvInner) : (s.setUnsettled b m).nextIncomingId = s.nextIncomingId := by cases b <;> rfl
@[simp] theorem setUnsettled_remoteOutgoingWindow (s : Session) (b : Bool) (m : Map UInt32 DlvInner) : (s.setUnsettled b m).remoteOutgoingWindow = s.remoteOutgoingWindow := by cases b <;> rfl
@[simp] theorem setUnsettled_remoteIncomingWindow (s : Session) (b : Bool) (m : Map UInt32 DlvInner) : (s.setUnsettled b m).remoteIncomingWindow = s.remoteIncomingWindow := by cases b <;> rfl
@[simp] theorem setUnsettled_links (s : Session) (b : Bool) (m : Map UInt32 DlvInner) : (s.setUnsettled b m).links = s.links := by cases b <;> rfl
@[simp] theorem setUnsettled_linksByName (s : Session) (b : Bool) (m : Map UInt32 DlvInner) : (s.setUnsettled b m).linksByName = s.linksByName := by cases b <;> rfl
@[simp] theorem setUnsettled_remoteHandles (s : Session) (b : Bool) (m : Map UInt32 DlvInner) : (s.setUnsettled b m).remoteHandles = s.remoteHandles := by cases b <;> rfl
@[simp] theorem setUnsettled_error (s : Session) (b : Bool) (m : Map UInt32 DlvInner) : (s.setUnsettled b m).error = s.error := by cases b <;> rfl
@[simp] theorem setUnsettled_pendingTransfers (s : Session) (b : Bool) (m : Map UInt32 DlvInner) : (s.setUnsettled b m).pendingTransfers = s.pendingTransfers := by cases b <;> rfl
@[simp] theorem setUnsettled_snds (s : Session) (b : Bool) (m : Map UInt32 DlvInner) : (s.setUnsettled b m).snds = s.snds := by cases b <;> rfl
@[simp] theorem setUnsettled_rcvs (s : Session) (b : Bool) (m : Map UInt32 DlvInner) : (s.setUnsettled b m).rcvs = s.rcvs := by cases b <;> rfl
@[simp] theorem setUnsettled_dlvs (s : Session) (b : Bool) (m : Map UInt32 DlvInner) : (s.setUnsettled b m).dlvs = s.dlvs := by cases b <;> rfl
@[simp] theorem setUnsettled_sends (s : Session) (b : Bool) (m : Map UInt32 DlvInner) : (s.setUnsettled b m).sends = s.sends := by cases b <;> rfl
@[simp] theorem setUnsettled_waits (s : Session) (b : Bool) (m : Map UInt32 DlvInner) : (s.setUnsettled b m).waits = s.waits := by cases b <;> rfl
@[simp] theorem setUnsettled_ops (s : Session) (b : Bool) (m : Map UInt32 DlvInner) : (s.setUnsettled b m).ops = s.ops := by cases b <;> rfl
@[simp] theorem setUnsettled_todo (s : Session) (b : Bool) (m : Map UInt32 DlvInner) : (s.setUnsettled b m).todo = s.todo := by cases b <;> rfl
@[simp] theorem setUnsettled_log (s : Session) (b : Bool) (m : Map UInt32 DlvInner) : (s.setUnsettled b m).log = s.log := by cases b <;> rfl
@[simp] theorem insertLink_id (s : Session) (l : Link) : (s.insertLink l).id = s.id := rfl
@[simp] theorem insertLink_isLocal (s : Session) (l : Link) : (s.insertLink l).isLocal = s.isLocal := rfl
@[simp] theorem insertLink_ended (s : Session) (l : Link) : (s.insertLink l).ended = s.ended := rfl
@[simp] theorem insertLink_ending (s : Session) (l : Link) : (s.insertLink l).ending = s.ending := rfl
@[simp] theorem insertLink_maxFrameSize (s : Session) (l : Link) : (s.insertLink l).maxFrameSize = s.maxFrameSize := rfl
@[simp] theorem insertLink_nextOutgoingId (s : Session) (l : Link) : (s.insertLink l).nextOutgoingId = s.nextOutgoingId := rfl
@[simp] theorem insertLink_remoteChannelId (s : Session) (l : Link) : (s.insertLink l).remoteChannelId = s.remoteChannelId := rfl
@[simp] theorem insertLink_nextIncomingId (s : Session) (l : Link) : (s.insertLink l).nextIncomingId = s.nextIncomingId := rfl
@[simp] theorem insertLink_remoteOutgoingWindow (s : Session) (l : Link) : (s.insertLink l).remoteOutgoingWindow = s.remoteOutgoingWindow := rfl
@[simp] theorem insertLink_remoteIncomingWindow (s : Session) (l : Link) : (s.insertLink l).remoteIncomingWindow = s.remoteIncomingWindow := rfl
@[simp] theorem insertLink_linksByName (s : Session) (l : Link) : (s.insertLink l).linksByName = s.linksByName := rfl
@[simp] theorem insertLink_remoteHandles (s : Session) (l : Link) : (s.insertLink l).remoteHandles = s.remoteHandles := rfl
@[simp] theorem insertLink_error (s : Session) (l : Link) : (s.insertLink l).error = s.error := rfl
@[simp] theorem insertLink_pendingTransfers (s : Session) (l : Link) : (s.insertLink l).pendingTransfers = s.pendingTransfers := rfl
@[simp] theorem insertLink_unsettledSnd (s : Session) (l : Link) : (s.insertLink l).unsettledSnd = s.unsettledSnd := rfl
@[simp] theorem insertLink_unsettledRcv (s : Session) (l : Link) : (s.insertLink l).unsettledRcv = s.unsettledRcv := rfl
@[simp] theorem insertLink_snds (s : Session) (l : Link) : (s.insertLink l).snds = s.snds := rfl
@[simp] theorem insertLink_rcvs (s : Session) (l : Link) : (s.insertLink l).rcvs = s.rcvs := rfl
@[simp] theorem insertLink_dlvs (s : Session) (l : Link) : (s.insertLink l).dlvs = s.dlvs := rfl
@[simp] theorem insertLink_sends (s : Session) (l : Link) : (s.insertLink l).sends = s.sends := rfl
@[simp] theorem insertLink_waits (s : Session) (l : Link) : (s.insertLink l).waits = s.waits := rfl
@[simp] theorem insertLink_ops (s : Session) (l : Link) : (s.insertLink l).ops = s.ops := rfl
@[simp] theorem insertLink_todo (s : Session) (l : Link) : (s.insertLink l).todo = s.todo := rfl
@[simp] theorem insertLink_log (s : Session) (l : Link) : (s.insertLink l).log = s.log := rfl
@[simp] theorem newOp_id (s : Session) : (s.newOp).id = s.id := rfl
@[simp] theorem newOp_isLocal (s : Session) : (s.newOp).isLocal = s.isLocal := rfl
@[simp] theorem newOp_ended (s : Session) : (s.newOp).ended = s.ended := rfl
@[simp] theorem newOp_ending (s : Session) : (s.newOp).ending = s.ending := rfl
@[simp] theorem newOp_maxFrameSize (s : Session) : (s.newOp).maxFrameSize = s.maxFrameSize := rfl
@[simp] theorem newOp_nextOutgoingId (s : Session) : (s.newOp).nextOutgoingId = s.nextOutgoingId := rfl
@[simp] theorem newOp_remoteChannelId (s : Session) : (s.newOp).remoteChannelId = s.remoteChannelId := rfl
@[simp] theorem newOp_nextIncomingId (s : Session) : (s.newOp).nextIncomingId = s.nextIncomingId := rfl
@[simp] theorem newOp_remoteOutgoingWindow (s : Session) : (s.newOp).remoteOutgoingWindow = s.remoteOutgoingWindow := rfl
@[simp] theorem newOp_remoteIncomingWindow (s : Session) : (s.newOp).remoteIncomingWindow = s.remoteIncomingWindow := rfl
@[simp] theorem newOp_links (s : Session) : (s.newOp).links = s.links := rfl
@[simp] theorem newOp_linksByName (s : Session) : (s.newOp).linksByName = s.linksByName := rfl
@[simp] theorem newOp_remoteHandles (s : Session) : (s.newOp).remoteHandles = s.remoteHandles := rfl
@[simp] theorem newOp_error (s : Session) : (s.newOp).error = s.error := rfl
@[simp] theorem newOp_pendingTransfers (s : Session) : (s.newOp).pendingTransfers = s.pendingTransfers := rfl
@[simp] theorem newOp_unsettledSnd (s : Session) : (s.newOp).unsettledSnd = s.unsettledSnd := rfl
@[simp] theorem newOp_unsettledRcv (s : Session) : (s.newOp).unsettledRcv = s.unsettledRcv := rfl
@[simp] theorem newOp_snds (s : Session) : (s.newOp).snds = s.snds := rfl
@[simp] theorem newOp_rcvs (s : Session) : (s.newOp).rcvs = s.rcvs := rfl
@[simp] theorem newOp_dlvs (s : Session) : (s.newOp).dlvs = s.dlvs := rfl
@[simp] theorem newOp_sends (s : Session) : (s.newOp).sends = s.sends := rfl
@[simp] theorem newOp_waits (s : Session) : (s.newOp).waits = s.waits := rfl
@[simp] theorem newOp_todo (s : Session) : (s.newOp).todo = s.todo := rfl
@[simp] theorem newOp_log (s : Session) : (s.newOp).log = s.log := rfl
@[simp] theorem takeCredit_id (s : Session) (t r : Ref) : (s.takeCredit t r).id = s.id := rfl
@[simp] theorem takeCredit_isLocal (s : Session) (t r : Ref) : (s.takeCredit t r).isLocal = s.isLocal := rfl
@[simp] theorem takeCredit_ended (s : Session) (t r : Ref) : (s.takeCredit t r).ended = s.ended := rfl
@[simp] theorem takeCredit_ending (s : Session) (t r : Ref) : (s.takeCredit t r).ending = s.ending := rfl
@[simp] theorem takeCredit_maxFrameSize (s : Session) (t r : Ref) : (s.takeCredit t r).maxFrameSize = s.maxFrameSize := rfl
@[simp] theorem takeCredit_nextOutgoingId (s : Session) (t r : Ref) : (s.takeCredit t r).nextOutgoingId = s.nextOutgoingId := rfl
@[simp] theorem takeCredit_remoteChannelId (s : Session) (t r : Ref) : (s.takeCredit t r).remoteChannelId = s.remoteChannelId := rfl
@[simp] theorem takeCredit_nextIncomingId (s : Session) (t r : Ref) : (s.takeCredit t r).nextIncomingId = s.nextIncomingId := rfl
@[simp] theorem takeCredit_remoteOutgoingWindow (s : Session) (t r : Ref) : (s.takeCredit t r).remoteOutgoingWindow = s.remoteOutgoingWindow := rfl
@[simp] theorem takeCredit_remoteIncomingWindow (s : Session) (t r : Ref) : (s.takeCredit t r).remoteIncomingWindow = s.remoteIncomingWindow := rfl
@[simp] theorem takeCredit_links (s : Session) (t r : Ref) : (s.takeCredit t r).links = s.links := rfl
@[simp] theorem takeCredit_linksByName (s : Session) (t r : Ref) : (s.takeCredit t r).linksByName = s.linksByName := rfl
@[simp] theorem takeCredit_remoteHandles (s : Session) (t r : Ref) : (s.takeCredit t r).remoteHandles = s.remoteHandles := rfl
@[simp] theorem takeCredit_error (s : Session) (t r : Ref) : (s.takeCredit t r).error = s.error := rfl
@[simp] theorem takeCredit_pendingTransfers (s : Session) (t r : Ref) : (s.takeCredit t r).pendingTransfers = s.pendingTransfers := rfl
@[simp] theorem takeCredit_unsettledSnd (s : Session) (t r : Ref) : (s.takeCredit t r).unsettledSnd = s.unsettledSnd := rfl
@[simp] theorem takeCredit_unsettledRcv (s : Session) (t r : Ref) : (s.takeCredit t r).unsettledRcv = s.unsettledRcv := rfl
@[simp] theorem takeCredit_rcvs (s : Session) (t r : Ref) : (s.takeCredit t r).rcvs = s.rcvs := rfl
@[simp] theorem takeCredit_dlvs (s : Session) (t r : Ref) : (s.takeCredit t r).dlvs = s.dlvs := rfl
@[simp] theorem takeCredit_sends (s : Session) (t r : Ref) : (s.takeCredit t r).sends = s.sends := rfl
@[simp] theorem takeCredit_waits (s : Session) (t r : Ref) : (s.takeCredit t r).waits = s.waits := rfl
@[simp] theorem takeCredit_ops (s : Session) (t r : Ref) : (s.takeCredit t r).ops = s.ops := rfl
@[simp] theorem takeCredit_todo (s : Session) (t r : Ref) : (s.takeCredit t r).todo = s.todo := rfl
@[simp] theorem finishSend_id (s : Session) (t : Ref) (r : Except PErr Ref) : (s.finishSend t r).id = s.id := rfl
@[simp] theorem finishSend_isLocal (s : Session) (t : Ref) (r : Except PErr Ref) : (s.finishSend t r).isLocal = s.isLocal := rfl
@[simp] theorem finishSend_ended (s : Session) (t : Ref) (r : Except PErr Ref) : (s.finishSend t r).ended = s.ended := rfl
@[simp] theorem finishSend_ending (s : Session) (t : Ref) (r : Except PErr Ref) : (s.finishSend t r).ending = s.ending := rfl
@[simp] theorem finishSend_maxFrameSize (s : Session) (t : Ref) (r : Except PErr Ref) : (s.finishSend t r).maxFrameSize = s.maxFrameSize := rfl
@[simp] theorem finishSend_nextOutgoingId (s : Session) (t : Ref) (r : Except PErr Ref) : (s.finishSend t r).nextOutgoingId = s.nextOutgoingId := rfl
@[simp] theorem finishSend_remoteChannelId (s : Session) (t : Ref) (r : Except PErr Ref) : (s.finishSend t r).remoteChannelId = s.remoteChannelId := rfl
@[simp] theorem finishSend_nextIncomingId (s : Session) (t : Ref) (r : Except PErr Ref) : (s.finishSend t r).nextIncomingId = s.nextIncomingId := rfl
@[simp] theorem finishSend_remoteOutgoingWindow (s : Session) (t : Ref) (r : Except PErr Ref) : (s.finishSend t r).remoteOutgoingWindow = s.remoteOutgoingWindow := rfl
@[simp] theorem finishSend_remoteIncomingWindow (s : Session) (t : Ref) (r : Except PErr Ref) : (s.finishSend t r).remoteIncomingWindow = s.remoteIncomingWindow := rfl
@[simp] theorem finishSend_links (s : Session) (t : Ref) (r : Except PErr Ref) : (s.finishSend t r).links = s.links := rfl
@[simp] theorem finishSend_linksByName (s : Session) (t : Ref) (r : Except PErr Ref) : (s.finishSend t r).linksByName = s.linksByName := rfl
@[simp] theorem finishSend_remoteHandles (s : Session) (t : Ref) (r : Except PErr Ref) : (s.finishSend t r).remoteHandles = s.remoteHandles := rfl
@[simp] theorem finishSend_error (s : Session) (t : Ref) (r : Except PErr Ref) : (s.finishSend t r).error = s.error := rfl
@[simp] theorem finishSend_pendingTransfers (s : Session) (t : Ref) (r : Except PErr Ref) : (s.finishSend t r).pendingTransfers = s.pendingTransfers := rfl
@[simp] theorem finishSend_unsettledSnd (s : Session) (t : Ref) (r : Except PErr Ref) : (s.finishSend t r).unsettledSnd = s.unsettledSnd := rfl
@[simp] theorem finishSend_unsettledRcv (s : Session) (t : Ref) (r : Except PErr Ref) : (s.finishSend t r).unsettledRcv = s.unsettledRcv := rfl
@[simp] theorem finishSend_snds (s : Session) (t : Ref) (r : Except PErr Ref) : (s.finishSend t r).snds = s.snds := rfl
@[simp] theorem finishSend_rcvs (s : Session) (t : Ref) (r : Except PErr Ref) : (s.finishSend t r).rcvs = s.rcvs := rfl
@[simp] theorem finishSend_dlvs (s : Session) (t : Ref) (r : Except PErr Ref) : (s.finishSend t r).dlvs = s.dlvs := rfl
@[simp] theorem finishSend_waits (s : Session) (t : Ref) (r : Except PErr Ref) : (s.finishSend t r).waits = s.waits := rfl
@[simp] theorem finishSend_ops (s : Session) (t : Ref) (r : Except PErr Ref) : (s.finishSend t r).ops = s.ops := rfl
@[simp] theorem finishSend_todo (s : Session) (t : Ref) (r : Except PErr Ref) : (s.finishSend t r).todo = s.todo := rfl
@[simp] theorem finishSend_log (s : Session) (t : Ref) (r : Except PErr Ref) : (s.finishSend t r).log = s.log := rfl
@[simp] theorem finishWait_id (s : Session) (w : Ref) (r : Except PErr (Option DeliveryState)) : (s.finishWait w r).id = s.id := rfl
@[simp] theorem finishWait_isLocal (s : Session) (w : Ref) (r : Except PErr (Option DeliveryState)) : (s.finishWait w r).isLocal = s.isLocal := rfl
@[simp] theorem finishWait_ended (s : Session) (w : Ref) (r : Except PErr (Option DeliveryState)) : (s.finishWait w r).ended = s.ended := rfl
@[simp] theorem finishWait_ending (s : Session) (w : Ref) (r : Except PErr (Option DeliveryState)) : (s.finishWait w r).ending = s.ending := rfl
@[simp] theorem finishWait_maxFrameSize (s : Session) (w : Ref) (r : Except PErr (Option DeliveryState)) : (s.finishWait w r).maxFrameSize = s.maxFrameSize := rfl
@[simp] theorem finishWait_nextOutgoingId (s : Session) (w : Ref) (r : Except PErr (Option DeliveryState)) : (s.finishWait w r).nextOutgoingId = s.nextOutgoingId := rfl
@[simp] theorem finishWait_remoteChannelId (s : Session) (w : Ref) (r : Except PErr (Option DeliveryState)) : (s.finishWait w r).remoteChannelId = s.remoteChannelId := rfl
@[simp] theorem finishWait_nextIncomingId (s : Session) (w : Ref) (r : Except PErr (Option DeliveryState)) : (s.finishWait w r).nextIncomingId = s.nextIncomingId := rfl
@[simp] theorem finishWait_remoteOutgoingWindow (s : Session) (w : Ref) (r : Except PErr (Option DeliveryState)) : (s.finishWait w r).remoteOutgoingWindow = s.remoteOutgoingWindow := rfl
@[simp] theorem finishWait_remoteIncomingWindow (s : Session) (w : Ref) (r : Except PErr (Option DeliveryState)) : (s.finishWait w r).remoteIncomingWindow = s.remoteIncomingWindow := rfl
@[simp] theorem finishWait_links (s : Session) (w : Ref) (r : Except PErr (Option DeliveryState)) : (s.finishWait w r).links = s.links := rfl
@[simp] theorem finishWait_linksByName (s : Session) (w : Ref) (r : Except PErr (Option DeliveryState)) : (s.finishWait w r).linksByName = s.linksByName := rfl
@[simp] theorem finishWait_remoteHandles (s : Session) (w : Ref) (r : Except PErr (Option DeliveryState)) : (s.finishWait w r).remoteHandles = s.remoteHandles := rfl
@[simp] theorem finishWait_error (s : Session) (w : Ref) (r : Except PErr (Option DeliveryState)) : (s.finishWait w r).error = s.error := rfl
@[simp] theorem finishWait_pendingTransfers (s : Session) (w : Ref) (r : Except PErr (Option DeliveryState)) : (s.finishWait w r).pendingTransfers = s.pendingTransfers := rfl
@[simp] theorem finishWait_unsettledSnd (s : Session) (w : Ref) (r : Except PErr (Option DeliveryState)) : (s.finishWait w r).unsettledSnd = s.unsettledSnd := rfl
@[simp] theorem finishWait_unsettledRcv (s : Session) (w : Ref) (r : Except PErr (Option DeliveryState)) : (s.finishWait w r).unsettledRcv = s.unsettledRcv := rfl
@[simp] theorem finishWait_snds (s : Session) (w : Ref) (r : Except PErr (Option DeliveryState)) : (s.finishWait w r).snds = s.snds := rfl
@[simp] theorem finishWait_rcvs (s : Session) (w : Ref) (r : Except PErr (Option DeliveryState)) : (s.finishWait w r).rcvs = s.rcvs := rfl
@[simp] theorem finishWait_dlvs (s : Session) (w : Ref) (r : Except PErr (Option DeliveryState)) : (s.finishWait w r).dlvs = s.dlvs := rfl
@[simp] theorem finishWait_sends (s : Session) (w : Ref) (r : Except PErr (Option DeliveryState)) : (s.finishWait w r).sends = s.sends := rfl
@[simp] theorem finishWait_ops (s : Session) (w : Ref) (r : Except PErr (Option DeliveryState)) : (s.finishWait w r).ops = s.ops := rfl
@[simp] theorem finishWait_todo (s : Session) (w : Ref) (r : Except PErr (Option DeliveryState)) : (s.finishWait w r).todo = s.todo := rfl
@[simp] theorem finishWait_log (s : Session) (w : Ref) (r : Except PErr (Option DeliveryState)) : (s.finishWait w r).log = s.log := rfl
@[simp] theorem failInner_id (s : Session) (d : DlvInner) : (s.failInner d).id = s.id := by simp [failInner]
@[simp] theorem failInner_isLocal (s : Session) (d : DlvInner) : (s.failInner d).isLocal = s.isLocal := by simp [failInner]
@[simp] theorem failInner_ended (s : Session) (d : DlvInner) : (s.failInner d).ended = s.ended := by simp [failInner]
@[simp] theorem failInner_ending (s : Session) (d : DlvInner) : (s.failInner d).ending = s.ending := by simp [failInner]
@[simp] theorem failInner_maxFrameSize (s : Session) (d : DlvInner) : (s.failInner d).maxFrameSize = s.maxFrameSize := by simp [failInner]
@[simp] theorem failInner_nextOutgoingId (s : Session) (d : DlvInner) : (s.failInner d).nextOutgoingId = s.nextOutgoingId := by simp [failInner]
@[simp] theorem failInner_remoteChannelId (s : Session) (d : DlvInner) : (s.failInner d).remoteChannelId = s.remoteChannelId := by simp [failInner]
@[simp] theorem failInner_nextIncomingId (s : Session) (d : DlvInner) : (s.failInner d).nextIncomingId = s.nextIncomingId := by simp [failInner]
@[simp] theorem failInner_remoteOutgoingWindow (s : Session) (d : DlvInner) : (s.failInner d).remoteOutgoingWindow = s.remoteOutgoingWindow := by simp [failInner]
@[simp] theorem failInner_remoteIncomingWindow (s : Session) (d : DlvInner) : (s.failInner d).remoteIncomingWindow = s.remoteIncomingWindow := by simp [failInner]
@[simp] theorem failInner_links (s : Session) (d : DlvInner) : (s.failInner d).links = s.links := by simp [failInner]
@[simp] theorem failInner_linksByName (s : Session) (d : DlvInner) : (s.failInner d).linksByName = s.linksByName := by simp [failInner]
@[simp] theorem failInner_remoteHandles (s : Session) (d : DlvInner) : (s.failInner d).remoteHandles = s.remoteHandles := by simp [failInner]
@[simp] theorem failInner_error (s : Session) (d : DlvInner) : (s.failInner d).error = s.error := by simp [failInner]
@[simp] theorem failInner_pendingTransfers (s : Session) (d : DlvInner) : (s.failInner d).pendingTransfers = s.pendingTransfers := by simp [failInner]
@[simp] theorem failInner_unsettledSnd (s : Session) (d : DlvInner) : (s.failInner d).unsettledSnd = s.unsettledSnd := by simp [failInner]
@[simp] theorem failInner_unsettledRcv (s : Session) (d : DlvInner) : (s.failInner d).unsettledRcv = s.unsettledRcv := by simp [failInner]
@[simp] theorem failInner_snds (s : Session) (d : DlvInner) : (s.failInner d).snds = s.snds := by simp [failInner]
@[simp] theorem failInner_rcvs (s : Session) (d : DlvInner) : (s.failInner d).rcvs = s.rcvs := by simp [failInner]
@[simp] theorem failInner_dlvs (s : Session) (d : DlvInner) : (s.failInner d).dlvs = s.dlvs := by simp [failInner]
@[simp] theorem failInner_sends (s : Session) (d : DlvInner) : (s.failInner d).sends = s.sends := by simp [failInner]
@[simp] theorem failInner_ops (s : Session) (d : DlvInner) : (s.failInner d).ops = s.ops := by simp [failInner]
@[simp] theorem failInner_todo (s : Session) (d : DlvInner) : (s.failInner d).todo = s.todo := by simp [failInner]
@[simp] theorem failInner_log (s : Session) (d : DlvInner) : (s.failInner d).log = s.log := by simp [failInner]
@[simp] theorem rcvRemoteDetached_id (s : Session) (r : Ref) (e : Option Error) : (s.rcvRemoteDetached r e).id = s.id := rfl
@[simp] theorem rcvRemoteDetached_isLocal (s : Session) (r : Ref) (e : Option Error) : (s.rcvRemoteDetached r e).isLocal = s.isLocal := rfl
@[simp] theorem rcvRemoteDetached_ended (s : Session) (r : Ref) (e : Option Error) : (s.rcvRemoteDetached r e).ended = s.ended := rfl
@[simp] theorem rcvRemoteDetached_ending (s : Session) (r : Ref) (e : Option Error) : (s.rcvRemoteDetached r e).ending = s.ending := rfl
@[simp] theorem rcvRemoteDetached_maxFrameSize (s : Session) (r : Ref) (e : Option Error) : (s.rcvRemoteDetached r e).maxFrameSize = s.maxFrameSize := rfl
@[simp] theorem rcvRemoteDetached_nextOutgoingId (s : Session) (r : Ref) (e : Option Error) : (s.rcvRemoteDetached r e).nextOutgoingId = s.nextOutgoingId := rfl
@[simp] theorem rcvRemoteDetached_remoteChannelId (s : Session) (r : Ref) (e : Option Error) : (s.rcvRemoteDetached r e).remoteChannelId = s.remoteChannelId := rfl
@[simp] theorem rcvRemoteDetached_nextIncomingId (s : Session) (r : Ref) (e : Option Error) : (s.rcvRemoteDetached r e).nextIncomingId = s.nextIncomingId := rfl
@[simp] theorem rcvRemoteDetached_remoteOutgoingWindow (s : Session) (r : Ref) (e : Option Error) : (s.rcvRemoteDetached r e).remoteOutgoingWindow = s.remoteOutgoingWindow := rfl
@[simp] theorem rcvRemoteDetached_remoteIncomingWindow (s : Session) (r : Ref) (e : Option Error) : (s.rcvRemoteDetached r e).remoteIncomingWindow = s.remoteIncomingWindow := rfl
@[simp] theorem rcvRemoteDetached_links (s : Session) (r : Ref) (e : Option Error) : (s.rcvRemoteDetached r e).links = s.links := rfl
@[simp] theorem rcvRemoteDetached_linksByName (s : Session) (r : Ref) (e : Option Error) : (s.rcvRemoteDetached r e).linksByName = s.linksByName := rfl
@[simp] theorem rcvRemoteDetached_remoteHandles (s : Session) (r : Ref) (e : Option Error) : (s.rcvRemoteDetached r e).remoteHandles = s.remoteHandles := rfl
@[simp] theorem rcvRemoteDetached_error (s : Session) (r : Ref) (e : Option Error) : (s.rcvRemoteDetached r e).error = s.error := rfl
@[simp] theorem rcvRemoteDetached_pendingTransfers (s : Session) (r : Ref) (e : Option Error) : (s.rcvRemoteDetached r e).pendingTransfers = s.pendingTransfers := rfl
@[simp] theorem rcvRemoteDetached_unsettledSnd (s : Session) (r : Ref) (e : Option Error) : (s.rcvRemoteDetached r e).unsettledSnd = s.unsettledSnd := rfl
@[simp] theorem rcvRemoteDetached_unsettledRcv (s : Session) (r : Ref) (e : Option Error) : (s.rcvRemoteDetached r e).unsettledRcv = s.unsettledRcv := rfl
@[simp] theorem rcvRemoteDetached_snds (s : Session) (r : Ref) (e : Option Error) : (s.rcvRemoteDetached r e).snds = s.snds := rfl
@[simp] theorem rcvRemoteDetached_dlvs (s : Session) (r : Ref) (e : Option Error) : (s.rcvRemoteDetached r e).dlvs = s.dlvs := rfl
@[simp] theorem rcvRemoteDetached_sends (s : Session) (r : Ref) (e : Option Error) : (s.rcvRemoteDetached r e).sends = s.sends := rfl
@[simp] theorem rcvRemoteDetached_waits (s : Session) (r : Ref) (e : Option Error) : (s.rcvRemoteDetached r e).waits = s.waits := rfl
@[simp] theorem rcvRemoteDetached_ops (s : Session) (r : Ref) (e : Option Error) : (s.rcvRemoteDetached r e).ops = s.ops := rfl
@[simp] theorem rcvRemoteDetached_todo (s : Session) (r : Ref) (e : Option Error) : (s.rcvRemoteDetached r e).todo = s.todo := rfl
@[simp] theorem rcvRemoteDetached_log (s : Session) (r : Ref) (e : Option Error) : (s.rcvRemoteDetached r e).log = s.log := rfl
@[simp] theorem sendCancel_id (s : Session) (t : Ref) : (s.sendCancel t).id = s.id := rfl
@[simp] theorem sendCancel_isLocal (s : Session) (t : Ref) : (s.sendCancel t).isLocal = s.isLocal := rfl
@[simp] theorem sendCancel_ended (s : Session) (t : Ref) : (s.sendCancel t).ended = s.ended := rfl
@[simp] theorem sendCancel_ending (s : Session) (t : Ref) : (s.sendCancel t).ending = s.ending := rfl
@[simp] theorem sendCancel_maxFrameSize (s : Session) (t : Ref) : (s.sendCancel t).maxFrameSize = s.maxFrameSize := rfl
@[simp] theorem sendCancel_nextOutgoingId (s : Session) (t : Ref) : (s.sendCancel t).nextOutgoingId = s.nextOutgoingId := rfl
@[simp] theorem sendCancel_remoteChannelId (s : Session) (t : Ref) : (s.sendCancel t).remoteChannelId = s.remoteChannelId := rfl
@[simp] theorem sendCancel_nextIncomingId (s : Session) (t : Ref) : (s.sendCancel t).nextIncomingId = s.nextIncomingId := rfl
@[simp] theorem sendCancel_remoteOutgoingWindow (s : Session) (t : Ref) : (s.sendCancel t).remoteOutgoingWindow = s.remoteOutgoingWindow := rfl
@[simp] theorem sendCancel_remoteIncomingWindow (s : Session) (t : Ref) : (s.sendCancel t).remoteIncomingWindow = s.remoteIncomingWindow := rfl
@[simp] theorem sendCancel_links (s : Session) (t : Ref) : (s.sendCancel t).links = s.links := rfl
@[simp] theorem sendCancel_linksByName (s : Session) (t : Ref) : (s.sendCancel t).linksByName = s.linksByName := rfl
@[simp] theorem sendCancel_remoteHandles (s : Session) (t : Ref) : (s.sendCancel t).remoteHandles = s.remoteHandles := rfl
@[simp] theorem sendCancel_error (s : Session) (t : Ref) : (s.sendCancel t).error = s.error := rfl
@[simp] theorem sendCancel_pendingTransfers (s : Session) (t : Ref) : (s.sendCancel t).pendingTransfers = s.pendingTransfers := rfl
@[simp] theorem sendCancel_unsettledSnd (s : Session) (t : Ref) : (s.sendCancel t).unsettledSnd = s.unsettledSnd := rfl
@[simp] theorem sendCancel_unsettledRcv (s : Session) (t : Ref) : (s.sendCancel t).unsettledRcv = s.unsettledRcv := rfl
@[simp] theorem sendCancel_snds (s : Session) (t : Ref) : (s.sendCancel t).snds = s.snds := rfl
@[simp] theorem sendCancel_rcvs (s : Session) (t : Ref) : (s.sendCancel t).rcvs = s.rcvs := rfl
@[simp] theorem sendCancel_dlvs (s : Session) (t : Ref) : (s.sendCancel t).dlvs = s.dlvs := rfl
@[simp] theorem sendCancel_waits (s : Session) (t : Ref) : (s.sendCancel t).waits = s.waits := rfl
@[simp] theorem sendCancel_ops (s : Session) (t : Ref) : (s.sendCancel t).ops = s.ops := rfl
@[simp] theorem sendCancel_todo (s : Session) (t : Ref) : (s.sendCancel t).todo = s.todo := rfl
@[simp] theorem sendCancel_log (s : Session) (t : Ref) : (s.sendCancel t).log = s.log := rfl
@[simp] theorem drainPending_id (s : Session) (m : Except PErr Unit) : (s.drainPending m).id = s.id := by simp [drainPending]
@[simp] theorem drainPending_isLocal (s : Session) (m : Except PErr Unit) : (s.drainPending m).isLocal = s.isLocal := by simp [drainPending]
@[simp] theorem drainPending_ended (s : Session) (m : Except PErr Unit) : (s.drainPending m).ended = s.ended := by simp [drainPending]
@[simp] theorem drainPending_ending (s : Session) (m : Except PErr Unit) : (s.drainPending m).ending = s.ending := by simp [drainPending]
@[simp] theorem drainPending_maxFrameSize (s : Session) (m : Except PErr Unit) : (s.drainPending m).maxFrameSize = s.maxFrameSize := by simp [drainPending]
@[simp] theorem drainPending_nextOutgoingId (s : Session) (m : Except PErr Unit) : (s.drainPending m).nextOutgoingId = s.nextOutgoingId := by simp [drainPending]
@[simp] theorem drainPending_remoteChannelId (s : Session) (m : Except PErr Unit) : (s.drainPending m).remoteChannelId = s.remoteChannelId := by simp [drainPending]
@[simp] theorem drainPending_nextIncomingId (s : Session) (m : Except PErr Unit) : (s.drainPending m).nextIncomingId = s.nextIncomingId := by simp [drainPending]
@[simp] theorem drainPending_remoteOutgoingWindow (s : Session) (m : Except PErr Unit) : (s.drainPending m).remoteOutgoingWindow = s.remoteOutgoingWindow := by simp [drainPending]
@[simp] theorem drainPending_remoteIncomingWindow (s : Session) (m : Except PErr Unit) : (s.drainPending m).remoteIncomingWindow = s.remoteIncomingWindow := by simp [drainPending]
@[simp] theorem drainPending_links (s : Session) (m : Except PErr Unit) : (s.drainPending m).links = s.links := by simp [drainPending]
@[simp] theorem drainPending_linksByName (s : Session) (m : Except PErr Unit) : (s.drainPending m).linksByName = s.linksByName := by simp [drainPending]
@[simp] theorem drainPending_remoteHandles (s : Session) (m : Except PErr Unit) : (s.drainPending m).remoteHandles = s.remoteHandles := by simp [drainPending]
@[simp] theorem drainPending_error (s : Session) (m : Except PErr Unit) : (s.drainPending m).error = s.error := by simp [drainPending]
@[simp] theorem drainPending_unsettledSnd (s : Session) (m : Except PErr Unit) : (s.drainPending m).unsettledSnd = s.unsettledSnd := by simp [drainPending]
@[simp] theorem drainPending_unsettledRcv (s : Session) (m : Except PErr Unit) : (s.drainPending m).unsettledRcv = s.unsettledRcv := by simp [drainPending]
@[simp] theorem drainPending_snds (s : Session) (m : Except PErr Unit) : (s.drainPending m).snds = s.snds := by simp [drainPending]
@[simp] theorem drainPending_rcvs (s : Session) (m : Except PErr Unit) : (s.drainPending m).rcvs = s.rcvs := by simp [drainPending]
@[simp] theorem drainPending_dlvs (s : Session) (m : Except PErr Unit) : (s.drainPending m).dlvs = s.dlvs := by simp [drainPending]
@[simp] theorem drainPending_waits (s : Session) (m : Except PErr Unit) : (s.drainPending m).waits = s.waits := by simp [drainPending]
@[simp] theorem drainPending_ops (s : Session) (m : Except PErr Unit) : (s.drainPending m).ops = s.ops := by simp [drainPending]
@[simp] theorem drainPending_todo (s : Session) (m : Except PErr Unit) : (s.drainPending m).todo = s.todo := by simp [drainPending]
@[simp] theorem drainPending_log (s : Session) (m : Except PErr Unit) : (s.drainPending m).log = s.log := by simp [drainPending]
@[simp] theorem dropSent_id (s : Session) : (s.dropSent).id = s.id := foldl_field Session.id (f := fun s (d : UInt32 × DlvInner) => s.failInner d.2) (fun _ _ => by simp) _ s
@[simp] theorem dropSent_isLocal (s : Session) : (s.dropSent).isLocal = s.isLocal := foldl_field Session.isLocal (f := fun s (d : UInt32 × DlvInner) => s.failInner d.2) (fun _ _ => by simp) _ s
@[simp] theorem dropSent_ended (s : Session) : (s.dropSent).ended = s.ended := foldl_field Session.ended (f := fun s (d : UInt32 × DlvInner) => s.failInner d.2) (fun _ _ => by simp) _ s
@[simp] theorem dropSent_ending (s : Session) : (s.dropSent).ending = s.ending := foldl_field Session.ending (f := fun s (d : UInt32 × DlvInner) => s.failInner d.2) (fun _ _ => by simp) _ s
@[simp] theorem dropSent_maxFrameSize (s : Session) : (s.dropSent).maxFrameSize = s.maxFrameSize := foldl_field Session.maxFrameSize (f := fun s (d : UInt32 × DlvInner) => s.failInner d.2) (fun _ _ => by simp) _ s
@[simp] theorem dropSent_nextOutgoingId (s : Session) : (s.dropSent).nextOutgoingId = s.nextOutgoingId := foldl_field Session.nextOutgoingId (f := fun s (d : UInt32 × DlvInner) => s.failInner d.2) (fun _ _ => by simp) _ s
@[simp] theorem dropSent_remoteChannelId (s : Session) : (s.dropSent).remoteChannelId = s.remoteChannelId := foldl_field Session.remoteChannelId (f := fun s (d : UInt32 × DlvInner) => s.failInner d.2) (fun _ _ => by simp) _ s
@[simp] theorem dropSent_nextIncomingId (s : Session) : (s.dropSent).nextIncomingId = s.nextIncomingId := foldl_field Session.nextIncomingId (f := fun s (d : UInt32 × DlvInner) => s.failInner d.2) (fun _ _ => by simp) _ s
@[simp] theorem dropSent_remoteOutgoingWindow (s : Session) : (s.dropSent).remoteOutgoingWindow = s.remoteOutgoingWindow := foldl_field Session.remoteOutgoingWindow (f := fun s (d : UInt32 × DlvInner) => s.failInner d.2) (fun _ _ => by simp) _ s
@[simp] theorem dropSent_remoteIncomingWindow (s : Session) : (s.dropSent).remoteIncomingWindow = s.remoteIncomingWindow := foldl_field Session.remoteIncomingWindow (f := fun s (d : UInt32 × DlvInner) => s.failInner d.2) (fun _ _ => by simp) _ s
@[simp] theorem dropSent_links (s : Session) : (s.dropSent).links = s.links := foldl_field Session.links (f := fun s (d : UInt32 × DlvInner) => s.failInner d.2) (fun _ _ => by simp) _ s
@[simp] theorem dropSent_linksByName (s : Session) : (s.dropSent).linksByName = s.linksByName := foldl_field Session.linksByName (f := fun s (d : UInt32 × DlvInner) => s.failInner d.2) (fun _ _ => by simp) _ s
@[simp] theorem dropSent_remoteHandles (s : Session) : (s.dropSent).remoteHandles = s.remoteHandles := foldl_field Session.remoteHandles (f := fun s (d : UInt32 × DlvInner) => s.failInner d.2) (fun _ _ => by simp) _ s
@[simp] theorem dropSent_error (s : Session) : (s.dropSent).error = s.error := foldl_field Session.error (f := fun s (d : UInt32 × DlvInner) => s.failInner d.2) (fun _ _ => by simp) _ s
@[simp] theorem dropSent_pendingTransfers (s : Session) : (s.dropSent).pendingTransfers = s.pendingTransfers := foldl_field Session.pendingTransfers (f := fun s (d : UInt32 × DlvInner) => s.failInner d.2) (fun _ _ => by simp) _ s
@[simp] theorem dropSent_unsettledRcv (s : Session) : (s.dropSent).unsettledRcv = s.unsettledRcv := foldl_field Session.unsettledRcv (f := fun s (d : UInt32 × DlvInner) => s.failInner d.2) (fun _ _ => by simp) _ s
@[simp] theorem dropSent_snds (s : Session) : (s.dropSent).snds = s.snds := foldl_field Session.snds (f := fun s (d : UInt32 × DlvInner) => s.failInner d.2) (fun _ _ => by simp) _ s
@[simp] theorem dropSent_rcvs (s : Session) : (s.dropSent).rcvs = s.rcvs := foldl_field Session.rcvs (f := fun s (d : UInt32 × DlvInner) => s.failInner d.2) (fun _ _ => by simp) _ s
@[simp] theorem dropSent_dlvs (s : Session) : (s.dropSent).dlvs = s.dlvs := foldl_field Session.dlvs (f := fun s (d : UInt32 × DlvInner) => s.failInner d.2) (fun _ _ => by simp) _ s
@[simp] theorem dropSent_sends (s : Session) : (s.dropSent).sends = s.sends := foldl_field Session.sends (f := fun s (d : UInt32 × DlvInner) => s.failInner d.2) (fun _ _ => by simp) _ s
@[simp] theorem dropSent_ops (s : Session) : (s.dropSent).ops = s.ops := foldl_field Session.ops (f := fun s (d : UInt32 × DlvInner) => s.failInner d.2) (fun _ _ => by simp) _ s
@[simp] theorem dropSent_todo (s : Session) : (s.dropSent).todo = s.todo := foldl_field Session.todo (f := fun s (d : UInt32 × DlvInner) => s.failInner d.2) (fun _ _ => by simp) _ s
@[simp] theorem dropSent_log (s : Session) : (s.dropSent).log = s.log := foldl_field Session.log (f := fun s (d : UInt32 × DlvInner) => s.failInner d.2) (fun _ _ => by simp) _ s
@[simp] theorem dropReceived_id (s : Session) : (s.dropReceived).id = s.id := foldl_field Session.id (f := fun s (d : UInt32 × DlvInner) => s.failInner d.2) (fun _ _ => by simp) _ s
@[simp] theorem dropReceived_isLocal (s : Session) : (s.dropReceived).isLocal = s.isLocal := foldl_field Session.isLocal (f := fun s (d : UInt32 × DlvInner) => s.failInner d.2) (fun _ _ => by simp) _ s
@[simp] theorem dropReceived_ended (s : Session) : (s.dropReceived).ended = s.ended := foldl_field Session.ended (f := fun s (d : UInt32 × DlvInner) => s.failInner d.2) (fun _ _ => by simp) _ s
@[simp] theorem dropReceived_ending (s : Session) : (s.dropReceived).ending = s.ending := foldl_field Session.ending (f := fun s (d : UInt32 × DlvInner) => s.failInner d.2) (fun _ _ => by simp) _ s
@[simp] theorem dropReceived_maxFrameSize (s : Session) : (s.dropReceived).maxFrameSize = s.maxFrameSize := foldl_field Session.maxFrameSize (f := fun s (d : UInt32 × DlvInner) => s.failInner d.2) (fun _ _ => by simp) _ s
@[simp] theorem dropReceived_nextOutgoingId (s : Session) : (s.dropReceived).nextOutgoingId = s.nextOutgoingId := foldl_field Session.nextOutgoingId (f := fun s (d : UInt32 × DlvInner) => s.failInner d.2) (fun _ _ => by simp) _ s
@[simp] theorem dropReceived_remoteChannelId (s : Session) : (s.dropReceived).remoteChannelId = s.remoteChannelId := foldl_field Session.remoteChannelId (f := fun s (d : UInt32 × DlvInner) => s.failInner d.2) (fun _ _ => by simp) _ s
@[simp] theorem dropReceived_nextIncomingId (s : Session) : (s.dropReceived).nextIncomingId = s.nextIncomingId := foldl_field Session.nextIncomingId (f := fun s (d : UInt32 × DlvInner) => s.failInner d.2) (fun _ _ => by simp) _ s
@[simp] theorem dropReceived_remoteOutgoingWindow (s : Session) : (s.dropReceived).remoteOutgoingWindow = s.remoteOutgoingWindow := foldl_field Session.remoteOutgoingWindow (f := fun s (d : UInt32 × DlvInner) => s.failInner d.2) (fun _ _ => by simp) _ s
@[simp] theorem dropReceived_remoteIncomingWindow (s : Session) : (s.dropReceived).remoteIncomingWindow = s.remoteIncomingWindow := foldl_field Session.remoteIncomingWindow (f := fun s (d : UInt32 × DlvInner) => s.failInner d.2) (fun _ _ => by simp) _ s
@[simp] theorem dropReceived_links (s : Session) : (s.dropReceived).links = s.links := foldl_field Session.links (f := fun s (d : UInt32 × DlvInner) => s.failInner d.2) (fun _ _ => by simp) _ s
@[simp] theorem dropReceived_linksByName (s : Session) : (s.dropReceived).linksByName = s.linksByName := foldl_field Session.linksByName (f := fun s (d : UInt32 × DlvInner) => s.failInner d.2) (fun _ _ => by simp) _ s
@[simp] theorem dropReceived_remoteHandles (s : Session) : (s.dropReceived).remoteHandles = s.remoteHandles := foldl_field Session.remoteHandles (f := fun s (d : UInt32 × DlvInner) => s.failInner d.2) (fun _ _ => by simp) _ s
@[simp] theorem dropReceived_error (s : Session) : (s.dropReceived).error = s.error := foldl_field Session.error (f := fun s (d : UInt32 × DlvInner) => s.failInner d.2) (fun _ _ => by simp) _ s
@[simp] theorem dropReceived_pendingTransfers (s : Session) : (s.dropReceived).pendingTransfers = s.pendingTransfers := foldl_field Session.pendingTransfers (f := fun s (d : UInt32 × DlvInner) => s.failInner d.2) (fun _ _ => by simp) _ s
@[simp] theorem dropReceived_unsettledSnd (s : Session) : (s.dropReceived).unsettledSnd = s.unsettledSnd := foldl_field Session.unsettledSnd (f := fun s (d : UInt32 × DlvInner) => s.failInner d.2) (fun _ _ => by simp) _ s
@[simp] theorem dropReceived_snds (s : Session) : (s.dropReceived).snds = s.snds := foldl_field Session.snds (f := fun s (d : UInt32 × DlvInner) => s.failInner d.2) (fun _ _ => by simp) _ s
@[simp] theorem dropReceived_rcvs (s : Session) : (s.dropReceived).rcvs = s.rcvs := foldl_field Session.rcvs (f := fun s (d : UInt32 × DlvInner) => s.failInner d.2) (fun _ _ => by simp) _ s
@[simp] theorem dropReceived_dlvs (s : Session) : (s.dropReceived).dlvs = s.dlvs := foldl_field Session.dlvs (f := fun s (d : UInt32 × DlvInner) => s.failInner d.2) (fun _ _ => by simp) _ s
@[simp] theorem dropReceived_sends (s : Session) : (s.dropReceived).sends = s.sends := foldl_field Session.sends (f := fun s (d : UInt32 × DlvInner) => s.failInner d.2) (fun _ _ => by simp) _ s
@[simp] theorem dropReceived_ops (s : Session) : (s.dropReceived).ops = s.ops := foldl_field Session.ops (f := fun s (d : UInt32 × DlvInner) => s.failInner d.2) (fun _ _ => by simp) _ s
@[simp] theorem dropReceived_todo (s : Session) : (s.dropReceived).todo = s.todo := foldl_field Session.todo (f := fun s (d : UInt32 × DlvInner) => s.failInner d.2) (fun _ _ => by simp) _ s
@[simp] theorem dropReceived_log (s : Session) : (s.dropReceived).log = s.log := foldl_field Session.log (f := fun s (d : UInt32 × DlvInner) => s.failInner d.2) (fun _ _ => by simp) _ s
@[simp] theorem failDeliveries_id (s : Session) (b : Bool) (h : UInt32) (e : PErr) : (s.failDeliveries b h e).id = s.id := by
  unfold failDeliveries
  simp only [setUnsettled_id]
  exact foldl_field Session.id (f := fun s (d : UInt32 × DlvInner) => if d.2.handle = h then s.notify d.2.tx true else s)
    (fun _ _ => by split <;> simp) _ s
@[simp] theorem failDeliveries_isLocal (s : Session) (b : Bool) (h : UInt32) (e : PErr) : (s.failDeliveries b h e).isLocal = s.isLocal := by
  unfold failDeliveries
  simp only [setUnsettled_isLocal]
  exact foldl_field Session.isLocal (f := fun s (d : UInt32 × DlvInner) => if d.2.handle = h then s.notify d.2.tx true else s)
    (fun _ _ => by split <;> simp) _ s
@[simp] theorem failDeliveries_ended (s : Session) (b : Bool) (h : UInt32) (e : PErr) : (s.failDeliveries b h e).ended = s.ended := by
  unfold failDeliveries
  simp only [setUnsettled_ended]
  exact foldl_field Session.ended (f := fun s (d : UInt32 × DlvInner) => if d.2.handle = h then s.notify d.2.tx true else s)
    (fun _ _ => by split <;> simp) _ s
@[simp] theorem failDeliveries_ending (s : Session) (b : Bool) (h : UInt32) (e : PErr) : (s.failDeliveries b h e).ending = s.ending := by
  unfold failDeliveries
  simp only [setUnsettled_ending]
  exact foldl_field Session.ending (f := fun s (d : UInt32 × DlvInner) => if d.2.handle = h then s.notify d.2.tx true else s)
    (fun _ _ => by split <;> simp) _ s
@[simp] theorem failDeliveries_maxFrameSize (s : Session) (b : Bool) (h : UInt32) (e : PErr) : (s.failDeliveries b h e).maxFrameSize = s.maxFrameSize := by
  unfold failDeliveries
  simp only [setUnsettled_maxFrameSize]
  exact foldl_field Session.maxFrameSize (f := fun s (d : UInt32 × DlvInner) => if d.2.handle = h then s.notify d.2.tx true else s)
    (fun _ _ => by split <;> simp) _ s
@[simp] theorem failDeliveries_nextOutgoingId (s : Session) (b : Bool) (h : UInt32) (e : PErr) : (s.failDeliveries b h e).nextOutgoingId = s.nextOutgoingId := by
  unfold failDeliveries
  simp only [setUnsettled_nextOutgoingId]
  exact foldl_field Session.nextOutgoingId (f := fun s (d : UInt32 × DlvInner) => if d.2.handle = h then s.notify d.2.tx true else s)
    (fun _ _ => by split <;> simp) _ s
@[simp] theorem failDeliveries_remoteChannelId (s : Session) (b : Bool) (h : UInt32) (e : PErr) : (s.failDeliveries b h e).remoteChannelId = s.remoteChannelId := by
  unfold failDeliveries
  simp only [setUnsettled_remoteChannelId]
  exact foldl_field Session.remoteChannelId (f := fun s (d : UInt32 × DlvInner) => if d.2.handle = h then s.notify d.2.tx true else s)
    (fun _ _ => by split <;> simp) _ s
@[simp] theorem failDeliveries_nextIncomingId (s : Session) (b : Bool) (h : UInt32) (e : PErr) : (s.failDeliveries b h e).nextIncomingId = s.nextIncomingId := by
  unfold failDeliveries
  simp only [setUnsettled_nextIncomingId]
  exact foldl_field Session.nextIncomingId (f := fun s (d : UInt32 × DlvInner) => if d.2.handle = h then s.notify d.2.tx true else s)
    (fun _ _ => by split <;> simp) _ s
@[simp] theorem failDeliveries_remoteOutgoingWindow (s : Session) (b : Bool) (h : UInt32) (e : PErr) : (s.failDeliveries b h e).remoteOutgoingWindow = s.remoteOutgoingWindow := by
  unfold failDeliveries
  simp only [setUnsettled_remoteOutgoingWindow]
  exact foldl_field Session.remoteOutgoingWindow (f := fun s (d : UInt32 × DlvInner) => if d.2.handle = h then s.notify d.2.tx true else s)
    (fun _ _ => by split <;> simp) _ s
@[simp] theorem failDeliveries_remoteIncomingWindow (s : Session) (b : Bool) (h : UInt32) (e : PErr) : (s.failDeliveries b h e).remoteIncomingWindow = s.remoteIncomingWindow := by
  unfold failDeliveries
  simp only [setUnsettled_remoteIncomingWindow]
  exact foldl_field Session.remoteIncomingWindow (f := fun s (d : UInt32 × DlvInner) => if d.2.handle = h then s.notify d.2.tx true else s)
    (fun _ _ => by split <;> simp) _ s
@[simp] theorem failDeliveries_links (s : Session) (b : Bool) (h : UInt32) (e : PErr) : (s.failDeliveries b h e).links = s.links := by
  unfold failDeliveries
  simp only [setUnsettled_links]
  exact foldl_field Session.links (f := fun s (d : UInt32 × DlvInner) => if d.2.handle = h then s.notify d.2.tx true else s)
    (fun _ _ => by split <;> simp) _ s
@[simp] theorem failDeliveries_linksByName (s : Session) (b : Bool) (h : UInt32) (e : PErr) : (s.failDeliveries b h e).linksByName = s.linksByName := by
  unfold failDeliveries
  simp only [setUnsettled_linksByName]
  exact foldl_field Session.linksByName (f := fun s (d : UInt32 × DlvInner) => if d.2.handle = h then s.notify d.2.tx true else s)
    (fun _ _ => by split <;> simp) _ s
@[simp] theorem failDeliveries_remoteHandles (s : Session) (b : Bool) (h : UInt32) (e : PErr) : (s.failDeliveries b h e).remoteHandles = s.remoteHandles := by
  unfold failDeliveries
  simp only [setUnsettled_remoteHandles]
  exact foldl_field Session.remoteHandles (f := fun s (d : UInt32 × DlvInner) => if d.2.handle = h then s.notify d.2.tx true else s)
    (fun _ _ => by split <;> simp) _ s
@[simp] theorem failDeliveries_error (s : Session) (b : Bool) (h : UInt32) (e : PErr) : (s.failDeliveries b h e).error = s.error := by
  unfold failDeliveries
  simp only [setUnsettled_error]
  exact foldl_field Session.error (f := fun s (d : UInt32 × DlvInner) => if d.2.handle = h then s.notify d.2.tx true else s)
    (fun _ _ => by split <;> simp) _ s
@[simp] theorem failDeliveries_pendingTransfers (s : Session) (b : Bool) (h : UInt32) (e : PErr) : (s.failDeliveries b h e).pendingTransfers = s.pendingTransfers := by
  unfold failDeliveries
  simp only [setUnsettled_pendingTransfers]
  exact foldl_field Session.pendingTransfers (f := fun s (d : UInt32 × DlvInner) => if d.2.handle = h then s.notify d.2.tx true else s)
    (fun _ _ => by split <;> simp) _ s
@[simp] theorem failDeliveries_snds (s : Session) (b : Bool) (h : UInt32) (e : PErr) : (s.failDeliveries b h e).snds = s.snds := by
  unfold failDeliveries
  simp only [setUnsettled_snds]
  exact foldl_field Session.snds (f := fun s (d : UInt32 × DlvInner) => if d.2.handle = h then s.notify d.2.tx true else s)
    (fun _ _ => by split <;> simp) _ s
@[simp] theorem failDeliveries_rcvs (s : Session) (b : Bool) (h : UInt32) (e : PErr) : (s.failDeliveries b h e).rcvs = s.rcvs := by
  unfold failDeliveries
  simp only [setUnsettled_rcvs]
  exact foldl_field Session.rcvs (f := fun s (d : UInt32 × DlvInner) => if d.2.handle = h then s.notify d.2.tx true else s)
    (fun _ _ => by split <;> simp) _ s
@[simp] theorem failDeliveries_dlvs (s : Session) (b : Bool) (h : UInt32) (e : PErr) : (s.failDeliveries b h e).dlvs = s.dlvs := by
  unfold failDeliveries
  simp only [setUnsettled_dlvs]
  exact foldl_field Session.dlvs (f := fun s (d : UInt32 × DlvInner) => if d.2.handle = h then s.notify d.2.tx true else s)
    (fun _ _ => by split <;> simp) _ s
@[simp] theorem failDeliveries_sends (s : Session) (b : Bool) (h : UInt32) (e : PErr) : (s.failDeliveries b h e).sends = s.sends := by
  unfold failDeliveries
  simp only [setUnsettled_sends]
  exact foldl_field Session.sends (f := fun s (d : UInt32 × DlvInner) => if d.2.handle = h then s.notify d.2.tx true else s)
    (fun _ _ => by split <;> simp) _ s
@[simp] theorem failDeliveries_ops (s : Session) (b : Bool) (h : UInt32) (e : PErr) : (s.failDeliveries b h e).ops = s.ops := by
  unfold failDeliveries
  simp only [setUnsettled_ops]
  exact foldl_field Session.ops (f := fun s (d : UInt32 × DlvInner) => if d.2.handle = h then s.notify d.2.tx true else s)
    (fun _ _ => by split <;> simp) _ s
@[simp] theorem failDeliveries_todo (s : Session) (b : Bool) (h : UInt32) (e : PErr) : (s.failDeliveries b h e).todo = s.todo := by
  unfold failDeliveries
  simp only [setUnsettled_todo]
  exact foldl_field Session.todo (f := fun s (d : UInt32 × DlvInner) => if d.2.handle = h then s.notify d.2.tx true else s)
    (fun _ _ => by split <;> simp) _ s
@[simp] theorem failDeliveries_log (s : Session) (b : Bool) (h : UInt32) (e : PErr) : (s.failDeliveries b h e).log = s.log := by
  unfold failDeliveries
  simp only [setUnsettled_log]
  exact foldl_field Session.log (f := fun s (d : UInt32 × DlvInner) => if d.2.handle = h then s.notify d.2.tx true else s)
    (fun _ _ => by split <;> simp) _ s
@[simp] theorem sndRemoteDetached_id (s : Session) (r : Ref) (e : PErr) : (s.sndRemoteDetached r e).id = s.id := by
  unfold sndRemoteDetached; split <;> simp
@[simp] theorem sndRemoteDetached_isLocal (s : Session) (r : Ref) (e : PErr) : (s.sndRemoteDetached r e).isLocal = s.isLocal := by
  unfold sndRemoteDetached; split <;> simp
@[simp] theorem sndRemoteDetached_ended (s : Session) (r : Ref) (e : PErr) : (s.sndRemoteDetached r e).ended = s.ended := by
  unfold sndRemoteDetached; split <;> simp
@[simp] theorem sndRemoteDetached_ending (s : Session) (r : Ref) (e : PErr) : (s.sndRemoteDetached r e).ending = s.ending := by
  unfold sndRemoteDetached; split <;> simp
@[simp] theorem sndRemoteDetached_maxFrameSize (s : Session) (r : Ref) (e : PErr) : (s.sndRemoteDetached r e).maxFrameSize = s.maxFrameSize := by
  unfold sndRemoteDetached; split <;> simp
@[simp] theorem sndRemoteDetached_nextOutgoingId (s : Session) (r : Ref) (e : PErr) : (s.sndRemoteDetached r e).nextOutgoingId = s.nextOutgoingId := by
  unfold sndRemoteDetached; split <;> simp
@[simp] theorem sndRemoteDetached_remoteChannelId (s : Session) (r : Ref) (e : PErr) : (s.sndRemoteDetached r e).remoteChannelId = s.remoteChannelId := by
  unfold sndRemoteDetached; split <;> simp
@[simp] theorem sndRemoteDetached_nextIncomingId (s : Session) (r : Ref) (e : PErr) : (s.sndRemoteDetached r e).nextIncomingId = s.nextIncomingId := by
  unfold sndRemoteDetached; split <;> simp
@[simp] theorem sndRemoteDetached_remoteOutgoingWindow (s : Session) (r : Ref) (e : PErr) : (s.sndRemoteDetached r e).remoteOutgoingWindow = s.remoteOutgoingWindow := by
  unfold sndRemoteDetached; split <;> simp
@[simp] theorem sndRemoteDetached_remoteIncomingWindow (s : Session) (r : Ref) (e : PErr) : (s.sndRemoteDetached r e).remoteIncomingWindow = s.remoteIncomingWindow := by
  unfold sndRemoteDetached; split <;> simp
@[simp] theorem sndRemoteDetached_links (s : Session) (r : Ref) (e : PErr) : (s.sndRemoteDetached r e).links = s.links := by
  unfold sndRemoteDetached; split <;> simp
@[simp] theorem sndRemoteDetached_linksByName (s : Session) (r : Ref) (e : PErr) : (s.sndRemoteDetached r e).linksByName = s.linksByName := by
  unfold sndRemoteDetached; split <;> simp
@[simp] theorem sndRemoteDetached_remoteHandles (s : Session) (r : Ref) (e : PErr) : (s.sndRemoteDetached r e).remoteHandles = s.remoteHandles := by
  unfold sndRemoteDetached; split <;> simp
@[simp] theorem sndRemoteDetached_error (s : Session) (r : Ref) (e : PErr) : (s.sndRemoteDetached r e).error = s.error := by
  unfold sndRemoteDetached; split <;> simp
@[simp] theorem sndRemoteDetached_pendingTransfers (s : Session) (r : Ref) (e : PErr) : (s.sndRemoteDetached r e).pendingTransfers = s.pendingTransfers := by
  unfold sndRemoteDetached; split <;> simp
@[simp] theorem sndRemoteDetached_unsettledSnd (s : Session) (r : Ref) (e : PErr) : (s.sndRemoteDetached r e).unsettledSnd = s.unsettledSnd := by
  unfold sndRemoteDetached; split <;> simp
@[simp] theorem sndRemoteDetached_unsettledRcv (s : Session) (r : Ref) (e : PErr) : (s.sndRemoteDetached r e).unsettledRcv = s.unsettledRcv := by
  unfold sndRemoteDetached; split <;> simp
@[simp] theorem sndRemoteDetached_rcvs (s : Session) (r : Ref) (e : PErr) : (s.sndRemoteDetached r e).rcvs = s.rcvs := by
  unfold sndRemoteDetached; split <;> simp
@[simp] theorem sndRemoteDetached_dlvs (s : Session) (r : Ref) (e : PErr) : (s.sndRemoteDetached r e).dlvs = s.dlvs := by
  unfold sndRemoteDetached; split <;> simp
@[simp] theorem sndRemoteDetached_waits (s : Session) (r : Ref) (e : PErr) : (s.sndRemoteDetached r e).waits = s.waits := by
  unfold sndRemoteDetached; split <;> simp
@[simp] theorem sndRemoteDetached_ops (s : Session) (r : Ref) (e : PErr) : (s.sndRemoteDetached r e).ops = s.ops := by
  unfold sndRemoteDetached; split <;> simp
@[simp] theorem sndRemoteDetached_todo (s : Session) (r : Ref) (e : PErr) : (s.sndRemoteDetached r e).todo = s.todo := by
  unfold sndRemoteDetached; split <;> simp
@[simp] theorem sndRemoteDetached_log (s : Session) (r : Ref) (e : PErr) : (s.sndRemoteDetached r e).log = s.log := by
  unfold sndRemoteDetached; split <;> simp
@[simp] theorem applyFlow_id (s : Session) (r : Ref) (f : Flow) : (s.applyFlow r f).id = s.id := by
  unfold applyFlow; dsimp only; split
  · split <;> simp
  · simp
@[simp] theorem applyFlow_isLocal (s : Session) (r : Ref) (f : Flow) : (s.applyFlow r f).isLocal = s.isLocal := by
  unfold applyFlow; dsimp only; split
  · split <;> simp
  · simp
@[simp] theorem applyFlow_ended (s : Session) (r : Ref) (f : Flow) : (s.applyFlow r f).ended = s.ended := by
  unfold applyFlow; dsimp only; split
  · split <;> simp
  · simp
@[simp] theorem applyFlow_ending (s : Session) (r : Ref) (f : Flow) : (s.applyFlow r f).ending = s.ending := by
  unfold applyFlow; dsimp only; split
  · split <;> simp
  · simp
@[simp] theorem applyFlow_maxFrameSize (s : Session) (r : Ref) (f : Flow) : (s.applyFlow r f).maxFrameSize = s.maxFrameSize := by
  unfold applyFlow; dsimp only; split
  · split <;> simp
  · simp
@[simp] theorem applyFlow_nextOutgoingId (s : Session) (r : Ref) (f : Flow) : (s.applyFlow r f).nextOutgoingId = s.nextOutgoingId := by
  unfold applyFlow; dsimp only; split
  · split <;> simp
  · simp
@[simp] theorem applyFlow_remoteChannelId (s : Session) (r : Ref) (f : Flow) : (s.applyFlow r f).remoteChannelId = s.remoteChannelId := by
  unfold applyFlow; dsimp only; split
  · split <;> simp
  · simp
@[simp] theorem applyFlow_nextIncomingId (s : Session) (r : Ref) (f : Flow) : (s.applyFlow r f).nextIncomingId = s.nextIncomingId := by
  unfold applyFlow; dsimp only; split
  · split <;> simp
  · simp
@[simp] theorem applyFlow_remoteOutgoingWindow (s : Session) (r : Ref) (f : Flow) : (s.applyFlow r f).remoteOutgoingWindow = s.remoteOutgoingWindow := by
  unfold applyFlow; dsimp only; split
  · split <;> simp
  · simp
@[simp] theorem applyFlow_remoteIncomingWindow (s : Session) (r : Ref) (f : Flow) : (s.applyFlow r f).remoteIncomingWindow = s.remoteIncomingWindow := by
  unfold applyFlow; dsimp only; split
  · split <;> simp
  · simp
@[simp] theorem applyFlow_links (s : Session) (r : Ref) (f : Flow) : (s.applyFlow r f).links = s.links := by
  unfold applyFlow; dsimp only; split
  · split <;> simp
  · simp
@[simp] theorem applyFlow_linksByName (s : Session) (r : Ref) (f : Flow) : (s.applyFlow r f).linksByName = s.linksByName := by
  unfold applyFlow; dsimp only; split
  · split <;> simp
  · simp
@[simp] theorem applyFlow_remoteHandles (s : Session) (r : Ref) (f : Flow) : (s.applyFlow r f).remoteHandles = s.remoteHandles := by
  unfold applyFlow; dsimp only; split
  · split <;> simp
  · simp
@[simp] theorem applyFlow_error (s : Session) (r : Ref) (f : Flow) : (s.applyFlow r f).error = s.error := by
  unfold applyFlow; dsimp only; split
  · split <;> simp
  · simp
@[simp] theorem applyFlow_pendingTransfers (s : Session) (r : Ref) (f : Flow) : (s.applyFlow r f).pendingTransfers = s.pendingTransfers := by
  unfold applyFlow; dsimp only; split
  · split <;> simp
  · simp
@[simp] theorem applyFlow_unsettledSnd (s : Session) (r : Ref) (f : Flow) : (s.applyFlow r f).unsettledSnd = s.unsettledSnd := by
  unfold applyFlow; dsimp only; split
  · split <;> simp
  · simp
@[simp] theorem applyFlow_unsettledRcv (s : Session) (r : Ref) (f : Flow) : (s.applyFlow r f).unsettledRcv = s.unsettledRcv := by
  unfold applyFlow; dsimp only; split
  · split <;> simp
  · simp
@[simp] theorem applyFlow_rcvs (s : Session) (r : Ref) (f : Flow) : (s.applyFlow r f).rcvs = s.rcvs := by
  unfold applyFlow; dsimp only; split
  · split <;> simp
  · simp
@[simp] theorem applyFlow_dlvs (s : Session) (r : Ref) (f : Flow) : (s.applyFlow r f).dlvs = s.dlvs := by
  unfold applyFlow; dsimp only; split
  · split <;> simp
  · simp
@[simp] theorem applyFlow_waits (s : Session) (r : Ref) (f : Flow) : (s.applyFlow r f).waits = s.waits := by
  unfold applyFlow; dsimp only; split
  · split <;> simp
  · simp
@[simp] theorem applyFlow_ops (s : Session) (r : Ref) (f : Flow) : (s.applyFlow r f).ops = s.ops := by
  unfold applyFlow; dsimp only; split
  · split <;> simp
  · simp
@[simp] theorem applyFlow_todo (s : Session) (r : Ref) (f : Flow) : (s.applyFlow r f).todo = s.todo := by
  unfold applyFlow; dsimp only; split
  · split <;> simp
  · simp
@[simp] theorem settle_id (s : Session) (r : Ref) (st : DeliveryState) : (s.settle r st).id = s.id := by
  unfold settle; split
  · split
    · rfl
    · split <;> simp
  · rfl
@[simp] theorem settle_isLocal (s : Session) (r : Ref) (st : DeliveryState) : (s.settle r st).isLocal = s.isLocal := by
  unfold settle; split
  · split
    · rfl
    · split <;> simp
  · rfl
@[simp] theorem settle_ended (s : Session) (r : Ref) (st : DeliveryState) : (s.settle r st).ended = s.ended := by
  unfold settle; split
  · split
    · rfl
    · split <;> simp
  · rfl
@[simp] theorem settle_ending (s : Session) (r : Ref) (st : DeliveryState) : (s.settle r st).ending = s.ending := by
  unfold settle; split
  · split
    · rfl
    · split <;> simp
  · rfl
@[simp] theorem settle_maxFrameSize (s : Session) (r : Ref) (st : DeliveryState) : (s.settle r st).maxFrameSize = s.maxFrameSize := by
  unfold settle; split
  · split
    · rfl
    · split <;> simp
  · rfl
@[simp] theorem settle_nextOutgoingId (s : Session) (r : Ref) (st : DeliveryState) : (s.settle r st).nextOutgoingId = s.nextOutgoingId := by
  unfold settle; split
  · split
    · rfl
    · split <;> simp
  · rfl
@[simp] theorem settle_remoteChannelId (s : Session) (r : Ref) (st : DeliveryState) : (s.settle r st).remoteChannelId = s.remoteChannelId := by
  unfold settle; split
  · split
    · rfl
    · split <;> simp
  · rfl
@[simp] theorem settle_nextIncomingId (s : Session) (r : Ref) (st : DeliveryState) : (s.settle r st).nextIncomingId = s.nextIncomingId := by
  unfold settle; split
  · split
    · rfl
    · split <;> simp
  · rfl
@[simp] theorem settle_remoteOutgoingWindow (s : Session) (r : Ref) (st : DeliveryState) : (s.settle r st).remoteOutgoingWindow = s.remoteOutgoingWindow := by
  unfold settle; split
  · split
    · rfl
    · split <;> simp
  · rfl
@[simp] theorem settle_remoteIncomingWindow (s : Session) (r : Ref) (st : DeliveryState) : (s.settle r st).remoteIncomingWindow = s.remoteIncomingWindow := by
  unfold settle; split
  · split
    · rfl
    · split <;> simp
  · rfl
@[simp] theorem settle_links (s : Session) (r : Ref) (st : DeliveryState) : (s.settle r st).links = s.links := by
  unfold settle; split
  · split
    · rfl
    · split <;> simp
  · rfl
@[simp] theorem settle_linksByName (s : Session) (r : Ref) (st : DeliveryState) : (s.settle r st).linksByName = s.linksByName := by
  unfold settle; split
  · split
    · rfl
    · split <;> simp
  · rfl
@[simp] theorem settle_remoteHandles (s : Session) (r : Ref) (st : DeliveryState) : (s.settle r st).remoteHandles = s.remoteHandles := by
  unfold settle; split
  · split
    · rfl
    · split <;> simp
  · rfl
@[simp] theorem settle_error (s : Session) (r : Ref) (st : DeliveryState) : (s.settle r st).error = s.error := by
  unfold settle; split
  · split
    · rfl
    · split <;> simp
  · rfl
@[simp] theorem settle_pendingTransfers (s : Session) (r : Ref) (st : DeliveryState) : (s.settle r st).pendingTransfers = s.pendingTransfers := by
  unfold settle; split
  · split
    · rfl
    · split <;> simp
  · rfl
@[simp] theorem settle_unsettledSnd (s : Session) (r : Ref) (st : DeliveryState) : (s.settle r st).unsettledSnd = s.unsettledSnd := by
  unfold settle; split
  · split
    · rfl
    · split <;> simp
  · rfl
@[simp] theorem settle_unsettledRcv (s : Session) (r : Ref) (st : DeliveryState) : (s.settle r st).unsettledRcv = s.unsettledRcv := by
  unfold settle; split
  · split
    · rfl
    · split <;> simp
  · rfl
@[simp] theorem settle_snds (s : Session) (r : Ref) (st : DeliveryState) : (s.settle r st).snds = s.snds := by
  unfold settle; split
  · split
    · rfl
    · split <;> simp
  · rfl
@[simp] theorem settle_rcvs (s : Session) (r : Ref) (st : DeliveryState) : (s.settle r st).rcvs = s.rcvs := by
  unfold settle; split
  · split
    · rfl
    · split <;> simp
  · rfl
@[simp] theorem settle_sends (s : Session) (r : Ref) (st : DeliveryState) : (s.settle r st).sends = s.sends := by
  unfold settle; split
  · split
    · rfl
    · split <;> simp
  · rfl
@[simp] theorem settle_waits (s : Session) (r : Ref) (st : DeliveryState) : (s.settle r st).waits = s.waits := by
  unfold settle; split
  · split
    · rfl
    · split <;> simp
  · rfl
@[simp] theorem settle_ops (s : Session) (r : Ref) (st : DeliveryState) : (s.settle r st).ops = s.ops := by
  unfold settle; split
  · split
    · rfl
    · split <;> simp
  · rfl
@[simp] theorem settle_todo (s : Session) (r : Ref) (st : DeliveryState) : (s.settle r st).todo = s.todo := by
  unfold settle; split
  · split
    · rfl
    · split <;> simp
  · rfl
@[simp] theorem updateState_id (s : Session) (r : Ref) (st : DeliveryState) : (s.updateState r st).id = s.id := by
  unfold updateState; split
  · split <;> simp
  · rfl
@[simp] theorem updateState_isLocal (s : Session) (r : Ref) (st : DeliveryState) : (s.updateState r st).isLocal = s.isLocal := by
  unfold updateState; split
  · split <;> simp
  · rfl
@[simp] theorem updateState_ended (s : Session) (r : Ref) (st : DeliveryState) : (s.updateState r st).ended = s.ended := by
  unfold updateState; split
  · split <;> simp
  · rfl
@[simp] theorem updateState_ending (s : Session) (r : Ref) (st : DeliveryState) : (s.updateState r st).ending = s.ending := by
  unfold updateState; split
  · split <;> simp
  · rfl
@[simp] theorem updateState_maxFrameSize (s : Session) (r : Ref) (st : DeliveryState) : (s.updateState r st).maxFrameSize = s.maxFrameSize := by
  unfold updateState; split
  · split <;> simp
  · rfl
@[simp] theorem updateState_nextOutgoingId (s : Session) (r : Ref) (st : DeliveryState) : (s.updateState r st).nextOutgoingId = s.nextOutgoingId := by
  unfold updateState; split
  · split <;> simp
  · rfl
@[simp] theorem updateState_remoteChannelId (s : Session) (r : Ref) (st : DeliveryState) : (s.updateState r st).remoteChannelId = s.remoteChannelId := by
  unfold updateState; split
  · split <;> simp
  · rfl
@[simp] theorem updateState_nextIncomingId (s : Session) (r : Ref) (st : DeliveryState) : (s.updateState r st).nextIncomingId = s.nextIncomingId := by
  unfold updateState; split
  · split <;> simp
  · rfl
@[simp] theorem updateState_remoteOutgoingWindow (s : Session) (r : Ref) (st : DeliveryState) : (s.updateState r st).remoteOutgoingWindow = s.remoteOutgoingWindow := by
  unfold updateState; split
  · split <;> simp
  · rfl
@[simp] theorem updateState_remoteIncomingWindow (s : Session) (r : Ref) (st : DeliveryState) : (s.updateState r st).remoteIncomingWindow = s.remoteIncomingWindow := by
  unfold updateState; split
  · split <;> simp
  · rfl
@[simp] theorem updateState_links (s : Session) (r : Ref) (st : DeliveryState) : (s.updateState r st).links = s.links := by
  unfold updateState; split
  · split <;> simp
  · rfl
@[simp] theorem updateState_linksByName (s : Session) (r : Ref) (st : DeliveryState) : (s.updateState r st).linksByName = s.linksByName := by
  unfold updateState; split
  · split <;> simp
  · rfl
@[simp] theorem updateState_remoteHandles (s : Session) (r : Ref) (st : DeliveryState) : (s.updateState r st).remoteHandles = s.remoteHandles := by
  unfold updateState; split
  · split <;> simp
  · rfl
@[simp] theorem updateState_error (s : Session) (r : Ref) (st : DeliveryState) : (s.updateState r st).error = s.error := by
  unfold updateState; split
  · split <;> simp
  · rfl
@[simp] theorem updateState_pendingTransfers (s : Session) (r : Ref) (st : DeliveryState) : (s.updateState r st).pendingTransfers = s.pendingTransfers := by
  unfold updateState; split
  · split <;> simp
  · rfl
@[simp] theorem updateState_unsettledSnd (s : Session) (r : Ref) (st : DeliveryState) : (s.updateState r st).unsettledSnd = s.unsettledSnd := by
  unfold updateState; split
  · split <;> simp
  · rfl
@[simp] theorem updateState_unsettledRcv (s : Session) (r : Ref) (st : DeliveryState) : (s.updateState r st).unsettledRcv = s.unsettledRcv := by
  unfold updateState; split
  · split <;> simp
  · rfl
@[simp] theorem updateState_snds (s : Session) (r : Ref) (st : DeliveryState) : (s.updateState r st).snds = s.snds := by
  unfold updateState; split
  · split <;> simp
  · rfl
@[simp] theorem updateState_rcvs (s : Session) (r : Ref) (st : DeliveryState) : (s.updateState r st).rcvs = s.rcvs := by
  unfold updateState; split
  · split <;> simp
  · rfl
@[simp] theorem updateState_dlvs (s : Session) (r : Ref) (st : DeliveryState) : (s.updateState r st).dlvs = s.dlvs := by
  unfold updateState; split
  · split <;> simp
  · rfl
@[simp] theorem updateState_sends (s : Session) (r : Ref) (st : DeliveryState) : (s.updateState r st).sends = s.sends := by
  unfold updateState; split
  · split <;> simp
  · rfl
@[simp] theorem updateState_waits (s : Session) (r : Ref) (st : DeliveryState) : (s.updateState r st).waits = s.waits := by
  unfold updateState; split
  · split <;> simp
  · rfl
@[simp] theorem updateState_ops (s : Session) (r : Ref) (st : DeliveryState) : (s.updateState r st).ops = s.ops := by
  unfold updateState; split
  · split <;> simp
  · rfl
@[simp] theorem updateState_todo (s : Session) (r : Ref) (st : DeliveryState) : (s.updateState r st).todo = s.todo := by
  unfold updateState; split
  · split <;> simp
  · rfl
@[simp] theorem dropDelivery_id (s : Session) (r : Ref) : (s.dropDelivery r).id = s.id := by
  unfold dropDelivery; split
  · dsimp only; split
    · split <;> simp
    · simp
  · rfl
@[simp] theorem dropDelivery_isLocal (s : Session) (r : Ref) : (s.dropDelivery r).isLocal = s.isLocal := by
  unfold dropDelivery; split
  · dsimp only; split
    · split <;> simp
    · simp
  · rfl
@[simp] theorem dropDelivery_ended (s : Session) (r : Ref) : (s.dropDelivery r).ended = s.ended := by
  unfold dropDelivery; split
  · dsimp only; split
    · split <;> simp
    · simp
  · rfl
@[simp] theorem dropDelivery_ending (s : Session) (r : Ref) : (s.dropDelivery r).ending = s.ending := by
  unfold dropDelivery; split
  · dsimp only; split
    · split <;> simp
    · simp
  · rfl
@[simp] theorem dropDelivery_maxFrameSize (s : Session) (r : Ref) : (s.dropDelivery r).maxFrameSize = s.maxFrameSize := by
  unfold dropDelivery; split
  · dsimp only; split
    · split <;> simp
    · simp
  · rfl
@[simp] theorem dropDelivery_nextOutgoingId (s : Session) (r : Ref) : (s.dropDelivery r).nextOutgoingId = s.nextOutgoingId := by
  unfold dropDelivery; split
  · dsimp only; split
    · split <;> simp
    · simp
  · rfl
@[simp] theorem dropDelivery_remoteChannelId (s : Session) (r : Ref) : (s.dropDelivery r).remoteChannelId = s.remoteChannelId := by
  unfold dropDelivery; split
  · dsimp only; split
    · split <;> simp
    · simp
  · rfl
@[simp] theorem dropDelivery_nextIncomingId (s : Session) (r : Ref) : (s.dropDelivery r).nextIncomingId = s.nextIncomingId := by
  unfold dropDelivery; split
  · dsimp only; split
    · split <;> simp
    · simp
  · rfl
@[simp] theorem dropDelivery_remoteOutgoingWindow (s : Session) (r : Ref) : (s.dropDelivery r).remoteOutgoingWindow = s.remoteOutgoingWindow := by
  unfold dropDelivery; split
  · dsimp only; split
    · split <;> simp
    · simp
  · rfl
@[simp] theorem dropDelivery_remoteIncomingWindow (s : Session) (r : Ref) : (s.dropDelivery r).remoteIncomingWindow = s.remoteIncomingWindow := by
  unfold dropDelivery; split
  · dsimp only; split
    · split <;> simp
    · simp
  · rfl
@[simp] theorem dropDelivery_links (s : Session) (r : Ref) : (s.dropDelivery r).links = s.links := by
  unfold dropDelivery; split
  · dsimp only; split
    · split <;> simp
    · simp
  · rfl
@[simp] theorem dropDelivery_linksByName (s : Session) (r : Ref) : (s.dropDelivery r).linksByName = s.linksByName := by
  unfold dropDelivery; split
  · dsimp only; split
    · split <;> simp
    · simp
  · rfl
@[simp] theorem dropDelivery_remoteHandles (s : Session) (r : Ref) : (s.dropDelivery r).remoteHandles = s.remoteHandles := by
  unfold dropDelivery; split
  · dsimp only; split
    · split <;> simp
    · simp
  · rfl
@[simp] theorem dropDelivery_error (s : Session) (r : Ref) : (s.dropDelivery r).error = s.error := by
  unfold dropDelivery; split
  · dsimp only; split
    · split <;> simp
    · simp
  · rfl
@[simp] theorem dropDelivery_pendingTransfers (s : Session) (r : Ref) : (s.dropDelivery r).pendingTransfers = s.pendingTransfers := by
  unfold dropDelivery; split
  · dsimp only; split
    · split <;> simp
    · simp
  · rfl
@[simp] theorem dropDelivery_snds (s : Session) (r : Ref) : (s.dropDelivery r).snds = s.snds := by
  unfold dropDelivery; split
  · dsimp only; split
    · split <;> simp
    · simp
  · rfl
@[simp] theorem dropDelivery_rcvs (s : Session) (r : Ref) : (s.dropDelivery r).rcvs = s.rcvs := by
  unfold dropDelivery; split
  · dsimp only; split
    · split <;> simp
    · simp
  · rfl
@[simp] theorem dropDelivery_sends (s : Session) (r : Ref) : (s.dropDelivery r).sends = s.sends := by
  unfold dropDelivery; split
  · dsimp only; split
    · split <;> simp
    · simp
  · rfl
@[simp] theorem dropDelivery_ops (s : Session) (r : Ref) : (s.dropDelivery r).ops = s.ops := by
  unfold dropDelivery; split
  · dsimp only; split
    · split <;> simp
    · simp
  · rfl
@[simp] theorem dropDelivery_todo (s : Session) (r : Ref) : (s.dropDelivery r).todo = s.todo := by
  unfold dropDelivery; split
  · dsimp only; split
    · split <;> simp
    · simp
  · rfl
@[simp] theorem waitStart_id (s : Session) (r : Ref) : (s.waitStart r).id = s.id := by
  unfold waitStart; split
  · dsimp only; split
    · simp
    · split
      · split <;> simp
      · simp
  · rfl
@[simp] theorem waitStart_isLocal (s : Session) (r : Ref) : (s.waitStart r).isLocal = s.isLocal := by
  unfold waitStart; split
  · dsimp only; split
    · simp
    · split
      · split <;> simp
      · simp
  · rfl
@[simp] theorem waitStart_ended (s : Session) (r : Ref) : (s.waitStart r).ended = s.ended := by
  unfold waitStart; split
  · dsimp only; split
    · simp
    · split
      · split <;> simp
      · simp
  · rfl
@[simp] theorem waitStart_ending (s : Session) (r : Ref) : (s.waitStart r).ending = s.ending := by
  unfold waitStart; split
  · dsimp only; split
    · simp
    · split
      · split <;> simp
      · simp
  · rfl
@[simp] theorem waitStart_maxFrameSize (s : Session) (r : Ref) : (s.waitStart r).maxFrameSize = s.maxFrameSize := by
  unfold waitStart; split
  · dsimp only; split
    · simp
    · split
      · split <;> simp
      · simp
  · rfl
@[simp] theorem waitStart_nextOutgoingId (s : Session) (r : Ref) : (s.waitStart r).nextOutgoingId = s.nextOutgoingId := by
  unfold waitStart; split
  · dsimp only; split
    · simp
    · split
      · split <;> simp
      · simp
  · rfl
@[simp] theorem waitStart_remoteChannelId (s : Session) (r : Ref) : (s.waitStart r).remoteChannelId = s.remoteChannelId := by
  unfold waitStart; split
  · dsimp only; split
    · simp
    · split
      · split <;> simp
      · simp
  · rfl
@[simp] theorem waitStart_nextIncomingId (s : Session) (r : Ref) : (s.waitStart r).nextIncomingId = s.nextIncomingId := by
  unfold waitStart; split
  · dsimp only; split
    · simp
    · split
      · split <;> simp
      · simp
  · rfl
@[simp] theorem waitStart_remoteOutgoingWindow (s : Session) (r : Ref) : (s.waitStart r).remoteOutgoingWindow = s.remoteOutgoingWindow := by
  unfold waitStart; split
  · dsimp only; split
    · simp
    · split
      · split <;> simp
      · simp
  · rfl
@[simp] theorem waitStart_remoteIncomingWindow (s : Session) (r : Ref) : (s.waitStart r).remoteIncomingWindow = s.remoteIncomingWindow := by
  unfold waitStart; split
  · dsimp only; split
    · simp
    · split
      · split <;> simp
      · simp
  · rfl
@[simp] theorem waitStart_links (s : Session) (r : Ref) : (s.waitStart r).links = s.links := by
  unfold waitStart; split
  · dsimp only; split
    · simp
    · split
      · split <;> simp
      · simp
  · rfl
@[simp] theorem waitStart_linksByName (s : Session) (r : Ref) : (s.waitStart r).linksByName = s.linksByName := by
  unfold waitStart; split
  · dsimp only; split
    · simp
    · split
      · split <;> simp
      · simp
  · rfl
@[simp] theorem waitStart_remoteHandles (s : Session) (r : Ref) : (s.waitStart r).remoteHandles = s.remoteHandles := by
  unfold waitStart; split
  · dsimp only; split
    · simp
    · split
      · split <;> simp
      · simp
  · rfl
@[simp] theorem waitStart_error (s : Session) (r : Ref) : (s.waitStart r).error = s.error := by
  unfold waitStart; split
  · dsimp only; split
    · simp
    · split
      · split <;> simp
      · simp
  · rfl
@[simp] theorem waitStart_pendingTransfers (s : Session) (r : Ref) : (s.waitStart r).pendingTransfers = s.pendingTransfers := by
  unfold waitStart; split
  · dsimp only; split
    · simp
    · split
      · split <;> simp
      · simp
  · rfl
@[simp] theorem waitStart_snds (s : Session) (r : Ref) : (s.waitStart r).snds = s.snds := by
  unfold waitStart; split
  · dsimp only; split
    · simp
    · split
      · split <;> simp
      · simp
  · rfl
@[simp] theorem waitStart_rcvs (s : Session) (r : Ref) : (s.waitStart r).rcvs = s.rcvs := by
  unfold waitStart; split
  · dsimp only; split
    · simp
    · split
      · split <;> simp
      · simp
  · rfl
@[simp] theorem waitStart_dlvs (s : Session) (r : Ref) : (s.waitStart r).dlvs = s.dlvs := by
  unfold waitStart; split
  · dsimp only; split
    · simp
    · split
      · split <;> simp
      · simp
  · rfl
@[simp] theorem waitStart_sends (s : Session) (r : Ref) : (s.waitStart r).sends = s.sends := by
  unfold waitStart; split
  · dsimp only; split
    · simp
    · split
      · split <;> simp
      · simp
  · rfl
@[simp] theorem waitStart_ops (s : Session) (r : Ref) : (s.waitStart r).ops = s.ops := by
  unfold waitStart; split
  · dsimp only; split
    · simp
    · split
      · split <;> simp
      · simp
  · rfl
@[simp] theorem waitStart_todo (s : Session) (r : Ref) : (s.waitStart r).todo = s.todo := by
  unfold waitStart; split
  · dsimp only; split
    · simp
    · split
      · split <;> simp
      · simp
  · rfl
@[simp] theorem waitStart_log (s : Session) (r : Ref) : (s.waitStart r).log = s.log := by
  unfold waitStart; split
  · dsimp only; split
    · simp
    · split
      · split <;> simp
      · simp
  · rfl
@[simp] theorem waitResume_id (s : Session) (w : Ref) : (s.waitResume w).id = s.id := by
  unfold waitResume
  (repeat' split) <;> (try dsimp only) <;> (repeat' split) <;> simp
@[simp] theorem waitResume_isLocal (s : Session) (w : Ref) : (s.waitResume w).isLocal = s.isLocal := by
  unfold waitResume
  (repeat' split) <;> (try dsimp only) <;> (repeat' split) <;> simp
@[simp] theorem waitResume_ended (s : Session) (w : Ref) : (s.waitResume w).ended = s.ended := by
  unfold waitResume
  (repeat' split) <;> (try dsimp only) <;> (repeat' split) <;> simp
@[simp] theorem waitResume_ending (s : Session) (w : Ref) : (s.waitResume w).ending = s.ending := by
  unfold waitResume
  (repeat' split) <;> (try dsimp only) <;> (repeat' split) <;> simp
@[simp] theorem waitResume_maxFrameSize (s : Session) (w : Ref) : (s.waitResume w).maxFrameSize = s.maxFrameSize := by
  unfold waitResume
  (repeat' split) <;> (try dsimp only) <;> (repeat' split) <;> simp
@[simp] theorem waitResume_nextOutgoingId (s : Session) (w : Ref) : (s.waitResume w).nextOutgoingId = s.nextOutgoingId := by
  unfold waitResume
  (repeat' split) <;> (try dsimp only) <;> (repeat' split) <;> simp
@[simp] theorem waitResume_remoteChannelId (s : Session) (w : Ref) : (s.waitResume w).remoteChannelId = s.remoteChannelId := by
  unfold waitResume
  (repeat' split) <;> (try dsimp only) <;> (repeat' split) <;> simp
@[simp] theorem waitResume_nextIncomingId (s : Session) (w : Ref) : (s.waitResume w).nextIncomingId = s.nextIncomingId := by
  unfold waitResume
  (repeat' split) <;> (try dsimp only) <;> (repeat' split) <;> simp
@[simp] theorem waitResume_remoteOutgoingWindow (s : Session) (w : Ref) : (s.waitResume w).remoteOutgoingWindow = s.remoteOutgoingWindow := by
  unfold waitResume
  (repeat' split) <;> (try dsimp only) <;> (repeat' split) <;> simp
@[simp] theorem waitResume_remoteIncomingWindow (s : Session) (w : Ref) : (s.waitResume w).remoteIncomingWindow = s.remoteIncomingWindow := by
  unfold waitResume
  (repeat' split) <;> (try dsimp only) <;> (repeat' split) <;> simp
@[simp] theorem waitResume_links (s : Session) (w : Ref) : (s.waitResume w).links = s.links := by
  unfold waitResume
  (repeat' split) <;> (try dsimp only) <;> (repeat' split) <;> simp
@[simp] theorem waitResume_linksByName (s : Session) (w : Ref) : (s.waitResume w).linksByName = s.linksByName := by
  unfold waitResume
  (repeat' split) <;> (try dsimp only) <;> (repeat' split) <;> simp
@[simp] theorem waitResume_remoteHandles (s : Session) (w : Ref) : (s.waitResume w).remoteHandles = s.remoteHandles := by
  unfold waitResume
  (repeat' split) <;> (try dsimp only) <;> (repeat' split) <;> simp
@[simp] theorem waitResume_error (s : Session) (w : Ref) : (s.waitResume w).error = s.error := by
  unfold waitResume
  (repeat' split) <;> (try dsimp only) <;> (repeat' split) <;> simp
@[simp] theorem waitResume_pendingTransfers (s : Session) (w : Ref) : (s.waitResume w).pendingTransfers = s.pendingTransfers := by
  unfold waitResume
  (repeat' split) <;> (try dsimp only) <;> (repeat' split) <;> simp
@[simp] theorem waitResume_snds (s : Session) (w : Ref) : (s.waitResume w).snds = s.snds := by
  unfold waitResume
  (repeat' split) <;> (try dsimp only) <;> (repeat' split) <;> simp
@[simp] theorem waitResume_rcvs (s : Session) (w : Ref) : (s.waitResume w).rcvs = s.rcvs := by
  unfold waitResume
  (repeat' split) <;> (try dsimp only) <;> (repeat' split) <;> simp
@[simp] theorem waitResume_sends (s : Session) (w : Ref) : (s.waitResume w).sends = s.sends := by
  unfold waitResume
  (repeat' split) <;> (try dsimp only) <;> (repeat' split) <;> simp
@[simp] theorem waitResume_ops (s : Session) (w : Ref) : (s.waitResume w).ops = s.ops := by
  unfold waitResume
  (repeat' split) <;> (try dsimp only) <;> (repeat' split) <;> simp
@[simp] theorem waitResume_todo (s : Session) (w : Ref) : (s.waitResume w).todo = s.todo := by
  unfold waitResume
  (repeat' split) <;> (try dsimp only) <;> (repeat' split) <;> simp
@[simp] theorem waitResume_log (s : Session) (w : Ref) : (s.waitResume w).log = s.log := by
  unfold waitResume
  (repeat' split) <;> (try dsimp only) <;> (repeat' split) <;> simp
@[simp] theorem disposeOne_id (b : Bool) (d : Disposition) (s : Session) (no : UInt32) :
    (disposeOne b d s no).id = s.id := by
  unfold disposeOne; split <;> simp
@[simp] theorem disposeOne_isLocal (b : Bool) (d : Disposition) (s : Session) (no : UInt32) :
    (disposeOne b d s no).isLocal = s.isLocal := by
  unfold disposeOne; split <;> simp
@[simp] theorem disposeOne_ended (b : Bool) (d : Disposition) (s : Session) (no : UInt32) :
    (disposeOne b d s no).ended = s.ended := by
  unfold disposeOne; split <;> simp
@[simp] theorem disposeOne_ending (b : Bool) (d : Disposition) (s : Session) (no : UInt32) :
    (disposeOne b d s no).ending = s.ending := by
  unfold disposeOne; split <;> simp
@[simp] theorem disposeOne_maxFrameSize (b : Bool) (d : Disposition) (s : Session) (no : UInt32) :
    (disposeOne b d s no).maxFrameSize = s.maxFrameSize := by
  unfold disposeOne; split <;> simp
@[simp] theorem disposeOne_nextOutgoingId (b : Bool) (d : Disposition) (s : Session) (no : UInt32) :
    (disposeOne b d s no).nextOutgoingId = s.nextOutgoingId := by
  unfold disposeOne; split <;> simp
@[simp] theorem disposeOne_remoteChannelId (b : Bool) (d : Disposition) (s : Session) (no : UInt32) :
    (disposeOne b d s no).remoteChannelId = s.remoteChannelId := by
  unfold disposeOne; split <;> simp
@[simp] theorem disposeOne_nextIncomingId (b : Bool) (d : Disposition) (s : Session) (no : UInt32) :
    (disposeOne b d s no).nextIncomingId = s.nextIncomingId := by
  unfold disposeOne; split <;> simp
@[simp] theorem disposeOne_remoteOutgoingWindow (b : Bool) (d : Disposition) (s : Session) (no : UInt32) :
    (disposeOne b d s no).remoteOutgoingWindow = s.remoteOutgoingWindow := by
  unfold disposeOne; split <;> simp
@[simp] theorem disposeOne_remoteIncomingWindow (b : Bool) (d : Disposition) (s : Session) (no : UInt32) :
    (disposeOne b d s no).remoteIncomingWindow = s.remoteIncomingWindow := by
  unfold disposeOne; split <;> simp
@[simp] theorem disposeOne_links (b : Bool) (d : Disposition) (s : Session) (no : UInt32) :
    (disposeOne b d s no).links = s.links := by
  unfold disposeOne; split <;> simp
@[simp] theorem disposeOne_linksByName (b : Bool) (d : Disposition) (s : Session) (no : UInt32) :
    (disposeOne b d s no).linksByName = s.linksByName := by
  unfold disposeOne; split <;> simp
@[simp] theorem disposeOne_remoteHandles (b : Bool) (d : Disposition) (s : Session) (no : UInt32) :
    (disposeOne b d s no).remoteHandles = s.remoteHandles := by
  unfold disposeOne; split <;> simp
@[simp] theorem disposeOne_error (b : Bool) (d : Disposition) (s : Session) (no : UInt32) :
    (disposeOne b d s no).error = s.error := by
  unfold disposeOne; split <;> simp
@[simp] theorem disposeOne_pendingTransfers (b : Bool) (d : Disposition) (s : Session) (no : UInt32) :
    (disposeOne b d s no).pendingTransfers = s.pendingTransfers := by
  unfold disposeOne; split <;> simp
@[simp] theorem disposeOne_snds (b : Bool) (d : Disposition) (s : Session) (no : UInt32) :
    (disposeOne b d s no).snds = s.snds := by
  unfold disposeOne; split <;> simp
@[simp] theorem disposeOne_rcvs (b : Bool) (d : Disposition) (s : Session) (no : UInt32) :
    (disposeOne b d s no).rcvs = s.rcvs := by
  unfold disposeOne; split <;> simp
@[simp] theorem disposeOne_dlvs (b : Bool) (d : Disposition) (s : Session) (no : UInt32) :
    (disposeOne b d s no).dlvs = s.dlvs := by
  unfold disposeOne; split <;> simp
@[simp] theorem disposeOne_sends (b : Bool) (d : Disposition) (s : Session) (no : UInt32) :
    (disposeOne b d s no).sends = s.sends := by
  unfold disposeOne; split <;> simp
@[simp] theorem disposeOne_ops (b : Bool) (d : Disposition) (s : Session) (no : UInt32) :
    (disposeOne b d s no).ops = s.ops := by
  unfold disposeOne; split <;> simp
@[simp] theorem disposeOne_todo (b : Bool) (d : Disposition) (s : Session) (no : UInt32) :
    (disposeOne b d s no).todo = s.todo := by
  unfold disposeOne; split <;> simp
@[simp] theorem disposeOne_log (b : Bool) (d : Disposition) (s : Session) (no : UInt32) :
    (disposeOne b d s no).log = s.log := by
  unfold disposeOne; split <;> simp
@[simp] theorem startDelivery_id (s : Session) (r : Ref) (l : Rcv) (id : UInt32) (t : Transfer) : (s.startDelivery r l id t).id = s.id := by
  unfold startDelivery newRcv
  dsimp only
  split
  · simp
  · split <;> simp
@[simp] theorem startDelivery_isLocal (s : Session) (r : Ref) (l : Rcv) (id : UInt32) (t : Transfer) : (s.startDelivery r l id t).isLocal = s.isLocal := by
  unfold startDelivery newRcv
  dsimp only
  split
  · simp
  · split <;> simp
@[simp] theorem startDelivery_ended (s : Session) (r : Ref) (l : Rcv) (id : UInt32) (t : Transfer) : (s.startDelivery r l id t).ended = s.ended := by
  unfold startDelivery newRcv
  dsimp only
  split
  · simp
  · split <;> simp
@[simp] theorem startDelivery_ending (s : Session) (r : Ref) (l : Rcv) (id : UInt32) (t : Transfer) : (s.startDelivery r l id t).ending = s.ending := by
  unfold startDelivery newRcv
  dsimp only
  split
  · simp
  · split <;> simp
@[simp] theorem startDelivery_maxFrameSize (s : Session) (r : Ref) (l : Rcv) (id : UInt32) (t : Transfer) : (s.startDelivery r l id t).maxFrameSize = s.maxFrameSize := by
  unfold startDelivery newRcv
  dsimp only
  split
  · simp
  · split <;> simp
@[simp] theorem startDelivery_nextOutgoingId (s : Session) (r : Ref) (l : Rcv) (id : UInt32) (t : Transfer) : (s.startDelivery r l id t).nextOutgoingId = s.nextOutgoingId := by
  unfold startDelivery newRcv
  dsimp only
  split
  · simp
  · split <;> simp
@[simp] theorem startDelivery_remoteChannelId (s : Session) (r : Ref) (l : Rcv) (id : UInt32) (t : Transfer) : (s.startDelivery r l id t).remoteChannelId = s.remoteChannelId := by
  unfold startDelivery newRcv
  dsimp only
  split
  · simp
  · split <;> simp
@[simp] theorem startDelivery_nextIncomingId (s : Session) (r : Ref) (l : Rcv) (id : UInt32) (t : Transfer) : (s.startDelivery r l id t).nextIncomingId = s.nextIncomingId := by
  unfold startDelivery newRcv
  dsimp only
  split
  · simp
  · split <;> simp
@[simp] theorem startDelivery_remoteOutgoingWindow (s : Session) (r : Ref) (l : Rcv) (id : UInt32) (t : Transfer) : (s.startDelivery r l id t).remoteOutgoingWindow = s.remoteOutgoingWindow := by
  unfold startDelivery newRcv
  dsimp only
  split
  · simp
  · split <;> simp
@[simp] theorem startDelivery_remoteIncomingWindow (s : Session) (r : Ref) (l : Rcv) (id : UInt32) (t : Transfer) : (s.startDelivery r l id t).remoteIncomingWindow = s.remoteIncomingWindow := by
  unfold startDelivery newRcv
  dsimp only
  split
  · simp
  · split <;> simp
@[simp] theorem startDelivery_links (s : Session) (r : Ref) (l : Rcv) (id : UInt32) (t : Transfer) : (s.startDelivery r l id t).links = s.links := by
  unfold startDelivery newRcv
  dsimp only
  split
  · simp
  · split <;> simp
@[simp] theorem startDelivery_linksByName (s : Session) (r : Ref) (l : Rcv) (id : UInt32) (t : Transfer) : (s.startDelivery r l id t).linksByName = s.linksByName := by
  unfold startDelivery newRcv
  dsimp only
  split
  · simp
  · split <;> simp
@[simp] theorem startDelivery_remoteHandles (s : Session) (r : Ref) (l : Rcv) (id : UInt32) (t : Transfer) : (s.startDelivery r l id t).remoteHandles = s.remoteHandles := by
  unfold startDelivery newRcv
  dsimp only
  split
  · simp
  · split <;> simp
@[simp] theorem startDelivery_error (s : Session) (r : Ref) (l : Rcv) (id : UInt32) (t : Transfer) : (s.startDelivery r l id t).error = s.error := by
  unfold startDelivery newRcv
  dsimp only
  split
  · simp
  · split <;> simp
@[simp] theorem startDelivery_pendingTransfers (s : Session) (r : Ref) (l : Rcv) (id : UInt32) (t : Transfer) : (s.startDelivery r l id t).pendingTransfers = s.pendingTransfers := by
  unfold startDelivery newRcv
  dsimp only
  split
  · simp
  · split <;> simp
@[simp] theorem startDelivery_unsettledSnd (s : Session) (r : Ref) (l : Rcv) (id : UInt32) (t : Transfer) : (s.startDelivery r l id t).unsettledSnd = s.unsettledSnd := by
  unfold startDelivery newRcv
  dsimp only
  split
  · simp
  · split <;> simp
@[simp] theorem startDelivery_snds (s : Session) (r : Ref) (l : Rcv) (id : UInt32) (t : Transfer) : (s.startDelivery r l id t).snds = s.snds := by
  unfold startDelivery newRcv
  dsimp only
  split
  · simp
  · split <;> simp
@[simp] theorem startDelivery_sends (s : Session) (r : Ref) (l : Rcv) (id : UInt32) (t : Transfer) : (s.startDelivery r l id t).sends = s.sends := by
  unfold startDelivery newRcv
  dsimp only
  split
  · simp
  · split <;> simp
@[simp] theorem startDelivery_ops (s : Session) (r : Ref) (l : Rcv) (id : UInt32) (t : Transfer) : (s.startDelivery r l id t).ops = s.ops := by
  unfold startDelivery newRcv
  dsimp only
  split
  · simp
  · split <;> simp
@[simp] theorem startDelivery_todo (s : Session) (r : Ref) (l : Rcv) (id : UInt32) (t : Transfer) : (s.startDelivery r l id t).todo = s.todo := by
  unfold startDelivery newRcv
  dsimp only
  split
  · simp
  · split <;> simp
@[simp] theorem startDelivery_log (s : Session) (r : Ref) (l : Rcv) (id : UInt32) (t : Transfer) : (s.startDelivery r l id t).log = s.log := by
  unfold startDelivery newRcv
  dsimp only
  split
  · simp
  · split <;> simp
@[simp] theorem emit_id (s : Session) (t : Ref) (req : SendReq) (h : UInt32) (tag : Bytes) : (s.emit t req h tag).id = s.id := by
  unfold emit
  dsimp only
  split
  · simp
  · split <;> simp
@[simp] theorem emit_isLocal (s : Session) (t : Ref) (req : SendReq) (h : UInt32) (tag : Bytes) : (s.emit t req h tag).isLocal = s.isLocal := by
  unfold emit
  dsimp only
  split
  · simp
  · split <;> simp
@[simp] theorem emit_ended (s : Session) (t : Ref) (req : SendReq) (h : UInt32) (tag : Bytes) : (s.emit t req h tag).ended = s.ended := by
  unfold emit
  dsimp only
  split
  · simp
  · split <;> simp
@[simp] theorem emit_ending (s : Session) (t : Ref) (req : SendReq) (h : UInt32) (tag : Bytes) : (s.emit t req h tag).ending = s.ending := by
  unfold emit
  dsimp only
  split
  · simp
  · split <;> simp
@[simp] theorem emit_maxFrameSize (s : Session) (t : Ref) (req : SendReq) (h : UInt32) (tag : Bytes) : (s.emit t req h tag).maxFrameSize = s.maxFrameSize := by
  unfold emit
  dsimp only
  split
  · simp
  · split <;> simp
@[simp] theorem emit_remoteChannelId (s : Session) (t : Ref) (req : SendReq) (h : UInt32) (tag : Bytes) : (s.emit t req h tag).remoteChannelId = s.remoteChannelId := by
  unfold emit
  dsimp only
  split
  · simp
  · split <;> simp
@[simp] theorem emit_nextIncomingId (s : Session) (t : Ref) (req : SendReq) (h : UInt32) (tag : Bytes) : (s.emit t req h tag).nextIncomingId = s.nextIncomingId := by
  unfold emit
  dsimp only
  split
  · simp
  · split <;> simp
@[simp] theorem emit_remoteOutgoingWindow (s : Session) (t : Ref) (req : SendReq) (h : UInt32) (tag : Bytes) : (s.emit t req h tag).remoteOutgoingWindow = s.remoteOutgoingWindow := by
  unfold emit
  dsimp only
  split
  · simp
  · split <;> simp
@[simp] theorem emit_links (s : Session) (t : Ref) (req : SendReq) (h : UInt32) (tag : Bytes) : (s.emit t req h tag).links = s.links := by
  unfold emit
  dsimp only
  split
  · simp
  · split <;> simp
@[simp] theorem emit_linksByName (s : Session) (t : Ref) (req : SendReq) (h : UInt32) (tag : Bytes) : (s.emit t req h tag).linksByName = s.linksByName := by
  unfold emit
  dsimp only
  split
  · simp
  · split <;> simp
@[simp] theorem emit_remoteHandles (s : Session) (t : Ref) (req : SendReq) (h : UInt32) (tag : Bytes) : (s.emit t req h tag).remoteHandles = s.remoteHandles := by
  unfold emit
  dsimp only
  split
  · simp
  · split <;> simp
@[simp] theorem emit_error (s : Session) (t : Ref) (req : SendReq) (h : UInt32) (tag : Bytes) : (s.emit t req h tag).error = s.error := by
  unfold emit
  dsimp only
  split
  · simp
  · split <;> simp
@[simp] theorem emit_pendingTransfers (s : Session) (t : Ref) (req : SendReq) (h : UInt32) (tag : Bytes) : (s.emit t req h tag).pendingTransfers = s.pendingTransfers := by
  unfold emit
  dsimp only
  split
  · simp
  · split <;> simp
@[simp] theorem emit_unsettledRcv (s : Session) (t : Ref) (req : SendReq) (h : UInt32) (tag : Bytes) : (s.emit t req h tag).unsettledRcv = s.unsettledRcv := by
  unfold emit
  dsimp only
  split
  · simp
  · split <;> simp
@[simp] theorem emit_snds (s : Session) (t : Ref) (req : SendReq) (h : UInt32) (tag : Bytes) : (s.emit t req h tag).snds = s.snds := by
  unfold emit
  dsimp only
  split
  · simp
  · split <;> simp
@[simp] theorem emit_rcvs (s : Session) (t : Ref) (req : SendReq) (h : UInt32) (tag : Bytes) : (s.emit t req h tag).rcvs = s.rcvs := by
  unfold emit
  dsimp only
  split
  · simp
  · split <;> simp
@[simp] theorem emit_ops (s : Session) (t : Ref) (req : SendReq) (h : UInt32) (tag : Bytes) : (s.emit t req h tag).ops = s.ops := by
  unfold emit
  dsimp only
  split
  · simp
  · split <;> simp
@[simp] theorem emit_todo (s : Session) (t : Ref) (req : SendReq) (h : UInt32) (tag : Bytes) : (s.emit t req h tag).todo = s.todo := by
  unfold emit
  dsimp only
  split
  · simp
  · split <;> simp

end Amqp.Rt.Session
