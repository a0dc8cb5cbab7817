import Verif.Model.Session
/-!
# The link builders

The attach frames `Session::build_sender_link` and `build_receiver_link` start from.  `with_frame` and
`ReceiverLinkBuilder::property` are not modelled: the steps `attachSender` and `attachReceiver` take any frame.
-/

namespace Amqp.Rt

/-- `SenderLinkBuilder::new` (sndlink.rs:425-452). -/
def senderBuilder (name address : Str) : Attach :=
  { name, handle := 0, role := .sender, sndSettleMode := .mixed, rcvSettleMode := .first, source := none
    target := some { address := some address, durable := .none, expiryPolicy := .sessionEnd, timeout := 0, dynamic := false,
                     dynamicNodeProperties := none, capabilities := none }
    unsettled := none, incompleteUnsettled := false, initialDeliveryCount := none, maxMessageSize := some 262144
    offeredCapabilities := none, desiredCapabilities := none, properties := none }

/-- `ReceiverLinkBuilder::new` (rcvlink.rs:487-515). -/
def receiverBuilder (name address : Str) : Attach :=
  { name, handle := 0, role := .receiver, sndSettleMode := .mixed, rcvSettleMode := .first
    source := some { address := some address, durable := .none, expiryPolicy := .sessionEnd, timeout := 0, dynamic := false,
                     dynamicNodeProperties := none, distributionMode := none, filter := none, defaultOutcome := none,
                     outcomes := none, capabilities := none }
    target := none, unsettled := none, incompleteUnsettled := false, initialDeliveryCount := none
    maxMessageSize := some 262144, offeredCapabilities := none, desiredCapabilities := none, properties := none }

/-- `max_message_size` of both builders (sndlink.rs:456-460, rcvlink.rs:519-522). -/
def withMaxMessageSize (frame : Attach) (size : UInt64) : Attach := { frame with maxMessageSize := some size }

/-- `ReceiverLinkBuilder::capabilities` (rcvlink.rs:545-548): `None` if the frame has no source, which panics. -/
def withCapabilities (frame : Attach) (caps : Multiple Symbol) : Option Attach :=
  frame.source.map fun src => { frame with source := some { src with capabilities := some caps } }

end Amqp.Rt
