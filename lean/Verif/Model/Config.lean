import Verif.Model.Handshake
import Verif.Model.KeepAlive
/-!
# Configuration

The builder methods of `AmqpServiceConfig` and the view `RemoteServiceConfig` of the peer's configuration (src/lib.rs).
-/

namespace Amqp.Hs

/-- `AmqpServiceConfig::new` (lib.rs:105-117). -/
def Cfg.fresh : Cfg :=
  { maxFrameSize := 65535, channelMax := 1024, idleTimeOut := 120000, hostname := none, offeredCapabilities := none,
    desiredCapabilities := none, maxSize := 0 }

/-- A call of a builder method. -/
inductive Setting where
  | channelMax (num : UInt16)
  | maxFrameSize (size : UInt32)
  | idleTimeout (seconds : UInt16)
  | hostname (h : Str)
  | offeredCapabilities (caps : Multiple Symbol)
  | desiredCapabilities (caps : Multiple Symbol)
  | maxSize (size : Nat)

/-- The builder methods (lib.rs:125-185).  `Milliseconds` is `u32`; the product is checked. -/
def Cfg.set (c : Cfg) : Setting → Cfg
  | .channelMax num => { c with channelMax := num }
  | .maxFrameSize size => { c with maxFrameSize := size }
  | .idleTimeout timeout => { c with idleTimeOut := timeout.toUInt32 * 1000 }
  | .hostname h => { c with hostname := some h }
  | .offeredCapabilities caps => { c with offeredCapabilities := some caps }
  | .desiredCapabilities caps => { c with desiredCapabilities := some caps }
  | .maxSize size => { c with maxSize := size }

/-- `get_offered_capabilities`, `get_desired_capabilities` (lib.rs:196-212). -/
def capList : Option (Multiple Symbol) → List Symbol
  | some caps => caps.items
  | none => []

/-- `RemoteServiceConfig` (lib.rs:74-83). -/
structure RemoteCfg where
  maxFrameSize : UInt32
  channelMax : UInt16
  idleTimeOut : UInt32
  hostname : Option Str
  offeredCapabilities : Option (Multiple Symbol)
  desiredCapabilities : Option (Multiple Symbol)

/-- `RemoteServiceConfig::new` (lib.rs:231-240). -/
def RemoteCfg.new (o : Open) : RemoteCfg :=
  { maxFrameSize := o.maxFrameSize, channelMax := o.channelMax, idleTimeOut := o.idleTimeOut.getD 0,
    hostname := o.hostname, offeredCapabilities := o.offeredCapabilities, desiredCapabilities := o.desiredCapabilities }

end Amqp.Hs
