import Verif.Model.Basic
import Verif.Model.Prim
import Verif.Model.Variant
import Verif.Model.Compound
import Verif.Model.Composite
import Verif.Model.Enums
import Verif.Model.Structs
import Verif.Model.Message
import Verif.Model.Frame
import Verif.Model.Io
import Verif.Spec.Codec
import Verif.Spec.Compound
import Verif.Spec.Composite
import Verif.Spec.Structs
import Verif.Spec.Message
import Verif.Spec.Frame
import Verif.Spec.Claims
import Verif.Spec.CompositeClaims
import Verif.Lemmas.Dec
import Verif.Lemmas.Prim
import Verif.Lemmas.Variant
import Verif.Lemmas.Compound
import Verif.Lemmas.Composite
import Verif.Lemmas.Structs
import Verif.Lemmas.Message
import Verif.Lemmas.Frame
import Verif.Lemmas.Io
import Verif.Lemmas.Claims
import Verif.Lemmas.CompositeClaims
import Verif.Props.Codec
import Verif.Props.Composite
import Verif.Props.Frame
import Verif.Props.Message
import Verif.Spec.Panic
import Verif.Lemmas.Panic
import Verif.Lemmas.PanicStructs
import Verif.Props.Panic
import Verif.Model.Runtime
import Verif.Model.Session
import Verif.Model.SessionStep
import Verif.Spec.Session
import Verif.Lemmas.SessionFields
import Verif.Lemmas.SessionMicro
import Verif.Lemmas.SessionInv
import Verif.Lemmas.Runtime
import Verif.Lemmas.SessionGet
import Verif.Lemmas.SessionCredit
import Verif.Lemmas.SessionTask
import Verif.Lemmas.SessionSent
import Verif.Lemmas.Transfer
import Verif.Spec.Examples
import Verif.Props.Sending
import Verif.Lemmas.SessionDlv
import Verif.Lemmas.SessionDisp
import Verif.Lemmas.SessionWait
import Verif.Lemmas.SessionWaitInv
import Verif.Lemmas.SessionWaitOk
import Verif.Lemmas.SessionSettle
import Verif.Props.Deliveries
import Verif.Lemmas.SessionBlocked
import Verif.Props.Blocked
import Verif.Lemmas.SessionRcv
import Verif.Lemmas.SessionTake
import Verif.Props.Receiving
import Verif.Lemmas.SessionRoute
import Verif.Props.Routing
import Verif.Props.Detaching
import Verif.Lemmas.SessionError
import Verif.Lemmas.Connection
import Verif.Lemmas.ConnectionInv
import Verif.Lemmas.ConnectionStep
import Verif.Lemmas.ConnectionLog
import Verif.Spec.Connection
import Verif.Props.Connections
import Verif.Props.ConnectionWitnesses
import Verif.Model.Handshake
import Verif.Spec.Handshake
import Verif.Lemmas.Handshake
import Verif.Props.Handshake
import Verif.Props.HandshakeWitnesses
import Verif.Props.HandshakeDuplex
import Verif.Spec.Standard
import Verif.Lemmas.Utf8
import Verif.Lemmas.Standard
import Verif.Lemmas.StandardTree
import Verif.Lemmas.StandardEnc
import Verif.Props.Standard
import Verif.Lemmas.SessionLog
import Verif.Lemmas.SessionFlow
import Verif.Props.Flows
import Verif.Props.Notices
import Verif.Spec.StandardTypes
import Verif.Lemmas.StandardTypes
import Verif.Props.StandardTypes
import Verif.Props.StandardMessages
import Verif.Model.Router
import Verif.Lemmas.SessionOwn
import Verif.Lemmas.SessionTodo
import Verif.Lemmas.Router
import Verif.Lemmas.RouterOffer
import Verif.Spec.Router
import Verif.Lemmas.RouterTrace
import Verif.Lemmas.RouterOwn
import Verif.Props.Router
import Verif.Lemmas.SessionFault
import Verif.Props.Crash
import Verif.Lemmas.SessionArrive
import Verif.Spec.Accepting
import Verif.Lemmas.SessionRelink
import Verif.Lemmas.SessionAccept
import Verif.Props.Limits
import Verif.Props.Accept
import Verif.Spec.Serving
import Verif.Lemmas.RouterServe
import Verif.Props.RouterServe
import Verif.Model.Pair
import Verif.Spec.Pair
import Verif.Lemmas.SessionGrant
import Verif.Lemmas.SessionPeer
import Verif.Lemmas.Pair
import Verif.Lemmas.PairCredit
import Verif.Lemmas.PairTake
import Verif.Props.Pair
import Verif.Model.Builder
import Verif.Spec.Attach
import Verif.Lemmas.SessionAttach
import Verif.Props.Attach
import Verif.Props.Closing
import Verif.Spec.Lifetime
import Verif.Lemmas.SessionLife
import Verif.Lemmas.SessionShip
import Verif.Lemmas.SessionLive
import Verif.Props.Lifetime
import Verif.Model.KeepAlive
import Verif.Props.KeepAlive
import Verif.Spec.Outcome
import Verif.Lemmas.PairSettle
import Verif.Props.Outcome
import Verif.Spec.Memory
import Verif.Spec.MemoryStructs
import Verif.Lemmas.Memory
import Verif.Lemmas.MemoryStructs
import Verif.Lemmas.MemoryStream
import Verif.Props.Memory
import Verif.Model.Net
import Verif.Spec.Net
import Verif.Lemmas.SessionEnding
import Verif.Lemmas.NetWire
import Verif.Lemmas.NetSide
import Verif.Lemmas.Net
import Verif.Lemmas.NetStep
import Verif.Props.Net
import Verif.Model.Dispatcher
import Verif.Spec.Dispatcher
import Verif.Lemmas.Dispatcher
import Verif.Lemmas.DispatcherInv
import Verif.Props.Dispatcher
import Verif.Spec.StandardWrite
import Verif.Lemmas.StandardWrite
import Verif.Props.StandardWritten
import Verif.Spec.Posted
import Verif.Lemmas.Posted
import Verif.Lemmas.SessionTalk
import Verif.Lemmas.SessionSaid
import Verif.Lemmas.SessionFit
import Verif.Lemmas.ConnectionFit
import Verif.Props.Posted
import Verif.Model.Errors
import Verif.Spec.Errors
import Verif.Props.Errors
import Verif.Model.Stream
import Verif.Spec.Stream
import Verif.Lemmas.Stream
import Verif.Props.Stream
import Verif.Model.EndToEnd
import Verif.Spec.EndToEnd
import Verif.Lemmas.EndToEnd
import Verif.Props.EndToEnd
import Verif.Model.Serve
import Verif.Spec.Serve
import Verif.Lemmas.Serve
import Verif.Props.Serve
import Verif.Spec.Defaults
import Verif.Lemmas.Defaults
import Verif.Props.Defaults
import Verif.Spec.Requests
import Verif.Lemmas.SessionOps
import Verif.Lemmas.ConnectionOps
import Verif.Props.Requests
import Verif.Spec.Window
import Verif.Lemmas.SessionWindow
import Verif.Lemmas.PairWindow
import Verif.Props.Window
import Verif.Model.Wake
import Verif.Spec.Wake
import Verif.Lemmas.SessionSleep
import Verif.Props.Wake
import Verif.Spec.HandshakeWhy
import Verif.Lemmas.HandshakeWhy
import Verif.Props.HandshakeWhy
import Verif.Model.Incoming
import Verif.Spec.Incoming
import Verif.Lemmas.Incoming
import Verif.Props.Incoming
import Verif.Model.Tending
import Verif.Lemmas.Tending
import Verif.Props.Tending
import Verif.Model.Credit
import Verif.Lemmas.CreditWait
import Verif.Props.Credit
import Verif.Model.EndSession
import Verif.Lemmas.EndSession
import Verif.Props.EndSession
import Verif.Model.Observe
import Verif.Lemmas.Observe
import Verif.Props.Observe
import Verif.Model.Values
import Verif.Props.Values
import Verif.Model.Reading
import Verif.Props.Reading
import Verif.Props.Credentials
import Verif.Model.Config
import Verif.Props.Config
import Verif.Model.DescribedList
import Verif.Props.DescribedList
import Verif.Model.Comparisons
import Verif.Props.Comparisons
import Verif.Model.Diagnostics
import Verif.Props.Diagnostics
import Verif.Model.Wrapper
import Verif.Props.Wrapper
