import Verif.Py
import Verif.PyLemmas
import Verif.Model.Framing
import Verif.Spec.Framing
import Verif.Proof.Framing
import Verif.Props.Framing
import Verif.Model.Hello
import Verif.Proof.Hello
import Verif.Spec.Hello
import Verif.Proof.HelloSpec
import Verif.Props.Hello
import Verif.Model.Xid
import Verif.Model.Server
import Verif.Props.Server
import Verif.Model.Controller
import Verif.Spec.Controller
import Verif.Proof.Controller
import Verif.Proof.Fields
import Verif.Props.Controller
import Verif.Proof.Outstanding
import Verif.Props.Outstanding
import Verif.Model.Sync
import Verif.Spec.Sync
import Verif.Proof.Sync
import Verif.Proof.SyncThreads
import Verif.Proof.SyncRun
import Verif.Proof.SyncMulti
import Verif.Props.Sync
import Verif.Model.Ports
import Verif.Spec.Wire
import Verif.Spec.Ports
import Verif.Proof.Ports
import Verif.Props.Ports
import Verif.Model.Chan
import Verif.Props.Chan
import Verif.Model.Threadlet
import Verif.Props.Threadlet
import Verif.Model.Parent
import Verif.Spec.Parent
import Verif.Props.Parent
import Verif.Model.Rate
import Verif.Spec.Rate
import Verif.Props.Rate
import Verif.Model.Of13Types
import Verif.Model.Of13Build
import Verif.Model.Of13Parse
import Verif.Spec.Of13
import Verif.Proof.Of13Basics
import Verif.Proof.Of13Actions
import Verif.Proof.Of13Msg
import Verif.Proof.Of13Records
import Verif.Proof.Of13Messages
import Verif.Proof.Of13Loop
import Verif.Spec.Of13Calls
import Verif.Props.Struct
import Verif.Props.Of13Header
import Verif.Proof.Of13Refute
import Verif.Props.Of13
import Verif.Spec.Of13Layout
import Verif.Proof.Of13Layout
import Verif.Props.Of13Layout
import Verif.Spec.Of13Fits
import Verif.Proof.Of13Fits
import Verif.Proof.Of13CallFits
import Verif.Props.Of13Fits
import Verif.Spec.Of14Fits
import Verif.Proof.Of14Fits
import Verif.Proof.Of14CallFits
import Verif.Props.Of14Fits
import Verif.Model.Oxm
import Verif.Spec.Oxm
import Verif.Props.Oxm
import Verif.Model.Ovs
import Verif.Spec.Ovs
import Verif.Props.Ovs
import Verif.Model.Agent
import Verif.Spec.Agent
import Verif.Proof.AgentParse
import Verif.Proof.AgentReply
import Verif.Proof.AgentPorts
import Verif.Props.Agent
import Verif.Props.AgentReply
import Verif.Props.AgentContents
import Verif.Props.AgentView
import Verif.Props.AgentOut
import Verif.Model.Of13Obj
import Verif.Proof.Of13Again
import Verif.Props.Of13Rebuild
import Verif.Spec.AgentFlows
import Verif.Props.AgentFlows
import Verif.Model.StreamServer
import Verif.Spec.StreamServer
import Verif.Props.StreamServer
import Verif.Model.Parallel
import Verif.Spec.Parallel
import Verif.Props.Parallel
import Verif.Props.RateCalls
import Verif.Props.RateLimit
import Verif.Props.ParallelAny
import Verif.Spec.ThreadOrder
import Verif.Props.ThreadOrder
import Verif.Spec.AfterClose
import Verif.Props.AfterClose
import Verif.Model.Sending
import Verif.Spec.Sending
import Verif.Props.Sending
import Verif.Spec.Of13Sizes
import Verif.Spec.Of14Sizes
import Verif.Props.Of13Sizes
import Verif.Props.Of14Sizes
import Verif.Props.Release
import Verif.Props.ReleaseExact
import Verif.Props.Bound
import Verif.Props.Wrap
import Verif.Props.WrapThreads
import Verif.Props.Gets
import Verif.Props.SelfTests
import Verif.Props.Mro
import Verif.Props.MroAccept
import Verif.Props.Layers
import Verif.Props.StreamMessages
import Verif.Props.Bitmap
import Verif.Props.Position
import Verif.Props.PortsCall
import Verif.Props.SyncSimple
import Verif.Props.Attach
import Verif.Model.Of14Types
import Verif.Model.Of14Build
import Verif.Model.Of14Parse
import Verif.Spec.Of14
import Verif.Spec.Of14Calls
import Verif.Proof.Of14Actions
import Verif.Proof.Of14Records
import Verif.Proof.Of14Messages
import Verif.Proof.Of14Refute
import Verif.Props.Of14Header
import Verif.Props.Of14
import Verif.Props.Of14Multipart
import Verif.Spec.Of14Loop
import Verif.Proof.Of14Loop
import Verif.Props.Of14Loop
import Verif.Spec.Of14Layout
import Verif.Proof.Of14Layout
import Verif.Props.Of14Layout
import Verif.Model.Enum
import Verif.Model.Consts
import Verif.Spec.Enum
import Verif.Spec.Consts
import Verif.Proof.Consts
import Verif.Props.Enum
import Verif.Props.Consts
import Verif.Model.Oxm14
import Verif.Spec.Oxm14
import Verif.Props.Oxm14
import Verif.Model.OfpTuple
import Verif.Spec.OfpTuple
import Verif.Props.OfpTuple
import Verif.Model.Helper
import Verif.Spec.Helper
import Verif.Props.Helper
import Verif.Model.Dgram
import Verif.Props.Dgram
import Verif.Model.Logging
import Verif.Spec.Logging
import Verif.Props.Logging
import Verif.Props.LogSent
import Verif.Model.Serve
import Verif.Model.Bound
import Verif.Model.Wrap
import Verif.Model.Gets
import Verif.Model.Mro
import Verif.Model.Layers
import Verif.Model.Bitmap
import Verif.Model.PortsCall
import Verif.Model.SyncSimple
import Verif.Model.Attach
import Verif.Props.Serve
import Verif.Model.Of14Obj
import Verif.Spec.Of14Again
import Verif.Proof.Of14Again
import Verif.Props.Of14Rebuild
import Verif.Model.Cord
import Verif.Spec.Cord
import Verif.Spec.CordView
import Verif.Proof.Cord
import Verif.Proof.CordFrames
import Verif.Proof.CordFlows
import Verif.Proof.CordUnique
import Verif.Proof.CordMore
import Verif.Props.Cord
import Verif.Model.Hub
import Verif.Spec.Hub
import Verif.Proof.Hub
import Verif.Props.Hub
import Verif.Model.Session
import Verif.Spec.Session
import Verif.Proof.Session
import Verif.Props.Session
import Verif.Spec.Reads
import Verif.Spec.Of13Reads
import Verif.Spec.Of14Reads
import Verif.Proof.Reads
import Verif.Proof.Of13Reads
import Verif.Proof.Of13Never
import Verif.Proof.Of14Reads
import Verif.Proof.Of14Msgs
import Verif.Proof.Of14Never
import Verif.Props.Of13Reads
import Verif.Props.Of14Reads
import Verif.Props.Exact
import Verif.Props.Exact2
import Verif.Props.Exact3
import Verif.Props.StreamExact
import Verif.Model.BessSide
import Verif.Spec.BessSide
import Verif.Proof.BessSide
import Verif.Props.BessSide
import Verif.Props.BessSide2
import Verif.Props.BessSide3
import Verif.Model.Wired
import Verif.Spec.Wired
import Verif.Proof.Wired
import Verif.Proof.WiredSwitches
import Verif.Proof.WiredRest
import Verif.Proof.WiredMute
import Verif.Props.Wired
import Verif.Props.WiredMulti
import Verif.Model.Rule2
import Verif.Spec.Rule2
import Verif.Proof.Rule2
import Verif.Props.Rule2
import Verif.Model.Race
import Verif.Spec.Race
import Verif.Proof.Race
import Verif.Props.Race
import Verif.Props.AgentExact
import Verif.Model.Life
import Verif.Spec.Life
import Verif.Proof.Life
import Verif.Props.Life
import Verif.Props.XidOverlap
import Verif.Spec.AgentSaid
import Verif.Props.AgentTold
import Verif.Props.PortsAny
import Verif.Props.SyncLeak
import Verif.Props.Rule2Wire
