import Verif.Axioms
import Verif.Basic.Amqp
import Verif.Basic.GMap
import Verif.Basic.Res
import Verif.Model.Alias
import Verif.Model.Alive
import Verif.Model.Backoff
import Verif.Model.Base
import Verif.Model.Client
import Verif.Model.CmdLine
import Verif.Model.Compare
import Verif.Model.ConnectText
import Verif.Model.Container
import Verif.Model.ContainerMu
import Verif.Model.Ctx
import Verif.Model.Discovered
import Verif.Model.Discovery
import Verif.Model.Encoding
import Verif.Model.FieldTypes
import Verif.Model.Fixture
import Verif.Model.FixtureServer
import Verif.Model.FixtureStore
import Verif.Model.IndexedMap
import Verif.Model.Json
import Verif.Model.JsonText
import Verif.Model.Keepalive
import Verif.Model.Locks
import Verif.Model.LogOnly
import Verif.Model.LogText
import Verif.Model.Manager
import Verif.Model.Messages
import Verif.Model.Mock
import Verif.Model.PerSource
import Verif.Model.Records
import Verif.Model.RecvLoop
import Verif.Model.Replay
import Verif.Model.Rfc3339
import Verif.Model.Routes
import Verif.Model.Serve
import Verif.Model.Starts
import Verif.Model.Store
import Verif.Model.StoreThreads
import Verif.Model.StructTag
import Verif.Model.Time
import Verif.Model.Token
import Verif.Model.ToolMain
import Verif.Model.ToolServer
import Verif.Model.Vancap
import Verif.Model.VancapForward
import Verif.Model.WaitGroup
import Verif.Model.Watch
import Verif.Model.WatchTimed
import Verif.Model.Wire
import Verif.Proofs.Accumulate
import Verif.Proofs.Calendar
import Verif.Proofs.Container
import Verif.Proofs.ContainerMu
import Verif.Proofs.Diff
import Verif.Proofs.Encoding
import Verif.Proofs.FixtureServer
import Verif.Proofs.IndexedMap
import Verif.Proofs.Json
import Verif.Proofs.JsonText
import Verif.Proofs.Locks
import Verif.Proofs.Merge
import Verif.Proofs.Mock
import Verif.Proofs.Pipeline
import Verif.Proofs.RecvLoop
import Verif.Proofs.Registry
import Verif.Proofs.Rfc3339
import Verif.Proofs.Sort
import Verif.Proofs.Store
import Verif.Proofs.Time
import Verif.Proofs.Token
import Verif.Proofs.Wire
import Verif.Props.AcceptSame
import Verif.Props.Accumulate
import Verif.Props.Alias
import Verif.Props.Alive
import Verif.Props.Announce
import Verif.Props.Backoff
import Verif.Props.Base
import Verif.Props.Capture
import Verif.Props.Changed
import Verif.Props.Client
import Verif.Props.CmdLine
import Verif.Props.Coalesce
import Verif.Props.Collectors
import Verif.Props.CollectorsKept
import Verif.Props.Compare
import Verif.Props.ConnectText
import Verif.Props.Container
import Verif.Props.ContainerMu
import Verif.Props.Diff
import Verif.Props.Discovered
import Verif.Props.Discovery
import Verif.Props.Dispatch
import Verif.Props.Enabled
import Verif.Props.Encoding
import Verif.Props.EndToEnd
import Verif.Props.FieldTypes
import Verif.Props.FirstFlush
import Verif.Props.Fixture
import Verif.Props.FixtureServer
import Verif.Props.FlowList
import Verif.Props.Flush
import Verif.Props.FlushWrites
import Verif.Props.Forward
import Verif.Props.ForwardFlush
import Verif.Props.Hushed
import Verif.Props.Json
import Verif.Props.JsonText
import Verif.Props.Keepalive
import Verif.Props.Locks
import Verif.Props.LogOnly
import Verif.Props.LogText
import Verif.Props.LoopEnds
import Verif.Props.Manager
import Verif.Props.Messages
import Verif.Props.Mock
import Verif.Props.MockLost
import Verif.Props.PerSource
import Verif.Props.Pipeline
import Verif.Props.Progress
import Verif.Props.Publish
import Verif.Props.Reconnect
import Verif.Props.RecvLoop
import Verif.Props.Release
import Verif.Props.Replay
import Verif.Props.Request
import Verif.Props.Resync
import Verif.Props.Routes
import Verif.Props.Selector
import Verif.Props.SendError
import Verif.Props.Serve
import Verif.Props.Sound
import Verif.Props.Starts
import Verif.Props.Stop
import Verif.Props.Store
import Verif.Props.StructTag
import Verif.Props.Threads
import Verif.Props.Time
import Verif.Props.ToolMain
import Verif.Props.ToolServer
import Verif.Props.Vancap
import Verif.Props.VancapForward
import Verif.Props.WaitGroup
import Verif.Props.Watch
import Verif.Props.WatchTimed
import Verif.Props.Wire
import Verif.Spec.Alias
import Verif.Spec.Alive
import Verif.Spec.Amqp
import Verif.Spec.Announce
import Verif.Spec.Backoff
import Verif.Spec.Calendar
import Verif.Spec.Changed
import Verif.Spec.Client
import Verif.Spec.CmdLine
import Verif.Spec.Coalesce
import Verif.Spec.Collectors
import Verif.Spec.ConnectText
import Verif.Spec.Container
import Verif.Spec.Discovered
import Verif.Spec.Discovery
import Verif.Spec.Dispatch
import Verif.Spec.Encoding
import Verif.Spec.EndToEnd
import Verif.Spec.FieldTypes
import Verif.Spec.FirstFlush
import Verif.Spec.Fixture
import Verif.Spec.FixtureServer
import Verif.Spec.Json
import Verif.Spec.JsonText
import Verif.Spec.Keepalive
import Verif.Spec.Locks
import Verif.Spec.LogOnly
import Verif.Spec.LogText
import Verif.Spec.Manager
import Verif.Spec.Mock
import Verif.Spec.PerSource
import Verif.Spec.Pipeline
import Verif.Spec.Progress
import Verif.Spec.Reconnect
import Verif.Spec.RecvLoop
import Verif.Spec.Replay
import Verif.Spec.Request
import Verif.Spec.Resync
import Verif.Spec.Routes
import Verif.Spec.Serve
import Verif.Spec.Stop
import Verif.Spec.Store
import Verif.Spec.StructTag
import Verif.Spec.Told
import Verif.Spec.ToolMain
import Verif.Spec.ToolServer
import Verif.Spec.Vancap
import Verif.Spec.VancapForward
import Verif.Spec.Watch
import Verif.Spec.Wire
