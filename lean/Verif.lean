import Verif.Go.Bytes
import Verif.Go.Num
import Verif.Go.Utf8
import Verif.Go.Text
import Verif.Go.Json
import Verif.Go.JsonLemmas
import Verif.Ndt5.Protocol
import Verif.Ndt5.ProtocolLemmas
import Verif.Props.Messages
import Verif.Go.Outcome
import Verif.Ndt5.Login
import Verif.Ndt5.NetConn
import Verif.Spec.Login
import Verif.Spec.Segments
import Verif.Ndt5.LoginLemmas
import Verif.Ndt5.NetConnLemmas
import Verif.Props.Login
import Verif.Props.NetConn
import Verif.Go.Float
import Verif.Go.FloatLemmas
import Verif.Go.Prog
import Verif.Go.Trim
import Verif.Ndt5.Control
import Verif.Ndt5.Download
import Verif.Ndt5.DownloadLemmas
import Verif.Ndt5.LocalLemmas
import Verif.Ndt5.Meta
import Verif.Ndt5.MetaLemmas
import Verif.Ndt5.ScriptLemmas
import Verif.Ndt5.SendLemmas
import Verif.Ndt5.SendMetrics
import Verif.Ndt5.Upload
import Verif.Ndt5.UploadLemmas
import Verif.Ndt5.WP
import Verif.Ndt5.World
import Verif.Spec.Download
import Verif.Spec.Meta
import Verif.Spec.Script
import Verif.Spec.Ndt5Names
import Verif.Spec.Session
import Verif.Ndt5.RateLemmas
import Verif.Props.Download
import Verif.Props.Meta
import Verif.Props.SendMetrics
import Verif.Props.Upload
import Verif.Ndt5.ControlParts
import Verif.Ndt5.DirRun
import Verif.Ndt5.FootLemmas
import Verif.Ndt5.PartLemmas
import Verif.Ndt5.RecordLemmas
import Verif.Ndt5.SessionParts
import Verif.Ndt5.SuiteFacts
import Verif.Ndt5.SuiteLemmas
import Verif.Ndt5.SuiteParts
import Verif.Ndt5.SuiteRun
import Verif.Spec.SessionScript
import Verif.Spec.Control
import Verif.Ndt5.WholeLemmas
import Verif.Ndt5.WholeScript
import Verif.Ndt5.WholeOrder
import Verif.Spec.Archive
import Verif.Ndt5.WholeRecord
import Verif.Props.Session
import Verif.Props.Archive
import Verif.Spec.Labels
import Verif.Props.Labels
import Verif.Go.LTS
import Verif.Ndt5.Web100
import Verif.Spec.Web100
import Verif.Props.Web100
import Verif.Props.Measurer
import Verif.Ndt5.SingleServing
import Verif.Props.SingleServing
import Verif.Netx.Info
import Verif.Netx.Conn
import Verif.Props.Netx
import Verif.Ndt5.Fill
import Verif.Props.Fill
import Verif.Ndt5.RawPort
import Verif.Props.RawPort
import Verif.Ndt7.Types
import Verif.Ndt7.Results
import Verif.Ndt7.Handler
import Verif.Ndt7.WP
import Verif.Spec.Ndt7Names
import Verif.Spec.Ndt7
import Verif.Ndt7.HandlerLemmas
import Verif.Props.Ndt7Handler
import Verif.Props.Ndt7Rates
import Verif.Go.Script
import Verif.Ndt7.Sender
import Verif.Props.Ndt7Sender
import Verif.Ndt7.Ping
import Verif.Props.Ndt7Ping
import Verif.Ndt7.Receiver
import Verif.Props.Ndt7Receiver
import Verif.Ndt7.Measurer
import Verif.Props.Ndt7Measurer
import Verif.Ndt7.Subtest
import Verif.Props.Ndt7Subtest
import Verif.Go.Time
import Verif.Spec.Ndt7Files
import Verif.Ndt7.FilesLemmas
import Verif.Ndt7.FilesInv
import Verif.Props.Ndt7Files
import Verif.Spec.Ndt5Files
import Verif.Ndt5.FilesLemmas
import Verif.Ndt5.FilesInv
import Verif.Props.Ndt5Files
import Verif.Main.Signal
import Verif.Props.Signal
import Verif.Main.Config
import Verif.Props.Config
import Verif.Data.Schema
import Verif.Props.Schema
import Verif.Spec.Timing
import Verif.Ndt5.CountLemmas
import Verif.Props.Timing
import Verif.Spec.Ndt7Timing
import Verif.Props.Ndt7Timing
import Verif.Go.JsonTree
import Verif.Go.Rfc3339
import Verif.Go.Marshal
import Verif.Spec.Wire
import Verif.Go.MarshalLemmas
import Verif.Go.MarshalTimes
import Verif.Ndt7.Wire
import Verif.Spec.Ndt7Wire
import Verif.Ndt7.WireLemmas
import Verif.Ndt7.ExitLemmas
import Verif.Props.Wire
import Verif.Spec.SchemaLoad
import Verif.Props.SchemaLoad
import Verif.Ndt5.Wire
import Verif.Spec.Ndt5Wire
import Verif.Props.Ndt5Wire
import Verif.Spec.Names
import Verif.Spec.Json
import Verif.Spec.Decimal
import Verif.Spec.Calendar
import Verif.Spec.TimeText
import Verif.Go.NamesLemmas
import Verif.Go.JsonGrammar
import Verif.Go.JsonParse
import Verif.Go.DecimalLemmas
import Verif.Go.TimeTextLemmas
import Verif.Spec.ClientView
import Verif.Props.ClientView
import Verif.Spec.Query
import Verif.Spec.Documents
import Verif.Go.Query
import Verif.Go.QueryLemmas
import Verif.Go.JsonShape
import Verif.Props.Query
import Verif.Props.Documents
import Verif.Spec.ClientMessage
import Verif.Go.JsonEq
import Verif.Go.MembersLemmas
import Verif.Props.ClientMessage
import Verif.Go.FloatRound
import Verif.Spec.Float
import Verif.Go.FloatSpec
import Verif.Spec.Ndt5Env
import Verif.Props.Ndt5Whole
import Verif.Props.Ndt7Whole
import Verif.Ndt7.Test
import Verif.Props.Ndt7Test
import Verif.Props.Ndt7TestFile
import Verif.Props.Ndt7Times
import Verif.Props.Times
import Verif.Spec.GoodSession
import Verif.Ndt5.GoodLemmas
import Verif.Ndt5.GoodReplies
import Verif.Props.GoodSession
import Verif.Main.Listener
import Verif.Props.Listener
import Verif.Spec.GoodTest
import Verif.Spec.GoodRequest
import Verif.Ndt7.GoodLemmas
import Verif.Props.GoodTest
import Verif.Spec.SharedDisk
import Verif.Props.SharedDisk
import Verif.Go.Path
import Verif.Spec.Path
import Verif.Go.PathLemmas
import Verif.Props.Paths
import Verif.Spec.Totals
import Verif.Ndt5.ServerShape
import Verif.Ndt7.CounterShape
import Verif.Props.Totals
import Verif.Web.Ndt5Client
import Verif.Web.ReadLemmas
import Verif.Spec.Browser
import Verif.Web.StageLemmas
import Verif.Web.PhaseLemmas
import Verif.Web.StepLemmas
import Verif.Web.PlayLemmas
import Verif.Props.Browser
import Verif.Web.Ndt7Upload
import Verif.Web.Ndt7Download
import Verif.Web.Ndt7Main
import Verif.Ndt7.ReadLimit
import Verif.Spec.Ndt7Page
import Verif.Spec.Ndt7Main
import Verif.Props.Ndt7Page
import Verif.Props.Ndt7PageDown
import Verif.Props.Ndt7Main
import Verif.Web.Ndt7Urls
import Verif.Spec.Ndt7Urls
import Verif.Props.Ndt7Urls
import Verif.Web.Ndt7Html
import Verif.Spec.Ndt7Html
import Verif.Props.Ndt7Html
import Verif.Web.Ndt5Widget
import Verif.Spec.Ndt5Widget
import Verif.Props.Ndt5Widget
import Verif.Web.Places
import Verif.Spec.Places
import Verif.Props.Places
import Verif.Ndt7.Pacing
import Verif.Props.Ndt7Pacing
import Verif.Web.Discovery
import Verif.Spec.Discovery
import Verif.Props.Discovery
import Verif.Main.Registry
import Verif.Spec.Metrics
import Verif.Props.Metrics
import Verif.Go.Handshake
import Verif.Spec.Handshake
import Verif.Props.Handshake
import Verif.Go.FloatText
import Verif.Spec.FloatText
import Verif.Props.FloatText
import Verif.Ndt5.OtherSystems
import Verif.Spec.OtherSystems
import Verif.Props.OtherSystems
import Verif.Props.Pings
import Verif.Ndt7.MonitorLemmas
import Verif.Props.Monitoring
