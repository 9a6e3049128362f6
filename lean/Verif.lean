import Verif.Model.Accept
import Verif.Model.Auth
import Verif.Model.Broadcast
import Verif.Model.Chain
import Verif.Model.Client
import Verif.Model.ClientSession
import Verif.Model.Clock
import Verif.Model.Dump
import Verif.Model.Fetch
import Verif.Model.Flags
import Verif.Model.Frac
import Verif.Model.Go
import Verif.Model.Goroutines
import Verif.Model.Heap
import Verif.Model.Hub
import Verif.Model.Index
import Verif.Model.Json
import Verif.Model.JsonText
import Verif.Model.Log
import Verif.Model.Loop
import Verif.Model.LoopNet
import Verif.Model.MapRace
import Verif.Model.Metrics
import Verif.Model.Mon
import Verif.Model.MonGo
import Verif.Model.MonMetrics
import Verif.Model.MonSys
import Verif.Model.MonTime
import Verif.Model.Netip
import Verif.Model.Notify
import Verif.Model.Page
import Verif.Model.Parse
import Verif.Model.Pdu
import Verif.Model.Process
import Verif.Model.Races
import Verif.Model.Registry
import Verif.Model.SD
import Verif.Model.ServeMux
import Verif.Model.Settle
import Verif.Model.Setup
import Verif.Model.Slices
import Verif.Model.Slurm
import Verif.Model.Sort
import Verif.Model.Startup
import Verif.Model.Store
import Verif.Model.Text
import Verif.Model.Ticker
import Verif.Model.Time
import Verif.Model.Update
import Verif.Model.Writers
import Verif.Proofs.Auth
import Verif.Proofs.Bytes
import Verif.Proofs.Codec
import Verif.Proofs.DecodeBody
import Verif.Proofs.Diff
import Verif.Proofs.Float
import Verif.Proofs.FloatLit
import Verif.Proofs.FloatShort
import Verif.Proofs.Frac
import Verif.Proofs.Heap
import Verif.Proofs.HeapStore
import Verif.Proofs.History
import Verif.Proofs.Json
import Verif.Proofs.JsonExport
import Verif.Proofs.JsonPrint
import Verif.Proofs.JsonRepeat
import Verif.Proofs.JsonSound
import Verif.Proofs.JsonText
import Verif.Proofs.Log
import Verif.Proofs.Mon
import Verif.Proofs.MonPage
import Verif.Proofs.MonSys
import Verif.Proofs.Parse
import Verif.Proofs.ParseExact
import Verif.Proofs.ParsePrint
import Verif.Proofs.Process
import Verif.Proofs.Races
import Verif.Proofs.Router
import Verif.Proofs.Session
import Verif.Proofs.Slices
import Verif.Proofs.Sort
import Verif.Proofs.Store
import Verif.Proofs.Text
import Verif.Proofs.Time
import Verif.Proofs.Update
import Verif.Props.Accept
import Verif.Props.Accounting
import Verif.Props.Auth
import Verif.Props.BadPrefix
import Verif.Props.Bounds
import Verif.Props.Broadcast
import Verif.Props.Chain
import Verif.Props.ClientSession
import Verif.Props.Clock
import Verif.Props.Connection
import Verif.Props.Deadlock
import Verif.Props.Defaults
import Verif.Props.Diff
import Verif.Props.Documented
import Verif.Props.Dump
import Verif.Props.Durations
import Verif.Props.ErrorTexts
import Verif.Props.Errors
import Verif.Props.Exact
import Verif.Props.Exceptions
import Verif.Props.Fetch
import Verif.Props.FirstLoad
import Verif.Props.Flags
import Verif.Props.Goroutines
import Verif.Props.Heap
import Verif.Props.Hub
import Verif.Props.Identity
import Verif.Props.Index
import Verif.Props.Json
import Verif.Props.JsonExport
import Verif.Props.JsonRepeat
import Verif.Props.JsonText
import Verif.Props.Literals
import Verif.Props.Log
import Verif.Props.LogShown
import Verif.Props.Loop
import Verif.Props.LoopNet
import Verif.Props.MapRace
import Verif.Props.Metrics
import Verif.Props.Mon
import Verif.Props.MonFile
import Verif.Props.MonFiles
import Verif.Props.MonGo
import Verif.Props.MonMain
import Verif.Props.MonMetrics
import Verif.Props.MonRtr
import Verif.Props.MonServers
import Verif.Props.MonSys
import Verif.Props.MonTime
import Verif.Props.Moves
import Verif.Props.Notifies
import Verif.Props.Notify
import Verif.Props.Page
import Verif.Props.Process
import Verif.Props.Races
import Verif.Props.Registry
import Verif.Props.Report
import Verif.Props.Restart
import Verif.Props.Router
import Verif.Props.SampleExceptions
import Verif.Props.Samples
import Verif.Props.ServeMux
import Verif.Props.Session
import Verif.Props.Settle
import Verif.Props.Setup
import Verif.Props.Slices
import Verif.Props.Slurm
import Verif.Props.Sort
import Verif.Props.Startup
import Verif.Props.Store
import Verif.Props.Strict
import Verif.Props.Text
import Verif.Props.Ticker
import Verif.Props.Time
import Verif.Props.Update
import Verif.Props.Watching
import Verif.Props.Whole
import Verif.Props.WholeAny
import Verif.Props.WholeRun
import Verif.Props.Wire
import Verif.Props.Writers
import Verif.Spec.Auth
import Verif.Spec.Float
import Verif.Spec.History
import Verif.Spec.Json
import Verif.Spec.JsonRepeat
import Verif.Spec.JsonText
import Verif.Spec.Log
import Verif.Spec.Metrics
import Verif.Spec.Mon
import Verif.Spec.MonSys
import Verif.Spec.Process
import Verif.Spec.Records
import Verif.Spec.Router
import Verif.Spec.Session
import Verif.Spec.Slurm
import Verif.Spec.Text
import Verif.Spec.Time
import Verif.Spec.Update
import Verif.Spec.Whole
import Verif.Spec.Wire
