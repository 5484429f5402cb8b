import Verif.Audit
import Verif.Examples.Conds
import Verif.Examples.Deltas
import Verif.Examples.Life
import Verif.Examples.Loop
import Verif.Examples.Setup
import Verif.Examples.Tree
import Verif.Lemmas.Absorb
import Verif.Lemmas.Accepted
import Verif.Lemmas.Asked
import Verif.Lemmas.Bounds
import Verif.Lemmas.Bridge
import Verif.Lemmas.Ca
import Verif.Lemmas.Chain
import Verif.Lemmas.Client
import Verif.Lemmas.Cluster
import Verif.Lemmas.Configure
import Verif.Lemmas.Crash
import Verif.Lemmas.Dated
import Verif.Lemmas.Delay
import Verif.Lemmas.Dirs
import Verif.Lemmas.Effects
import Verif.Lemmas.Effects2
import Verif.Lemmas.Empty
import Verif.Lemmas.FSLemmas
import Verif.Lemmas.Fallback
import Verif.Lemmas.Fetched
import Verif.Lemmas.Forget
import Verif.Lemmas.Frame
import Verif.Lemmas.Gates
import Verif.Lemmas.History
import Verif.Lemmas.Hourly
import Verif.Lemmas.Json
import Verif.Lemmas.JsonState
import Verif.Lemmas.Latest
import Verif.Lemmas.Ledger
import Verif.Lemmas.Lifetime
import Verif.Lemmas.LifetimeRun
import Verif.Lemmas.Lock
import Verif.Lemmas.Lossless
import Verif.Lemmas.Malformed
import Verif.Lemmas.Maps
import Verif.Lemmas.Mirror
import Verif.Lemmas.MoveCrash
import Verif.Lemmas.Moves
import Verif.Lemmas.Names
import Verif.Lemmas.Network
import Verif.Lemmas.NoPanic
import Verif.Lemmas.Objects
import Verif.Lemmas.Once
import Verif.Lemmas.Options
import Verif.Lemmas.Order
import Verif.Lemmas.Outcome
import Verif.Lemmas.Party
import Verif.Lemmas.Paths
import Verif.Lemmas.Phases
import Verif.Lemmas.Polling
import Verif.Lemmas.Post
import Verif.Lemmas.Prefix
import Verif.Lemmas.Prevalidate
import Verif.Lemmas.Program
import Verif.Lemmas.Progress
import Verif.Lemmas.Publish
import Verif.Lemmas.Quiet
import Verif.Lemmas.RemoveUp
import Verif.Lemmas.Reports
import Verif.Lemmas.Requests
import Verif.Lemmas.Restart
import Verif.Lemmas.RsyncClient
import Verif.Lemmas.RsyncExact
import Verif.Lemmas.RsyncHistory
import Verif.Lemmas.RsyncLedger
import Verif.Lemmas.RsyncMoves
import Verif.Lemmas.RsyncOrder
import Verif.Lemmas.RsyncParts
import Verif.Lemmas.RsyncParty
import Verif.Lemmas.RsyncRun
import Verif.Lemmas.RsyncWhole
import Verif.Lemmas.Run
import Verif.Lemmas.RunAsked
import Verif.Lemmas.Scripts
import Verif.Lemmas.Served
import Verif.Lemmas.Shared
import Verif.Lemmas.Sort
import Verif.Lemmas.Staged
import Verif.Lemmas.Staging
import Verif.Lemmas.StateHistory
import Verif.Lemmas.Steady
import Verif.Lemmas.Stuck
import Verif.Lemmas.Success
import Verif.Lemmas.Tags
import Verif.Lemmas.Tidy
import Verif.Lemmas.TidyPlan
import Verif.Lemmas.TidyRun
import Verif.Lemmas.Timeline
import Verif.Lemmas.Torn
import Verif.Lemmas.Unbroken
import Verif.Lemmas.Unobtained
import Verif.Lemmas.Unscripted
import Verif.Lemmas.UpToDate
import Verif.Lemmas.Update
import Verif.Lemmas.Upstream
import Verif.Lemmas.Validate
import Verif.Lemmas.Versions
import Verif.Lemmas.Visits
import Verif.Lemmas.WF
import Verif.Lemmas.Walk
import Verif.Lemmas.Whole
import Verif.Lemmas.Withhold
import Verif.Model.Basic
import Verif.Model.Config
import Verif.Model.Encoding
import Verif.Model.FS
import Verif.Model.Fetch
import Verif.Model.FileOps
import Verif.Model.Instance
import Verif.Model.Json
import Verif.Model.Main
import Verif.Model.Prefix
import Verif.Model.Process
import Verif.Model.Program
import Verif.Model.Report
import Verif.Model.Rrdp
import Verif.Model.Rsync
import Verif.Model.Types
import Verif.Model.Validator
import Verif.Model.World
import Verif.Props.Asked
import Verif.Props.Atomic
import Verif.Props.Calm
import Verif.Props.Chain
import Verif.Props.Client
import Verif.Props.Cluster
import Verif.Props.Configure
import Verif.Props.Dated
import Verif.Props.Decision
import Verif.Props.Delay
import Verif.Props.Empty
import Verif.Props.Fallback
import Verif.Props.Fetch
import Verif.Props.Fetched
import Verif.Props.Files
import Verif.Props.Forget
import Verif.Props.Gates
import Verif.Props.History
import Verif.Props.Hourly
import Verif.Props.Issues
import Verif.Props.Json
import Verif.Props.Ledger
import Verif.Props.Line
import Verif.Props.Lock
import Verif.Props.Mirror
import Verif.Props.Moves
import Verif.Props.Names
import Verif.Props.Network
import Verif.Props.Once
import Verif.Props.Options
import Verif.Props.Order
import Verif.Props.Party
import Verif.Props.Polling
import Verif.Props.Prefix
import Verif.Props.Program
import Verif.Props.Recovery
import Verif.Props.Requests
import Verif.Props.Restart
import Verif.Props.Rsync
import Verif.Props.RsyncClient
import Verif.Props.RsyncExact
import Verif.Props.RsyncHistory
import Verif.Props.RsyncLedger
import Verif.Props.RsyncMoves
import Verif.Props.RsyncOrder
import Verif.Props.RsyncParty
import Verif.Props.Shared
import Verif.Props.Staging
import Verif.Props.Tags
import Verif.Props.Timeline
import Verif.Props.Unavailable
import Verif.Props.UpToDate
import Verif.Props.Update
import Verif.Props.Upstream
import Verif.Props.Validation
import Verif.Props.Validators
import Verif.Props.Visits
import Verif.Props.Withhold
import Verif.Props.WithholdRun
import Verif.Spec.Basic
import Verif.Spec.Chain
import Verif.Spec.Client
import Verif.Spec.Cluster
import Verif.Spec.Configure
import Verif.Spec.Dated
import Verif.Spec.Delay
import Verif.Spec.Empty
import Verif.Spec.Fallback
import Verif.Spec.Forget
import Verif.Spec.History
import Verif.Spec.Hourly
import Verif.Spec.Json
import Verif.Spec.Ledger
import Verif.Spec.Line
import Verif.Spec.Lock
import Verif.Spec.Mirror
import Verif.Spec.Missing
import Verif.Spec.Network
import Verif.Spec.Once
import Verif.Spec.Options
import Verif.Spec.Order
import Verif.Spec.Party
import Verif.Spec.Polling
import Verif.Spec.Program
import Verif.Spec.Requests
import Verif.Spec.Restart
import Verif.Spec.Rsync
import Verif.Spec.RsyncHistory
import Verif.Spec.RsyncLedger
import Verif.Spec.RsyncParty
import Verif.Spec.Run
import Verif.Spec.RunValidation
import Verif.Spec.Shared
import Verif.Spec.Staging
import Verif.Spec.Tags
import Verif.Spec.Timeline
import Verif.Spec.UpToDate
import Verif.Spec.Upstream
import Verif.Spec.Validation
import Verif.Spec.Visits
import Verif.Spec.Withhold
