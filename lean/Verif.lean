import Verif.Model.BMap
import Verif.Model.Basic
import Verif.Model.Borrow
import Verif.Model.CfgExpr
import Verif.Model.Config
import Verif.Model.Context
import Verif.Model.Debug
import Verif.Model.DebugAll
import Verif.Model.Easy
import Verif.Model.EasySerde
import Verif.Model.Entry
import Verif.Model.Enums
import Verif.Model.Env
import Verif.Model.ErrorText
import Verif.Model.Get
import Verif.Model.Lists
import Verif.Model.Load
import Verif.Model.LoadTime
import Verif.Model.Merge
import Verif.Model.Path
import Verif.Model.Process
import Verif.Model.Query
import Verif.Model.Serde
import Verif.Model.Target
import Verif.Model.Value
import Verif.Model.Version
import Verif.Model.Walk
import Verif.Spec.AddedFile
import Verif.Spec.AllQueries
import Verif.Spec.Anchored
import Verif.Spec.Cause
import Verif.Spec.CfgCompose
import Verif.Spec.CfgError
import Verif.Spec.CfgExpr
import Verif.Spec.CfgMeaning
import Verif.Spec.Config
import Verif.Spec.Cost
import Verif.Spec.Defaults
import Verif.Spec.EasyDoc
import Verif.Spec.EndToEnd
import Verif.Spec.Entry
import Verif.Spec.Env
import Verif.Spec.EnvLoad
import Verif.Spec.EnvOrFile
import Verif.Spec.EnvSpelling
import Verif.Spec.FileNames
import Verif.Spec.Get
import Verif.Spec.HandedOn
import Verif.Spec.Home
import Verif.Spec.Layout
import Verif.Spec.ListSpelling
import Verif.Spec.Load
import Verif.Spec.LoadTime
import Verif.Spec.Moved
import Verif.Spec.Outcome
import Verif.Spec.Queries
import Verif.Spec.QueryCause
import Verif.Spec.Reason
import Verif.Spec.Resolve
import Verif.Spec.Serde
import Verif.Spec.Settings
import Verif.Spec.Spelling
import Verif.Spec.Subdir
import Verif.Spec.Target
import Verif.Spec.TargetDocs
import Verif.Spec.TargetFirst
import Verif.Spec.TargetOutcome
import Verif.Spec.TargetQuery
import Verif.Spec.Text
import Verif.Spec.Tokens
import Verif.Spec.Tools
import Verif.Spec.Values
import Verif.Spec.Version
import Verif.Spec.Walk
import Verif.Lemmas.Accept
import Verif.Lemmas.Act
import Verif.Lemmas.AddedFile
import Verif.Lemmas.AllQueries
import Verif.Lemmas.BMap
import Verif.Lemmas.Borrow
import Verif.Lemmas.Cause
import Verif.Lemmas.CfgEval
import Verif.Lemmas.CfgLex
import Verif.Lemmas.CfgMachine
import Verif.Lemmas.CfgNots
import Verif.Lemmas.CfgPanic
import Verif.Lemmas.CfgParse
import Verif.Lemmas.CfgPlace
import Verif.Lemmas.CfgReason
import Verif.Lemmas.CfgScan
import Verif.Lemmas.CfgSpan
import Verif.Lemmas.Config
import Verif.Lemmas.Cost
import Verif.Lemmas.DeErr
import Verif.Lemmas.EasyPortable
import Verif.Lemmas.EasyReload
import Verif.Lemmas.EasyRound
import Verif.Lemmas.EasySerde
import Verif.Lemmas.EndToEnd
import Verif.Lemmas.Env
import Verif.Lemmas.EnvDep
import Verif.Lemmas.EnvKeys
import Verif.Lemmas.EnvLoad
import Verif.Lemmas.EnvLoop
import Verif.Lemmas.EnvOrFile
import Verif.Lemmas.EnvSec
import Verif.Lemmas.Get
import Verif.Lemmas.HandedOn
import Verif.Lemmas.History
import Verif.Lemmas.Influence
import Verif.Lemmas.Layout
import Verif.Lemmas.ListSpelling
import Verif.Lemmas.Lists
import Verif.Lemmas.Load
import Verif.Lemmas.LoadCause
import Verif.Lemmas.LoadTime
import Verif.Lemmas.Matching
import Verif.Lemmas.Merge
import Verif.Lemmas.MergeCause
import Verif.Lemmas.MergeRec
import Verif.Lemmas.Moved
import Verif.Lemmas.MovedQuery
import Verif.Lemmas.MovedResolve
import Verif.Lemmas.OneFile
import Verif.Lemmas.Outcome
import Verif.Lemmas.Path
import Verif.Lemmas.Queries
import Verif.Lemmas.QueryCause
import Verif.Lemmas.QuerySeq
import Verif.Lemmas.Reason
import Verif.Lemmas.Resolve
import Verif.Lemmas.Serde
import Verif.Lemmas.SerdeOnly
import Verif.Lemmas.SerdePaths
import Verif.Lemmas.SerdeRead
import Verif.Lemmas.SerdeShape
import Verif.Lemmas.SerdeStable
import Verif.Lemmas.SerdeWrite
import Verif.Lemmas.Settings
import Verif.Lemmas.Str
import Verif.Lemmas.Target
import Verif.Lemmas.TargetDocs
import Verif.Lemmas.TargetFirst
import Verif.Lemmas.TargetOutcome
import Verif.Lemmas.TargetPanic
import Verif.Lemmas.TargetQuery
import Verif.Lemmas.Tokens
import Verif.Lemmas.ToolPanic
import Verif.Lemmas.Tools
import Verif.Lemmas.Version
import Verif.Lemmas.Walk
import Verif.Props.Accept
import Verif.Props.AddedFile
import Verif.Props.AddedTable
import Verif.Props.AllQueries
import Verif.Props.Anchored
import Verif.Props.Borrow
import Verif.Props.Cargo
import Verif.Props.Cause
import Verif.Props.CfgCompose
import Verif.Props.CfgError
import Verif.Props.CfgExpr
import Verif.Props.CfgMeaning
import Verif.Props.CliTargets
import Verif.Props.Cost
import Verif.Props.Defaults
import Verif.Props.Display
import Verif.Props.EasyOmit
import Verif.Props.EasySerde
import Verif.Props.EndToEnd
import Verif.Props.Entry
import Verif.Props.Env
import Verif.Props.EnvLoad
import Verif.Props.EnvOrFile
import Verif.Props.EnvSpelling
import Verif.Props.FileNames
import Verif.Props.Flags
import Verif.Props.FlagsError
import Verif.Props.Get
import Verif.Props.HandedOn
import Verif.Props.Home
import Verif.Props.Influence
import Verif.Props.Layout
import Verif.Props.ListSpelling
import Verif.Props.Load
import Verif.Props.LoadTime
import Verif.Props.Matching
import Verif.Props.MergeShown
import Verif.Props.Moved
import Verif.Props.OneFile
import Verif.Props.Outcome
import Verif.Props.Queries
import Verif.Props.QueryCause
import Verif.Props.Reason
import Verif.Props.Resolve
import Verif.Props.Rustc
import Verif.Props.Serde
import Verif.Props.Settings
import Verif.Props.Small
import Verif.Props.Spelling
import Verif.Props.Subdir
import Verif.Props.Target
import Verif.Props.TargetAlike
import Verif.Props.TargetDocs
import Verif.Props.TargetFirst
import Verif.Props.TargetNames
import Verif.Props.TargetOutcome
import Verif.Props.TargetQuery
import Verif.Props.Tokens
import Verif.Props.ToolPanic
import Verif.Props.Tools
import Verif.Props.Values
import Verif.Props.Version
import Verif.Props.Walk
import Verif.Conformance.CfgExpr
import Verif.Conformance.Reference
import Verif.Conformance.Resolve
