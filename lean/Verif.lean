import Verif.Props.Strs
import Verif.Props.Version
import Verif.Props.Text
import Verif.Props.Breaking
import Verif.Model.Desc
import Verif.Model.Reflect
import Verif.Proof.Path
import Verif.Props.Desc
import Verif.Props.Reflect
import Verif.Model.WalkTimeout
import Verif.Proof.Walk
import Verif.Props.Discovery
import Verif.Props.Settings
import Verif.Model.ProtoAST
import Verif.Model.Visitor
import Verif.Model.Linters
import Verif.Model.LintersState
import Verif.Model.LintConfig
import Verif.Model.LintRun
import Verif.Model.GenerateIgnores
import Verif.Spec.LintDoc
import Verif.Spec.LintConfig
import Verif.Proof.LintIDs
import Verif.Proof.LintConfig
import Verif.Props.LintConfig
import Verif.Spec.Tree
import Verif.Spec.LintReports
import Verif.Proof.Visit
import Verif.Proof.Walks
import Verif.Proof.Reports
import Verif.Proof.Names
import Verif.Props.LintNames
import Verif.Spec.Grammar
import Verif.Proof.Grammar
import Verif.Proof.ReportsFile
import Verif.Spec.Sample
import Verif.Proof.ReportsTree
import Verif.Props.LintEnums
import Verif.Props.LintComments
import Verif.Props.LintFields
import Verif.Props.LintOther
import Verif.Spec.Derived
import Verif.Proof.Derived
import Verif.Props.Derived
import Verif.Props.LintOptions
import Verif.Props.LintPackage
import Verif.Spec.Suppression
import Verif.Proof.ReportsSuppress
import Verif.Props.LintSuppress
import Verif.Spec.SameInDir
import Verif.Proof.ReportsDir
import Verif.Props.LintDir
import Verif.Spec.RequestTypes
import Verif.Proof.Endings
import Verif.Proof.LastBy
import Verif.Proof.ReportsTypes
import Verif.Props.LintTypes
import Verif.Proof.Alike
import Verif.Proof.LintRun
import Verif.Spec.LintRun
import Verif.Proof.Lands
import Verif.Proof.PerFile
import Verif.Proof.LintTable
import Verif.Proof.Blind
import Verif.Proof.HTTPCrash
import Verif.Proof.LintIgnores
import Verif.Proof.GenIgnores
import Verif.Proof.LintTotal
import Verif.Props.LintRun
import Verif.Model.Printer
import Verif.Model.Format
import Verif.Spec.Layout
import Verif.Spec.FormatText
import Verif.Proof.Layout
import Verif.Proof.FormatText
import Verif.Proof.FormatFile
import Verif.Proof.FormatHeader
import Verif.Props.FormatText
import Verif.Props.Format
import Verif.Spec.Managed
import Verif.Props.Managed
import Verif.Proof.FormatFix
import Verif.Props.FormatFix
import Verif.Model.Exec
import Verif.Spec.Exec
import Verif.Spec.ExecSample
import Verif.Proof.Exec
import Verif.Proof.ExecFormat
import Verif.Proof.ExecPrint
import Verif.Proof.ExecGoes
import Verif.Props.Exec
import Verif.Proof.ExecLint
import Verif.Props.ExecLint
import Verif.Props.ExecFiles
import Verif.Model.ExecMore
import Verif.Spec.ExecMore
import Verif.Proof.ExecMore
import Verif.Props.ExecMoreSample
import Verif.Props.Inspect
import Verif.Props.BreakCmd
import Verif.Props.DescriptorSet
import Verif.Props.ExecAll
import Verif.Props.RoundTrip
import Verif.Props.Init
import Verif.Model.Create
import Verif.Spec.Create
import Verif.Proof.Create
import Verif.Proof.CreateText
import Verif.Props.Create
import Verif.Go.Regexp
import Verif.Model.ProtocOutput
import Verif.Model.Compiler
import Verif.Model.CompileRun
import Verif.Spec.Compile
import Verif.Spec.CompileSample
import Verif.Proof.Regexp
import Verif.Proof.CompileRun
import Verif.Proof.Compile
import Verif.Proof.ProtocOutput
import Verif.Props.Compile
import Verif.Spec.CompileArgs
import Verif.Proof.CompileArgs
import Verif.Props.CompileArgs
import Verif.Model.Downloader
import Verif.Model.DownloadRun
import Verif.Spec.Download
import Verif.Proof.Download
import Verif.Props.Download
import Verif.Proof.DownloadPath
import Verif.Props.DownloadPath
import Verif.Model.Grpc
import Verif.Spec.Grpc
import Verif.Proof.Grpc
import Verif.Props.Grpc
import Verif.Model.Cmd
import Verif.Spec.Cmd
import Verif.Proof.Cmd
import Verif.Props.Cmd
import Verif.Spec.Rename
import Verif.Proof.Rename
import Verif.Proof.RenameRules
import Verif.Proof.RenameState
import Verif.Proof.RenameAll
import Verif.Proof.RenameRun
import Verif.Props.LintRename
import Verif.Spec.ExecNames
import Verif.Proof.Displayed
import Verif.Props.ExecNames
import Verif.Props.ProtocLines
import Verif.Props.Diff
import Verif.Props.ExecDiff
import Verif.Spec.ProtocLines
import Verif.Proof.ProtocLines
import Verif.Model.Diff
import Verif.Spec.Diff
import Verif.Spec.ExecDiff
import Verif.Proof.ExecModes
import Verif.Model.CfgInit
import Verif.Spec.CfgInit
import Verif.Props.CfgInit
import Verif.Spec.ExecCompile
import Verif.Props.ExecCompile
import Verif.Spec.ExecOrder
import Verif.Proof.DiscoveryOrder
import Verif.Proof.ExecOrder
import Verif.Proof.CompileOrder
import Verif.Proof.FormatOrder
import Verif.Props.ExecOrder
import Verif.Props.FormatOrder
import Verif.Proof.AllOrder
import Verif.Props.AllOrder
import Verif.Spec.GrpcOrder
import Verif.Props.GrpcOrder
import Verif.Spec.Lexer
import Verif.Spec.Reader
import Verif.Spec.Bare
import Verif.Proof.Lexer
import Verif.Proof.Tokens
import Verif.Proof.Reader
import Verif.Proof.RoundTrip
import Verif.Proof.ReadFix
import Verif.Proof.ReadTwice
import Verif.Props.Readable
import Verif.Spec.LintSays
import Verif.Proof.Says
import Verif.Proof.Replace
import Verif.Props.LintSays
import Verif.Spec.BreakingOnce
import Verif.Proof.Once
import Verif.Proof.OnceRun
import Verif.Proof.Quote
import Verif.Props.BreakingOnce
import Verif.Spec.Comments
import Verif.Proof.Comments
import Verif.Proof.CommentsFile
import Verif.Props.Comments
import Verif.Spec.Reformatted
import Verif.Proof.Reformat
import Verif.Proof.ReformatRules
import Verif.Props.Reformat
import Verif.Proof.FormatTwice
import Verif.Props.FormatTwice
import Verif.Spec.CreatedLint
import Verif.Proof.CreatedLint
import Verif.Props.CreatedLint
import Verif.Spec.Scope
import Verif.Proof.Scope
import Verif.Props.Scope
import Verif.Spec.Wire
import Verif.Spec.Binary
import Verif.Spec.WireCheck
import Verif.Proof.Wire
import Verif.Props.Wire
import Verif.Spec.BetaUse
import Verif.Proof.BetaUse
import Verif.Props.BetaUse
import Verif.Spec.CmdLine
import Verif.Props.CmdLine
import Verif.Go.Json
import Verif.Spec.Json
import Verif.Proof.Json
import Verif.Props.Json
import Verif.Spec.Attached
import Verif.Proof.Placed
import Verif.Proof.Attached
import Verif.Proof.AttachedElement
import Verif.Proof.AttachedFile
import Verif.Props.Attached
import Verif.Proof.AttachedAgain
import Verif.Proof.AttachedHeader
import Verif.Props.AttachedAgain
import Verif.Proof.ReformatRead
import Verif.Props.ReformatRead
import Verif.Spec.Canonical
import Verif.Proof.Canonical
import Verif.Props.Canonical
import Verif.Props.FormatHistory
import Verif.Spec.JsonText
import Verif.Proof.JsonText
import Verif.Proof.JsonBack
import Verif.Spec.ConfigData
import Verif.Proof.ConfigData
import Verif.Proof.ConfigValue
import Verif.Proof.ConfigText
import Verif.Props.ConfigData
import Verif.Spec.RuleChange
import Verif.Proof.RuleChange
import Verif.Props.RuleChange
import Verif.Spec.Interrupt
import Verif.Proof.Interrupt
import Verif.Props.Interrupt
import Verif.Spec.BreakingLocal
import Verif.Props.BreakingLocal
import Verif.Model.Steps
import Verif.Spec.Together
import Verif.Proof.Together
import Verif.Props.Together
import Verif.Spec.Apart
import Verif.Proof.Apart
import Verif.Props.Apart
import Verif.Spec.Moved
import Verif.Proof.Moved
import Verif.Proof.MovedConfig
import Verif.Proof.MovedSet
import Verif.Props.Moved
import Verif.Spec.MovedRun
import Verif.Proof.MovedLint
import Verif.Proof.MovedRun
import Verif.Props.MovedRun
import Verif.Spec.FormatRename
import Verif.Proof.FormatRename
import Verif.Props.MovedFormat
import Verif.Spec.LintTexts
import Verif.Proof.SaysFile
import Verif.Proof.SaysTypes
import Verif.Proof.SaysDir
import Verif.Props.LintTexts
import Verif.Model.CreateSteps
import Verif.Spec.Makers
import Verif.Proof.Makers
import Verif.Props.Makers
import Verif.Spec.Complaints
import Verif.Proof.Complaints
import Verif.Props.Complaints
import Verif.Go.TabWriter
import Verif.Spec.Listing
import Verif.Proof.Listing
import Verif.Props.Listing
import Verif.Spec.History
import Verif.Proof.History
import Verif.Props.History
import Verif.Spec.Described
import Verif.Proof.Described
import Verif.Props.Described
import Verif.Props.InterruptMore
import Verif.Spec.CreateFormat
import Verif.Props.CreateFormat
import Verif.Props.Facts
import Verif.Spec.Facts
import Verif.Proof.WalkOrder
import Verif.Spec.Excludes
import Verif.Props.Excludes
import Verif.Spec.Discoverable
import Verif.Proof.Discoverable
import Verif.Props.Discoverable
import Verif.Model.LintSteps
import Verif.Spec.LintSteps
import Verif.Proof.LintSteps
import Verif.Props.LintSteps
import Verif.Props.Agree
import Verif.Spec.OneByOne
import Verif.Props.OneByOne
import Verif.Spec.Releases
import Verif.Props.Releases
import Verif.Spec.InterruptAll
import Verif.Props.InterruptAll
import Verif.Spec.Listed
import Verif.Props.Listed
import Verif.Spec.Additions
import Verif.Props.Additions
import Verif.Spec.CreateBreak
import Verif.Props.CreateBreak
import Verif.Spec.Tended
import Verif.Props.Tended
import Verif.Spec.Says
import Verif.Props.Says
import Verif.Spec.Removed
import Verif.Props.Removed
import Verif.Spec.GrpcCalls
import Verif.Props.GrpcCalls
import Verif.Spec.Members
import Verif.Props.Members
import Verif.Props.StrsKeys
import Verif.Spec.FieldPlace
import Verif.Props.FieldPlace
import Verif.Spec.Streams
import Verif.Props.Streams
import Verif.Spec.FieldTypes
import Verif.Props.FieldTypes
