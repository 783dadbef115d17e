import Verif.Base
import Verif.Model.ExceptionControl
import Verif.Model.Debuggable
import Verif.Model.TypedProperty
import Verif.Model.Shlex
import Verif.Model.Config
import Verif.Model.Parser
import Verif.Model.EnhancedData
import Verif.Spec.ExceptionControl
import Verif.Spec.TypedProperty
import Verif.Spec.Unroll
import Verif.Spec.Resolve
import Verif.Proofs.Base
import Verif.Proofs.Refine
import Verif.Proofs.Unroll
import Verif.Proofs.Success
import Verif.Proofs.Fuel
import Verif.Proofs.Replay
import Verif.Proofs.Pres
import Verif.Proofs.Obj
import Verif.Props.ExceptionControl
import Verif.Props.TypedProperty
import Verif.Spec.Log
import Verif.Proofs.Graph
import Verif.Proofs.Two
import Verif.Proofs.Local
import Verif.Proofs.Diverge
import Verif.Proofs.Log
import Verif.Proofs.Closed
import Verif.Props.Example
import Verif.Proofs.Access
import Verif.Props.Resolve
import Verif.Props.Cycle
import Verif.Props.Handlers
import Verif.Props.Settings
import Verif.Props.Access
import Verif.Props.Shlex
import Verif.Props.Interpolation
import Verif.Spec.Dispatch
import Verif.Model.Operations
import Verif.Props.Dispatch
import Verif.Props.Operations
import Verif.Model.HandlerParameters
import Verif.Spec.HandlerParameters
import Verif.Props.HandlerParameters
import Verif.Props.Debuggable
import Verif.Spec.Chronicle
import Verif.Proofs.Chronicle
import Verif.Model.IniText
import Verif.Model.Object
import Verif.Proofs.Twin
import Verif.Proofs.Lazy
import Verif.Props.Life
import Verif.Spec.IniDoc
import Verif.Proofs.IniText
import Verif.Proofs.IniDoc
import Verif.Proofs.IniCfg
import Verif.Props.IniText
import Verif.Spec.Render
import Verif.Proofs.Render
import Verif.Proofs.BaseClass
import Verif.Proofs.IniNames
import Verif.Proofs.RoundTrip
import Verif.Props.Unrolled
import Verif.Model.SetEnvironment
import Verif.Spec.SetEnvironment
import Verif.Proofs.EnvVars
import Verif.Props.EnvVars
import Verif.Proofs.SetEnvironment
import Verif.Props.SetEnvironment
import Verif.Proofs.Apply
import Verif.Proofs.Script
import Verif.Props.Apply
import Verif.Model.Keywords
import Verif.Model.GenConfig
import Verif.Spec.Keywords
import Verif.Proofs.Keywords
import Verif.Proofs.KeywordParsers
import Verif.Props.Keywords
import Verif.Proofs.ConfigKeywords
import Verif.Props.ConfigKeywords
import Verif.Props.DetermineSystem
import Verif.Spec.GenConfig
import Verif.Proofs.LoadEnv
import Verif.Props.LoadEnv
import Verif.Proofs.GenConfig
import Verif.Props.GenConfig
import Verif.Model.BashScript
import Verif.Spec.BashScript
import Verif.Proofs.BashScript
import Verif.Props.BashScript
import Verif.Model.Write
import Verif.Props.Write
import Verif.Model.TopLevel
import Verif.Spec.TopLevel
import Verif.Proofs.TopLevel
import Verif.Props.TopLevel
import Verif.Model.LoadEnv
import Verif.Spec.LoadEnv
import Verif.Proofs.ApplyEnv
import Verif.Props.ApplyEnv
import Verif.Model.ModuleHelper
import Verif.Spec.ModuleHelper
import Verif.Proofs.ModuleHelper
import Verif.Props.ModuleHelper
import Verif.Model.GenOutput
import Verif.Spec.GenOutput
import Verif.Proofs.GenOutput
import Verif.Props.GenOutput
import Verif.Model.Messages
import Verif.Spec.Messages
import Verif.Proofs.Messages
import Verif.Props.Messages
import Verif.Model.Scripts
import Verif.Spec.Scripts
import Verif.Proofs.Scripts
import Verif.Proofs.GenScript
import Verif.Props.Scripts
import Verif.Props.GenScript
import Verif.Model.Reentrant
import Verif.Spec.Reentrant
import Verif.Proofs.Reentrant
import Verif.Proofs.ReentrantRuns
import Verif.Proofs.ReentrantFacts
import Verif.Props.Reentrant
import Verif.Model.SetEnvPrint
import Verif.Spec.SetEnvPrint
import Verif.Proofs.SetEnvPrint
import Verif.Props.SetEnvPrint
import Verif.Model.SetEnvLife
import Verif.Spec.SetEnvLife
import Verif.Proofs.SetEnvLife
import Verif.Props.SetEnvLife
import Verif.Model.EventText
import Verif.Spec.EventText
import Verif.Proofs.EventText
import Verif.Props.EventText
import Verif.Model.CommandLine
import Verif.Spec.CommandLine
import Verif.Proofs.CommandLine
import Verif.Props.CommandLine
import Verif.Model.Programs
import Verif.Spec.Programs
import Verif.Proofs.Programs
import Verif.Props.Programs
import Verif.Props.GenProgram
import Verif.Spec.Literal
import Verif.Proofs.Literal
import Verif.Props.Literal
import Verif.Spec.Gather
import Verif.Proofs.Gather
import Verif.Props.Gather
import Verif.Spec.Quotes
import Verif.Proofs.Quotes
import Verif.Proofs.QuotesOnly
import Verif.Props.Quotes
import Verif.Spec.Journey
import Verif.Proofs.Journey
import Verif.Props.Journey
import Verif.Proofs.Quiet
import Verif.Props.Quiet
import Verif.Model.Console
import Verif.Spec.Console
import Verif.Proofs.Console
import Verif.Proofs.ConsoleTrace
import Verif.Proofs.ConsoleNotices
import Verif.Props.Console
import Verif.Model.Rebind
import Verif.Spec.Rebind
import Verif.Proofs.Rebind
import Verif.Props.Rebind
import Verif.Model.LogPrint
import Verif.Spec.LogPrint
import Verif.Proofs.LogPrint
import Verif.Props.LogPrint
import Verif.Props.Canonical
import Verif.Spec.Move
import Verif.Proofs.Move
import Verif.Props.Move
import Verif.Spec.Rename
import Verif.Proofs.Rename
import Verif.Props.Rename
import Verif.Spec.Order
import Verif.Proofs.Order
import Verif.Props.Order
import Verif.Spec.Apart
import Verif.Props.Apart
import Verif.Props.Permute
import Verif.Props.BuildWords
import Verif.Spec.Reorder
import Verif.Props.Reorder
import Verif.Spec.Twice
import Verif.Props.Twice
import Verif.Spec.Comments
import Verif.Proofs.BlankLines
import Verif.Props.Comments
import Verif.Props.Split
import Verif.Props.SplitEnv
import Verif.Props.Pins
import Verif.Conformance.Parser
import Verif.Conformance.SetEnvironment
import Verif.Conformance.Keywords
import Verif.Conformance.Helpers
import Verif.Conformance.ModuleHelper
import Verif.Conformance.Files
import Verif.Conformance.LoadEnv
import Verif.Conformance.GenConfig
