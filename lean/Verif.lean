import Verif.Model.Accept
import Verif.Model.Annotation
import Verif.Model.Atn
import Verif.Model.AtnData
import Verif.Model.Cli
import Verif.Model.ContextData
import Verif.Model.Contexts
import Verif.Model.Crash
import Verif.Model.Errors
import Verif.Model.Expected
import Verif.Model.GoCode
import Verif.Model.GoParser
import Verif.Model.Grammar
import Verif.Model.Json
import Verif.Model.LexRules
import Verif.Model.LexSim
import Verif.Model.Lexer
import Verif.Model.ParseKF
import Verif.Model.Parser
import Verif.Model.Path
import Verif.Model.Predict
import Verif.Model.Recover
import Verif.Model.Regex
import Verif.Model.Report
import Verif.Model.Runs
import Verif.Model.Schema
import Verif.Model.Threads
import Verif.Model.Token
import Verif.Model.Trace
import Verif.Model.Types
import Verif.Model.Utf8
import Verif.Model.Validator
import Verif.Model.Visitor
import Verif.Model.Wasm
import Verif.Proof.Annotation
import Verif.Proof.AtnCheck
import Verif.Proof.AtnLang
import Verif.Proof.AtnParser
import Verif.Proof.Boundary
import Verif.Proof.Brackets
import Verif.Proof.Canonical
import Verif.Proof.Clean
import Verif.Proof.CommentOut
import Verif.Proof.Complete
import Verif.Proof.ContextSpec
import Verif.Proof.Contexts
import Verif.Proof.Digram
import Verif.Proof.Dispatch
import Verif.Proof.DispatchVisit
import Verif.Proof.Edit
import Verif.Proof.Expected
import Verif.Proof.Expr
import Verif.Proof.Express
import Verif.Proof.Glue
import Verif.Proof.GoCheck
import Verif.Proof.GoCompile
import Verif.Proof.GoComplete
import Verif.Proof.GoError
import Verif.Proof.GoHalt
import Verif.Proof.GoLocal
import Verif.Proof.GoPredict
import Verif.Proof.GoRun
import Verif.Proof.Insert
import Verif.Proof.Join
import Verif.Proof.Json
import Verif.Proof.JsonShape
import Verif.Proof.Layout
import Verif.Proof.LexBlock
import Verif.Proof.LexCheck
import Verif.Proof.LexRest
import Verif.Proof.LexRun
import Verif.Proof.LexSim
import Verif.Proof.Lexer
import Verif.Proof.LineEnds
import Verif.Proof.LineEndsProgram
import Verif.Proof.Meaning
import Verif.Proof.Names
import Verif.Proof.ParseKF
import Verif.Proof.Path
import Verif.Proof.Position
import Verif.Proof.PredictCheck
import Verif.Proof.PredictRight
import Verif.Proof.PredictStar
import Verif.Proof.PredictTable
import Verif.Proof.ProgTree
import Verif.Proof.Recover
import Verif.Proof.RecoverCount
import Verif.Proof.RecoverFirst
import Verif.Proof.RecoverHalt
import Verif.Proof.RecoverStatic
import Verif.Proof.RecoverWhere
import Verif.Proof.Regex
import Verif.Proof.Reorder
import Verif.Proof.Rep
import Verif.Proof.Reuse
import Verif.Proof.Rules
import Verif.Proof.Scan
import Verif.Proof.Semicolons
import Verif.Proof.Sound
import Verif.Proof.Spelt
import Verif.Proof.Threads
import Verif.Proof.Trace
import Verif.Proof.Truncate
import Verif.Proof.TruncateBytes
import Verif.Proof.Utf8
import Verif.Proof.Validator
import Verif.Proof.VisitorEval
import Verif.Proof.Words
import Verif.Props.Accept
import Verif.Props.Agree
import Verif.Props.Annotation
import Verif.Props.Brackets
import Verif.Props.Canonical
import Verif.Props.Cli
import Verif.Props.CliInput
import Verif.Props.CliMany
import Verif.Props.CommandLine
import Verif.Props.CommentOut
import Verif.Props.Concurrency
import Verif.Props.Conformance
import Verif.Props.ConformanceA
import Verif.Props.ConformanceB
import Verif.Props.ConformanceC
import Verif.Props.Contexts
import Verif.Props.Crash
import Verif.Props.Docs
import Verif.Props.Edit
import Verif.Props.Expected
import Verif.Props.Generated
import Verif.Props.Join
import Verif.Props.Json
import Verif.Props.JsonLayout
import Verif.Props.LexTables
import Verif.Props.Lexing
import Verif.Props.Lexis
import Verif.Props.LineEnds
import Verif.Props.Meaning
import Verif.Props.Messages
import Verif.Props.Outcome
import Verif.Props.Position
import Verif.Props.Predict
import Verif.Props.Recovery
import Verif.Props.Rename
import Verif.Props.Reorder
import Verif.Props.Restrictions
import Verif.Props.Rules
import Verif.Props.SampleText
import Verif.Props.Samples
import Verif.Props.Semicolons
import Verif.Props.SqlScope
import Verif.Props.SqlText
import Verif.Props.Statements
import Verif.Props.Syntax
import Verif.Props.Trace
import Verif.Props.Truncate
import Verif.Props.Types
import Verif.Props.Utf8
import Verif.Props.Validation
import Verif.Props.Values
import Verif.Props.Wasm
import Verif.Spec.Annotation
import Verif.Spec.Brackets
import Verif.Spec.Canonical
import Verif.Spec.CommandLine
import Verif.Spec.CommentOut
import Verif.Spec.Contexts
import Verif.Spec.Derivation
import Verif.Spec.Docs
import Verif.Spec.Edit
import Verif.Spec.Expected
import Verif.Spec.Join
import Verif.Spec.Json
import Verif.Spec.JsonLayout
import Verif.Spec.Lexical
import Verif.Spec.LineEnds
import Verif.Spec.Messages
import Verif.Spec.Path
import Verif.Spec.Position
import Verif.Spec.Predict
import Verif.Spec.Program
import Verif.Spec.Recovery
import Verif.Spec.Rename
import Verif.Spec.Reorder
import Verif.Spec.Rules
import Verif.Spec.Source
import Verif.Spec.SqlScope
import Verif.Spec.Trace
import Verif.Spec.Truncate
import Verif.Spec.Utf8
import Verif.Spec.Validity
import Verif.Spec.Values
import Verif.Spec.Words
