import Verif.Lexer
import Verif.Operator
import Verif.Ast
import Verif.ParserTables
import Verif.Parser
import Verif.Codegen
import Verif.Visitor
import Verif.Scope
import Verif.AstGen
import Verif.ErrorDisplay
import Verif.Transform
import Verif.Spec.Tree
import Verif.Spec.Visit
import Verif.Spec.Scope
import Verif.Spec.Code
import Verif.Props.Visitor
import Verif.Props.Scope
import Verif.Props.Codegen
import Verif.Spec.Estree
import Verif.Spec.Memory
import Verif.Lemmas.Memory
import Verif.Lemmas.Transform
import Verif.Props.Transform
import Verif.Props.ErrorDisplay
import Verif.Props.Tables
import Verif.Props.AstGen
import Verif.Spec.Lexemes
import Verif.Spec.Lexing
import Verif.Props.Lexer
import Verif.Props.LexerExamples
import Verif.Props.Parser
import Verif.Props.Termination
import Verif.Props.ParserExamples
import Verif.Spec.Accepted
import Verif.Props.Accepted
import Verif.Lemmas.CompleteAll
import Verif.Props.Grammar
import Verif.Lemmas.Unspell
import Verif.Lemmas.SoundBase
import Verif.Lemmas.SoundParts
import Verif.Lemmas.SoundClass
import Verif.Lemmas.SoundTemplate
import Verif.Lemmas.SoundExpr
import Verif.Lemmas.SoundStmt
import Verif.Lemmas.SoundFor
import Verif.Lemmas.SoundAll
import Verif.Props.Sound
import Verif.Spec.Tidy
import Verif.Spec.Printable
import Verif.Lemmas.Lay
import Verif.Lemmas.PrintBase
import Verif.Lemmas.PrintClaims
import Verif.Lemmas.PrintExpr
import Verif.Lemmas.PrintOps
import Verif.Lemmas.PrintParts
import Verif.Lemmas.PrintClass
import Verif.Lemmas.PrintStmt
import Verif.Lemmas.PrintFor
import Verif.Lemmas.PrintImport
import Verif.Lemmas.PrintAll
import Verif.Lemmas.Formed
import Verif.Lemmas.FormedAll
import Verif.Lemmas.FormedRules
import Verif.Lemmas.FormedG
import Verif.Lemmas.FormedBare
import Verif.Lemmas.CodeBare
import Verif.Lemmas.CodeTidy
import Verif.Lemmas.TidyBare
import Verif.Lemmas.SafeB
import Verif.Props.RoundTrip
import Verif.Props.RoundTripExamples
import Verif.Props.Determines
import Verif.Props.Pretty
import Verif.Props.Shift
import Verif.Lemmas.Halt
import Verif.Lemmas.HaltParts
import Verif.Lemmas.HaltAll
import Verif.Lemmas.Ticks
import Verif.Props.Halt
import Verif.Props.Enough
import Verif.Props.HaltExamples
import Verif.Spec.Utf8
import Verif.Spec.Message
import Verif.Interface
import Verif.Lemmas.Utf8
import Verif.Lemmas.Cut
import Verif.Lemmas.Decode
import Verif.Lemmas.Flow
import Verif.Lemmas.Message
import Verif.Props.Utf8
import Verif.Props.Message
import Verif.Props.Interface
import Verif.Props.Estree
import Verif.Props.ReadEstree
import Verif.Lemmas.Local
import Verif.Lemmas.LocalRun
import Verif.Props.Local
import Verif.Props.Alone
import Verif.Props.Visited
import Verif.Spec.Brackets
import Verif.Lemmas.Brackets
import Verif.Props.Brackets
import Verif.Lemmas.Join
import Verif.Lemmas.Heads
import Verif.Lemmas.SpellJoin
import Verif.Spec.Join
import Verif.Props.Join
import Verif.Props.AstEq
import Verif.Props.ScopeMem
import Verif.Buffer
import Verif.Spec.Buffer
import Verif.Props.Buffer
import Verif.Props.Rename
import Verif.Props.ScopeMap
import Verif.Lemmas.Few
import Verif.Lemmas.FewParts
import Verif.Lemmas.FewAll
import Verif.Props.ErrorCount
import Verif.Spec.Unplaced
import Verif.Lemmas.Unplaced
import Verif.Props.Unplaced
import Verif.Lemmas.Breadth
import Verif.Props.Breadth
import Verif.Lemmas.Census
import Verif.Props.Census
import Verif.Props.Asi
import Verif.Debug
import Verif.Lemmas.DebugTree
import Verif.Lemmas.DebugShape
import Verif.Lemmas.DebugText
import Verif.Props.Debug
import Verif.JsonText
import Verif.Spec.ReadJson
import Verif.Lemmas.JsonText
import Verif.Lemmas.TypedJson
import Verif.Lemmas.JsonBytes
import Verif.Props.JsonText
import Verif.Spec.Positions
import Verif.Lemmas.PlacedJson
import Verif.Props.Positions
import Verif.Spec.VisitMap
import Verif.Props.VisitMap
import Verif.Props.Arguments
import Verif.Lemmas.VisitTidy
import Verif.Props.Pipeline
import Verif.Props.Compose
import Verif.Props.ComposeSource
