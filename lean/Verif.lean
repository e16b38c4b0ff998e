import Verif.Props.ThreeVal
import Verif.Props.Lexer
import Verif.Props.Parser
import Verif.Props.AST
import Verif.Props.Interpreter
import Verif.Props.Evaluation
import Verif.Props.CaseInsensitive
import Verif.Props.Symbols
import Verif.Props.TypeChecker
import Verif.Props.Errors
import Verif.Props.Encoder
import Verif.Props.EncoderLoss
import Verif.Props.AttCert
import Verif.Props.Config
import Verif.Props.Log
import Verif.Props.LoggingSamples
import Verif.Props.AAuthLogFiles
import Verif.Props.PAuthLog
import Verif.Props.AAuth
import Verif.Props.PAuth
import Verif.Props.Clients
import Verif.Props.EndToEnd
import Verif.Model.Tools
import Verif.Spec.Tools
import Verif.Props.Tools
import Verif.Props.Commands
import Verif.Model.PolicyGui
import Verif.Spec.PolicyGui
import Verif.Props.PolicyGui
import Verif.Model.AAuthGui
import Verif.Spec.AAuthGui
import Verif.Props.AAuthGui
import Verif.Model.Concurrent
import Verif.Spec.Concurrent
import Verif.Props.Concurrent
import Verif.Model.IniFile
import Verif.Spec.IniFile
import Verif.Proofs.IniRead
import Verif.Proofs.IniAscii
import Verif.Props.IniFile
import Verif.Model.Shipped
import Verif.Props.Shipped
import Verif.Py.Float64
import Verif.Model.LexerObj
import Verif.Props.LexerObj
import Verif.Model.Depth
import Verif.Spec.Depth
import Verif.Proofs.Depth
import Verif.Proofs.DepthTree
import Verif.Props.Depth
import Verif.Tests.Basic
import Verif.Model.Texts
import Verif.Spec.PyExpr
import Verif.Spec.Outline
import Verif.Proofs.Texts
import Verif.Proofs.TextsNode
import Verif.Props.Texts
import Verif.Props.TextsStr
import Verif.Props.Robust
import Verif.Props.Again
import Verif.Tests.Lexing
import Verif.Tests.Parsing
import Verif.Tests.Semantics
import Verif.Tests.Interpreting
import Verif.Tests.AstEncoding
import Verif.Tests.AttCert
import Verif.Py.Txt
import Verif.Model.SampleData
import Verif.Tests.SampleCerts
import Verif.Model.SyntaxErr
import Verif.Model.Messages
import Verif.Proofs.Messages
import Verif.Spec.LexErrors
import Verif.Proofs.MessagesLex
import Verif.Spec.ParseErrors
import Verif.Proofs.MessagesParse
import Verif.Props.Messages
import Verif.Model.CheckMessages
import Verif.Spec.CheckErrors
import Verif.Proofs.CheckMessages
import Verif.Props.CheckMessages
import Verif.Model.InterpMessages
import Verif.Spec.Warnings
import Verif.Proofs.InterpMessages
import Verif.Props.InterpMessages
import Verif.Props.Disclosure
import Verif.Model.PolicyConsole
import Verif.Spec.Transcript
import Verif.Props.PolicyConsole
import Verif.Model.ConcurrentIssue
import Verif.Props.ConcurrentIssue
import Verif.Props.Marks
import Verif.Props.PolicyTrees
import Verif.Props.Numbers
import Verif.Props.NodeCount
import Verif.Props.Laws
import Verif.Props.NodeRace
import Verif.Props.CertTree
import Verif.Spec.SampleData
import Verif.Props.SampleData
import Verif.Model.Columns
import Verif.Spec.Columns
import Verif.Props.Columns
import Verif.Spec.GrammarV1
import Verif.Props.ForeignKeys
import Verif.Props.Typing
import Verif.Props.GrammarV1
import Verif.Props.DemoData
import Verif.Props.Handler
import Verif.Props.SessionKeys
import Verif.Props.ToolsLog
import Verif.Spec.Bearer
import Verif.Props.Bearer
import Verif.Model.AAuthStart
import Verif.Spec.AAuthStart
import Verif.Props.AAuthStart
import Verif.Model.ClientsLog
import Verif.Spec.ClientsLog
import Verif.Props.ClientsLog
import Verif.Spec.Sizes
import Verif.Props.Sizes
import Verif.Spec.Independence
import Verif.Props.Independence
import Verif.Spec.Names
import Verif.Props.Names
import Verif.Spec.Certain
import Verif.Props.Certain
import Verif.Spec.Relevant
import Verif.Props.Relevant
import Verif.Props.Literals
import Verif.Props.Needed
import Verif.Props.CheckedCertain
import Verif.Spec.Polarity
import Verif.Props.Polarity
import Verif.Spec.Expressive
import Verif.Props.Expressive
import Verif.Props.ExpressiveUp
import Verif.Props.LargeNumbers
import Verif.Props.Thresholds
import Verif.Props.DigitLimit
import Verif.Props.FloatDecisions
import Verif.Props.SetDecisions
import Verif.Props.Matching
import Verif.Props.PairDecisions
import Verif.Props.TextPairs
