import Verif.Props.Text
import Verif.Props.Edits
import Verif.Props.Parser
import Verif.Props.ParserLang
import Verif.Props.Tree
import Verif.Props.Server
import Verif.Props.Framing
import Verif.Props.SemanticTokens
import Verif.Props.Lexer
import Verif.Props.Variables
import Verif.Props.Renaming
import Verif.Props.Folding
import Verif.Props.ParseTree
import Verif.Props.Jump
import Verif.Props.Diagnostics
import Verif.Props.NTriples
import Verif.Props.LazyReader
import Verif.Props.Indent
import Verif.Props.OnType
import Verif.Props.Format
import Verif.Props.Declare
import Verif.Props.FormatQuery
import Verif.Props.SelectDiagnostics
import Verif.Props.SyntaxDiagnostics
import Verif.Props.SameSubject
import Verif.Props.UncompactedUri
import Verif.Props.DiagnosticHandler
import Verif.Props.AddFilter
import Verif.Props.Projection
import Verif.Props.SubSelect
import Verif.Props.Context
import Verif.Props.SearchTerm
import Verif.Props.ContinuationsValid
import Verif.Props.PrefixContinuations
import Verif.Props.Location
import Verif.Props.ObjectSuffix
import Verif.Props.Semicolon
import Verif.Props.ShortenAll
import Verif.Props.Contract
