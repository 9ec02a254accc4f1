import Verif.Features.Diagnostics
import Verif.Lexer.Lex
/-!
# Syntax errors as diagnostics

Models `src/server/message_handler/diagnostic/syntax_error.rs`. Messages are not modelled.
-/
namespace Verif.Features
open Verif Verif.Grammar Verif.Lexer

/-- `syntax_error::diagnostics` (syntax_error.rs L21-42): the document is parsed again and the first error is reported. The outer
`none` is a panic (of the parser or of `expect`). -/
def syntaxError (errLen : Text → Nat) (text : Text) : Option (Option (List Diag)) :=
  match parseSource errLen text with
  | none => none
  | some (_, []) => some none
  | some (_, e :: _) =>
    (Range.fromByteOffsetRange e.start e.stop text).map (fun r => some [⟨r, .error, .syntaxError, none⟩])

end Verif.Features
