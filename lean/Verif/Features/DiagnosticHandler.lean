import Verif.Features.QuickFix
import Verif.Features.SelectDiagnostics
import Verif.Features.SyntaxDiagnostics
import Verif.Features.SameSubject
import Verif.Features.UncompactedUri
/-!
# The diagnostics request

Models `handle_diagnostic_request` (`src/server/message_handler/diagnostic/mod.rs`) and `auto_fix_prefixes`
(`.../auto_fix_prefixes.rs`). The document and its cached tree are given (C16 is about the cache). Messages are not modelled.
-/
namespace Verif.Features
open Verif Verif.Grammar Verif.Lexer

/-- A diagnostic: they differ in the type of `data` (`Option<LSPAny>`, lsp/diagnostic.rs). -/
inductive AnyDiag
  | plain (d : Diag)
  | triple (d : TripleDiag)
  | uri (d : UriDiag)
deriving DecidableEq, Repr

def AnyDiag.range : AnyDiag → Range
  | .plain d => d.range
  | .triple d => d.range
  | .uri d => d.range

def AnyDiag.code : AnyDiag → DiagCode
  | .plain d => d.code
  | .triple d => d.code
  | .uri d => d.code

def AnyDiag.severity : AnyDiag → Severity
  | .plain d => d.severity
  | .triple d => d.severity
  | .uri d => d.severity

/-- `if let Some(LSPAny::String(prefix)) = diagnostic.data` (auto_fix_prefixes.rs L31). -/
def AnyDiag.str : AnyDiag → Option Text
  | .plain d => d.data
  | _ => none

/-- The settings and server state the handler reads: the prefix map of the default backend (`shorten_uri` and `find_by_prefix`,
crate `curies`), `settings.prefixes` and the capability of the client. -/
structure DiagEnv where
  shorten : Text → Option Short
  find : Text → Option Text
  addMissing : Bool
  removeUnused : Bool
  workspaceEdits : Bool

/-- The reports of all providers in order (diagnostic/mod.rs L37-54); `none` is a panic. -/
def allDiags (env : DiagEnv) (errLen : Text → Nat) (text : Text) (g : Green) : Option (List AnyDiag) :=
  match added (unusedPrefix text g), added (undeclaredPrefix text g), uncompactedUri env.shorten text g, added (ungroupedSelect text g),
    added (invalidProjection text g), sameSubject text g, added (syntaxError errLen text), added (duplicatePrefix text g),
    added (groupbyStar text g) with
  | some a, some b, some c, some d, some e, some f, some h, some i, some j =>
    some (a.map .plain ++ b.map .plain ++ c.map .uri ++ d.map .plain ++ e.map .plain ++ f.map .triple ++ h.map .plain ++
      i.map .plain ++ j.map .plain)
  | _, _, _, _, _, _, _, _, _ => none

/-- The fix of a diagnostic (auto_fix_prefixes.rs L33-57); the outer `none` is a panic, an error reply counts as no fix (`.ok()`). -/
def fixOf (env : DiagEnv) (text : Text) (g : Green) (d : AnyDiag) : Option (Option TextEdit) :=
  if d.code = .undeclaredPrefix ∧ env.addMissing = true then some ((declarePrefix env.find d.str).getD none)
  else if d.code = .unusedPrefix ∧ env.removeUnused = true then (removePrefix text g d.range).map some
  else some none

/-- The loop of `auto_fix_prefixes` (auto_fix_prefixes.rs L28-65) with the set `prefixes` of seen data. -/
def autoFix (env : DiagEnv) (text : Text) (g : Green) : List AnyDiag → (seen : List Text) → Option (List TextEdit)
  | [], _ => some []
  | d :: ds, seen =>
    match d.str with
    | none => autoFix env text g ds seen
    | some p =>
      if seen.contains p then autoFix env text g ds seen
      else
        match fixOf env text g d, autoFix env text g ds (p :: seen) with
        | some (some e), some es => some (e :: es)
        | some none, some es => some es
        | _, _ => none

/-- The messages the handler sends: an error, or the edits of the `workspace/applyEdit` request (no such request if there are none)
followed by the diagnostics. -/
inductive DiagReply
  | error
  | ok (edits : List TextEdit) (diags : List AnyDiag)
deriving DecidableEq, Repr

/-- `handle_diagnostic_request` (diagnostic/mod.rs L21-62); `none` is a panic. -/
def diagnosticRequest (env : DiagEnv) (errLen : Text → Nat) (text : Text) (g : Green) : Option DiagReply :=
  if g.kind = K.QueryUnit then
    match allDiags env errLen text g with
    | none => none
    | some ds =>
      if env.workspaceEdits then (autoFix env text g ds []).map (fun es => .ok es ds)
      else some (.ok [] ds)
  else some .error

/-! ## Specification -/

/-- The range marks a piece of the document. -/
def InText (text : Text) (r : Range) : Prop := ∃ a m b, text = a ++ m ++ b ∧ r = ⟨posOf a, posOf (a ++ m)⟩

end Verif.Features
