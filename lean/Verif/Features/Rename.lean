import Verif.Features.Occurrences
import Verif.Lexer.Regex
/-!
# References, highlights and renaming of variables

Models `src/server/message_handler/rename/mod.rs`, `references/mod.rs`, `document_highlight/mod.rs` and
`is_valid_variable_name` of `common/mod.rs`. The handlers look up the document and its cached tree; here both are given.
Serialisation of the response is not modelled (see Server/).
-/
namespace Verif.Features
open Verif Verif.Grammar Verif.Lexer

/-- Error codes used here (lsp/errors.rs). -/
inductive ErrCode
  | invalidRequest
  | invalidParams
  | requestFailed
  | internalError
deriving DecidableEq, Repr

/-- Outcome of a handler. -/
inductive Reply (α : Type)
  | panic
  | error (c : ErrCode)
  | ok (a : α)

/-- `PN_CHARS_U | [0-9]` (common/mod.rs L84-101). -/
def varStartChar : Class :=
  [(0x41, 0x5A), (0x61, 0x7A), (0x5F, 0x5F), (0x30, 0x39), (0x00C0, 0x00D6), (0x00D8, 0x00F6), (0x00F8, 0x02FF),
   (0x0370, 0x037D), (0x037F, 0x1FFF), (0x200C, 0x200D), (0x2070, 0x218F), (0x2C00, 0x2FEF), (0x3001, 0xD7FF),
   (0xF900, 0xFDCF), (0xFDF0, 0xFFFD), (0x10000, 0xEFFFF)]

/-- The additional characters (common/mod.rs L103-107). -/
def varMoreChar : Class := [(0x00B7, 0x00B7), (0x0300, 0x036F), (0x203F, 0x2040)]

/-- `is_var_name_start_char` (common/mod.rs L84-101). -/
def isVarNameStartChar (c : Char) : Bool := varStartChar.has c

/-- `is_var_name_char` (common/mod.rs L103-107). -/
def isVarNameChar (c : Char) : Bool := isVarNameStartChar c || varMoreChar.has c

/-- `is_valid_variable_name` (common/mod.rs L74-82). -/
def isValidVariableName : Text → Bool
  | [] => false
  | c :: cs => isVarNameStartChar c && cs.all isVarNameChar

/-- `strip_prefix(['?', '$']).unwrap_or(..)` (rename/mod.rs L53-56). -/
def stripSigil : Text → Text
  | '?' :: n => n
  | '$' :: n => n
  | n => n

/-- `position.byte_index(text)`, then `root.token_at_offset(offset).left_biased()` (rename/mod.rs L31-44,
references/mod.rs L27-42, document_highlight/mod.rs L29-44). rowan panics on an offset outside of the tree. -/
def selectToken (text : Text) (g : Green) (pos : Position) : Reply Red :=
  match byteIndex pos text with
  | none => .error .invalidParams
  | some offset =>
    if (Red.root g).stop < offset then .panic
    else match (Red.root g).tokenAtLeft offset with
      | none => .error .invalidParams
      | some t => .ok t

/-- `iter().map(|x| f(x).unwrap()).collect()`. -/
def unwrapAll {α β : Type} (f : α → Option β) : List α → Option (List β)
  | [] => some []
  | x :: xs =>
    match f x, unwrapAll f xs with
    | some y, some ys => some (y :: ys)
    | _, _ => none

/-- The range of a node (`Range::from_byte_offset_range(var.syntax().text_range(), text)`). -/
def rangeOf (text : Text) (v : Red) : Option Range := Range.fromByteOffsetRange v.start v.stop text

/-- `token.parent().and_then(Var::cast)`. -/
def parentVar (t : Red) : Option Red :=
  match t.parent with
  | some p => if p.isVar then some p else none
  | none => none

/-- `handle_rename_request` (rename/mod.rs L15-86). -/
def rename (text : Text) (g : Green) (pos : Position) (rawNewName : Text) : Reply (List TextEdit) :=
  match selectToken text g pos with
  | .panic => .panic
  | .error c => .error c
  | .ok token =>
    if ¬ (token.kind = K.VAR1 ∨ token.kind = K.VAR2) then .error .requestFailed
    else if isValidVariableName (stripSigil rawNewName) = false then .error .invalidParams
    else match parentVar token with
      | none => .error .internalError
      | some v =>
        match findOccurrences v with
        | none => .panic
        | some vars =>
          match unwrapAll (fun v => (rangeOf text v).map (fun r => (⟨r, '?' :: stripSigil rawNewName⟩ : TextEdit))) vars with
          | none => .panic
          | some edits => .ok edits

/-- `handle_references_request` (references/mod.rs L17-61) and `handle_document_highlight_request`
(document_highlight/mod.rs L18-62): the ranges in the response, `none` if the response has none (not on a variable). -/
def references (text : Text) (g : Green) (pos : Position) : Reply (Option (List Range)) :=
  match selectToken text g pos with
  | .panic => .panic
  | .error c => .error c
  | .ok token =>
    match parentVar token with
    | none => .ok none
    | some v =>
      match findOccurrences v with
      | none => .panic
      | some vars =>
        match unwrapAll (rangeOf text) vars with
        | none => .panic
        | some rs => .ok (some rs)

end Verif.Features
