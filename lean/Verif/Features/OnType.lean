import Verif.Features.Rename
import Verif.Features.Indent
import Verif.ApplyEdits
/-!
# Formatting while typing

Models `src/server/message_handler/on_type_formatting/mod.rs` and `column_at_offset`, `predicate_alignment_column` of
`src/server/message_handler/indent.rs`. The handler looks up the document and its cached tree; here both are given.

Simplifications: the display width of a character (crate `unicode-width`) is a parameter; numbers are unbounded (`u32` in the
code), and so is memory (`" ".repeat(tab_size)`).
-/
namespace Verif.Features
open Verif Verif.Grammar

/-- `FormattingOptions` (lsp/messages/textdocument_formatting.rs) as far as used. -/
structure TypeOptions where
  tabSize : Nat
  insertSpaces : Bool

/-- The settings used (configuration.rs). -/
structure TypeSettings where
  alignPredicates : Bool
  autoLineBreak : Bool

/-- `str::repeat`. -/
def repeatText (t : Text) (n : Nat) : Text := (List.replicate n t).flatten

/-- The `tab_unit` (on_type_formatting/mod.rs L107-111, L244-248). -/
def tabUnit (o : TypeOptions) : Text := if o.insertSpaces then List.replicate o.tabSize ' ' else ['\t']

/-- `column_at_offset` (indent.rs L13-19); `none` is a panic (offset inside a character). `width` is
`c.width().unwrap_or(0)`. -/
def columnAt (width : Char → Nat) (text : Text) (offset : Nat) : Option Nat :=
  match splitAtByte text offset with
  | none => none
  | some (pre, _) => some ((pre.reverse.takeWhile (fun c => c != '\n')).foldl (fun acc c => acc + width c) 0)

/-- `Triple::properties_list_path` (ast/mod.rs L495-497, L939-944). -/
def propertyList (triple : Red) : Option Red :=
  match triple.children[1]? with
  | none => none
  | some p => if p.kind = K.PropertyListPath ∨ p.kind = K.PropertyListPathNotEmpty then some p else none

/-- `token.parent_ancestors().find(|n| n.kind() == TriplesSameSubjectPath)`. -/
def tripleAbove (t : Red) : Option Red := (Red.chain t.up).find? (fun n => n.kind == K.TriplesSameSubjectPath)

/-- `predicate_alignment_column` (indent.rs L25-37); the outer `none` is a panic. -/
def alignColumn (width : Char → Nat) (text : Text) (t : Red) : Option (Option Nat) :=
  match tripleAbove t with
  | none => some none
  | some triple =>
    match propertyList triple with
    | none => some none
    | some p => (columnAt width text p.start).map some

/-- Indentation behind a `;` (on_type_formatting/mod.rs L141-155, L253-262). -/
def continuation (width : Char → Nat) (s : TypeSettings) (o : TypeOptions) (text : Text) (semicolon : Red) (indent : Text) : Option Text :=
  if s.alignPredicates then
    match alignColumn width text semicolon with
    | none => none
    | some (some col) => some (List.replicate col ' ')
    | some none => some (indent ++ tabUnit o)
  else some (indent ++ tabUnit o)

/-- `text.get(b - 1..b).is_some_and(|c| c == ch)` with `b > 0` (on_type_formatting/mod.rs L85-89, L205-209), for an ASCII
character; and the text behind `b`. -/
def charBefore (text : Text) (b : Nat) (ch : Char) : Option Text :=
  match splitAtByte text b with
  | none => none
  | some (pre, post) => if pre.getLast? = some ch then some post else none

/-- `take_while(|c| *c == ' ' || *c == '\t')` (on_type_formatting/mod.rs L126-129, L279-282). -/
def leadingBlanks (post : Text) : Text := post.takeWhile (fun c => c == ' ' || c == '\t')

/-- `std::iter::successors(trigger_token.prev_token(), |t| t.prev_token())`: the tokens in front of a token, last one first.
(rowan's `prev_token` stops at an empty node; there are none in parser output, C15.) -/
def tokensBefore (g : Green) (t : Red) : List Red := ((Red.root g).tokens.takeWhile (fun x => x.path != t.path)).reverse

/-- `find(|t| !t.kind().is_trivia())`, then `filter(|t| t.kind() == Semicolon)` (on_type_formatting/mod.rs L136-138). -/
def prevSemicolon (g : Green) (t : Red) : Option Red :=
  match (tokensBefore g t).find? (fun x => !(x.kind == K.WHITESPACE || x.kind == K.Comment)) with
  | none => none
  | some x => if x.kind = K.Semicolon then some x else none

/-- The response with one edit: `n` UTF-16 units from the cursor are replaced (on_type_formatting/mod.rs L160-171, L286-297). -/
def editAt (pos : Position) (n : Nat) (new : Text) : List TextEdit := [⟨⟨pos, ⟨pos.line, pos.character + n⟩⟩, new⟩]

/-- `handle_newline_trigger` (on_type_formatting/mod.rs L74-173). `ok none` is the `null` response. -/
def onNewline (width : Char → Nat) (s : TypeSettings) (o : TypeOptions) (text : Text) (g : Green) (pos : Position) (b : Nat) :
    Reply (Option (List TextEdit)) :=
  match charBefore text b '\n' with
  | none => .error .invalidRequest
  | some post =>
    if (Red.root g).stop < b then .panic
    else match (Red.root g).tokenAtLeft b with
      | none => .error .internalError
      | some t =>
        let indent := repeatText (tabUnit o) (braceDepth t)
        if ¬ (t.kind = K.WHITESPACE ∨ t.kind = K.ANON ∨ t.kind = K.NIL) then .ok none
        else
          let old := (leadingBlanks post).length
          match prevSemicolon g t with
          | none => .ok (some (editAt pos old indent))
          | some semicolon =>
            match continuation width s o text semicolon indent with
            | none => .panic
            | some new => .ok (some (editAt pos old new))

/-- `find_triple_for_terminator` (on_type_formatting/mod.rs L305-329). -/
def tripleFor (t : Red) (k : Kind) : Option Red :=
  if k = K.Semicolon then tripleAbove t
  else if k = K.Dot then
    match t.parent with
    | none => none
    | some p =>
      if p.kind = K.TriplesBlock then p.children.find? (fun c => c.kind == K.TriplesSameSubjectPath) else none
  else none

/-- `AstNode::has_error` (ast/mod.rs L1647-1655). -/
def hasError (n : Red) : Bool := n.descendants.any (fun x => x.kind == K.Error)

/-- The indentation behind a terminator (on_type_formatting/mod.rs L244-275). -/
def terminatorIndent (width : Char → Nat) (s : TypeSettings) (o : TypeOptions) (text : Text) (t : Red) (k : Kind) : Option Text :=
  if k = K.Semicolon then continuation width s o text t (repeatText (tabUnit o) (braceDepth t))
  else some (repeatText (tabUnit o) (braceDepth t))

/-- `handle_terminator_trigger` (on_type_formatting/mod.rs L177-299), called with `;` or `.` and its kind. -/
def onTerminator (width : Char → Nat) (s : TypeSettings) (o : TypeOptions) (text : Text) (g : Green) (pos : Position) (b : Nat)
    (ch : Char) (k : Kind) : Reply (Option (List TextEdit)) :=
  if s.autoLineBreak = false then .ok none
  else
    match charBefore text b ch with
    | none => .error .invalidRequest
    | some post =>
      if (Red.root g).stop < b then .panic
      else match (Red.root g).tokenAtLeft b with
        | none => .error .internalError
        | some t =>
          if t.kind ≠ k then .ok none
          else match tripleFor t k with
            | none => .ok none
            | some triple =>
              if hasError triple then .ok none
              else match terminatorIndent width s o text t k with
                | none => .panic
                | some new => .ok (some (editAt pos (leadingBlanks post).length ('\n' :: new)))

/-- `handle_on_type_format_request` (on_type_formatting/mod.rs L21-70); `ch` is the typed text. -/
def onType (width : Char → Nat) (s : TypeSettings) (o : TypeOptions) (text : Text) (g : Green) (pos : Position) (ch : Text) :
    Reply (Option (List TextEdit)) :=
  match byteIndex pos text with
  | none => .error .invalidParams
  | some b =>
    if ch = ['\n'] then onNewline width s o text g pos b
    else if ch = [';'] then onTerminator width s o text g pos b ';' K.Semicolon
    else if ch = ['.'] then onTerminator width s o text g pos b '.' K.Dot
    else .error .invalidRequest

end Verif.Features
