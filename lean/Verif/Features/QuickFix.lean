import Verif.Features.Diagnostics
/-!
# Quick fixes for prefixes

Models `remove_prefix_declaration` and `declare_prefix` (`src/server/message_handler/code_action/quickfix.rs`). The document
and its tree are given (the code falls back to the range of the diagnostic if the document is unknown). A code action is
the list of its edits; title, kind and the copied diagnostics are not modelled.
-/
namespace Verif.Features
open Verif Verif.Grammar

mutual
/-- rowan's `SyntaxNode::covering_element(range)`: descend into the child that contains the range `a..b`
(`child_or_token_at_range`; of two children that contain an empty range the first one) as long as there is one. rowan's
assertion that the range is inside the tree is not modelled: the ranges come from `to_byte_index_range`. -/
def coverAt (a b : Nat) (g : Green) (idx off : Nat) (up : List Site) : Red :=
  match g with
  | .tok k t => ⟨⟨.tok k t, idx, off⟩, up⟩
  | .node k cs => (coverIn a b cs 0 off (⟨.node k cs, idx, off⟩ :: up)).getD ⟨⟨.node k cs, idx, off⟩, up⟩
/-- The search among the children. -/
def coverIn (a b : Nat) (cs : List Green) (idx off : Nat) (up : List Site) : Option Red :=
  match cs with
  | [] => none
  | g :: gs =>
    if off ≤ a ∧ b ≤ off + blen g.text then some (coverAt a b g idx off up)
    else coverIn a b gs (idx + 1) (off + blen g.text) up
end

/-- `tree.covering_element(a..b)`. -/
def covering (g : Green) (a b : Nat) : Red := coverAt a b g 0 0 []

/-- The first token behind a node that is neither white space nor a comment: `last_token`, then `next_token` while
`is_trivia` (quickfix.rs L70-81). -/
def nextSignificant (g : Green) (d : Red) : Option Red :=
  (Red.root g).tokens.find? (fun t => decide (d.stop ≤ t.start) && !isTriviaKind t.kind)

/-- `optimal_range` (quickfix.rs L52-95) for a byte range. -/
def optimalRange (text : Text) (g : Green) (a b : Nat) : Option Range :=
  let d := covering g a b
  if d.kind = K.PrefixDecl then
    match nextSignificant g d with
    | none => none
    | some n => Range.fromByteOffsetRange a n.start text
  else none

/-- `remove_prefix_declaration` (quickfix.rs L47-101) for a diagnostic with the given range: the edit of the code action.
`none` is the panic of `TextRange::new` for a range that ends before it starts. -/
def removePrefix (text : Text) (g : Green) (range : Range) : Option TextEdit :=
  match range.toByteIndexRange text with
  | none => some ⟨range, []⟩
  | some (a, b) => if b < a then none else some ⟨(optimalRange text g a b).getD range, []⟩

/-- The text `PREFIX prefix: <uri>` and a line break (quickfix.rs L154). -/
def declText (prefix_ uri : Text) : Text :=
  ['P', 'R', 'E', 'F', 'I', 'X', ' '] ++ prefix_ ++ [':', ' ', '<'] ++ uri ++ ['>', '\n']

/-- `declare_prefix` (quickfix.rs L135-172) for a diagnostic with the given data: `none` is the error reply, `some none` no
code action. `find` is `find_by_prefix` of the converter of the default backend (crate `curies`), `fun _ => none` without
default backend. -/
def declarePrefix (find : Text → Option Text) (data : Option Text) : Option (Option TextEdit) :=
  match data with
  | none => none
  | some p =>
    match find p with
    | none => some none
    | some uri => some (some ⟨⟨⟨0, 0⟩, ⟨0, 0⟩⟩, declText p uri⟩)

end Verif.Features
