import Verif.Features.CodeAction
/-!
# Code actions that change the select clause

Models `src/server/message_handler/code_action/variable/add_to_result.rs` and `add_aggregate_to_result.rs`. `v` is a `Var` node.
-/
namespace Verif.Features
open Verif Verif.Grammar

/-- `SelectQuery::can_cast` (ast/mod.rs L1517-1519). -/
def Red.isSel (r : Red) : Bool := r.kind == K.SelectQuery || r.kind == K.SubSelect

/-- The query whose result the variable is added to (add_to_result.rs L17-25, add_aggregate_to_result.rs L16-24): a variable in the head of a
sub-select is added to the query around it. -/
def resultQuery (v : Red) : Option Red :=
  match v.ancestors[2]? with
  | none => none
  | some gp => if gp.kind = K.SubSelect then (v.ancestors.drop 3).find? Red.isSel else v.ancestors.find? Red.isSel

/-- The edit for a select clause that ends with a star: the character in front of `p` goes (add_to_result.rs L53-65). The subtraction panics at the
beginning of a line; in a valid document the star is in front of `p`. -/
def starEdit (p : Position) (new : Text) : TextEdit := ⟨⟨⟨p.line, p.character - 1⟩, p⟩, new⟩

/-- The check of add_to_result.rs L28-45: the variable is not in the select clause, and if the query is grouped, it is a variable of the group. -/
def mayAdd (s c : Red) (t : Text) : Bool :=
  !((selectedVars c).map Red.text).contains t &&
    (match groupClause s with
     | none => true
     | some gc => (groupTexts gc).contains t)

/-- The first opening parenthesis of the clause (L47-52). -/
def firstParen (c : Red) : Option Red := c.childrenT.find? (fun x => x.kind == K.LParen)

/-- Where the variable is put (L46-53). -/
def addOffset (c : Red) : Nat :=
  match firstParen c with
  | some l => l.start
  | none => c.stop

/-- The edit of `add_to_result::code_action` for a clause (L46-81). -/
def addEdit (text : Text) (c : Red) (t : Text) : Option TextEdit :=
  match fromByteIndex (addOffset c) text, c.childrenT.getLast? with
  | some p, some l =>
    if l.kind = K.Star then some (starEdit p t)
    else some ⟨⟨p, p⟩, if (firstParen c).isSome then t ++ [' '] else ' ' :: t⟩
  | _, _ => none

/-- `add_to_result::code_action` (add_to_result.rs L16-84). -/
def addToResult (text : Text) (v : Red) : Option TextEdit :=
  match resultQuery v with
  | none => none
  | some s =>
    match s.childOf [K.SelectClause] with
    | none => none
    | some c => if mayAdd s c v.text then addEdit text c v.text else none

/-- `(COUNT(?x) AS ?count_x)` and so on (add_aggregate_to_result.rs L49-74): the name of the function and the prefix of the variable. -/
def aggText (f : Text) (pre : Text) (v : Text) : Text :=
  ['('] ++ f ++ ['('] ++ v ++ [')', ' ', 'A', 'S', ' ', '?'] ++ pre ++ varName v ++ [')']

/-- `(GROUP_CONCAT(DISTINCT ?x; SEPARATOR = ", ") as ?group_concat_x)` (L75-82). -/
def concatText (v : Text) : Text :=
  ['(', 'G', 'R', 'O', 'U', 'P', '_', 'C', 'O', 'N', 'C', 'A', 'T', '(', 'D', 'I', 'S', 'T', 'I', 'N', 'C', 'T', ' '] ++ v ++
  [';', ' ', 'S', 'E', 'P', 'A', 'R', 'A', 'T', 'O', 'R', ' ', '=', ' ', '"', ',', ' ', '"', ')', ' ', 'a', 's', ' ', '?',
   'g', 'r', 'o', 'u', 'p', '_', 'c', 'o', 'n', 'c', 'a', 't', '_'] ++ varName v ++ [')']

/-- The seven aggregates (L48-83). -/
def aggTexts (v : Text) : List Text :=
  [aggText ['C', 'O', 'U', 'N', 'T'] ['c', 'o', 'u', 'n', 't', '_'] v,
   aggText ['S', 'U', 'M'] ['s', 'u', 'm', '_'] v,
   aggText ['M', 'I', 'N'] ['m', 'i', 'n', '_'] v,
   aggText ['M', 'A', 'X'] ['m', 'a', 'x', '_'] v,
   aggText ['A', 'V', 'G'] ['a', 'v', 'g', '_'] v,
   aggText ['S', 'A', 'M', 'P', 'L', 'E'] ['s', 'a', 'm', 'p', 'l', 'e', '_'] v,
   concatText v]

/-- `add_aggregate_to_result::code_actions` (add_aggregate_to_result.rs L15-109), the edits. -/
def addAggregates (text : Text) (v : Red) : Option (List TextEdit) :=
  match resultQuery v with
  | none => none
  | some s =>
    match groupClause s with
    | none => none
    | some gc =>
      if (groupTexts gc).contains (varName v.text) then none
      else
        match s.childOf [K.SelectClause] with
        | none => none
        | some c =>
          match fromByteIndex c.stop text, c.childrenT.getLast? with
          | some p, some l => some ((aggTexts v.text).map (fun new => if l.kind = K.Star then starEdit p new else ⟨⟨p, p⟩, ' ' :: new⟩))
          | _, _ => none

end Verif.Features
