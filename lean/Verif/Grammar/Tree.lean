import Verif.Text
import Verif.Grammar.Stmt
/-!
# From events to the syntax tree

Models `crates/sparql-parser/src/parser/mod.rs` L17-183 (`Token`, `parse_text`, `remove_empty_nodes`, `build_tree`)
and the part of rowan's `GreenNodeBuilder` it uses.

Simplifications: (`tokens`, `cursor`) is represented by the pair of the tokens before and from the cursor. Interning of
green nodes is not modelled (it does not affect equality). Spans are unbounded naturals (`u32` in the code: documents
of 4 GiB and more are out of scope). The message text of an error is represented by the list of expected kinds. A panic
is `none`.
-/
namespace Verif.Grammar
open Verif

/-- A lexed token with its byte span (parser/mod.rs L17-21 and the `Range<usize>` next to it, L323-337). -/
structure Tok where
  kind : Kind
  text : Text
  start : Nat
  stop : Nat
deriving DecidableEq, Repr

/-- `Token::is_trivia` (parser/mod.rs L23-26). -/
def Tok.trivia (t : Tok) : Bool := t.kind == K.WHITESPACE || t.kind == K.Comment

/-! ## `remove_empty_nodes` (parser/mod.rs L56-89) -/

/-- The loop: index of the current event, flags, stack (top first). `none` = the `expect` on the empty stack. -/
def removeLoop : List Event → Nat → List Bool → List (Nat × Bool) → Option (List Bool)
  | [], _, remove, _ => some remove
  | .openNode _ :: es, i, remove, stack => removeLoop es (i + 1) remove ((i, false) :: stack)
  | .advance :: es, i, remove, stack =>
    removeLoop es (i + 1) remove (match stack with | [] => [] | (j, _) :: st => (j, true) :: st)
  | .close :: es, i, remove, stack =>
    match stack with
    | [] => none
    | (j, hasTokens) :: st =>
      if !hasTokens && !st.isEmpty then removeLoop es (i + 1) ((remove.set j true).set i true) st
      else if hasTokens then
        removeLoop es (i + 1) remove (match st with | [] => [] | (j', _) :: st' => (j', true) :: st')
      else removeLoop es (i + 1) remove st
  | .error _ :: es, i, remove, stack => removeLoop es (i + 1) remove stack

/-- Keep the events whose flag is not set (parser/mod.rs L84-88). -/
def keepEvents (events : List Event) (remove : List Bool) : List Event :=
  (events.zip remove).filterMap (fun p => if p.2 then none else some p.1)

/-- `remove_empty_nodes` (parser/mod.rs L56-89). -/
def removeEmptyNodes (events : List Event) : Option (List Event) :=
  (removeLoop events 0 (List.replicate events.length false) []).map (keepEvents events)

/-! ## rowan's builder -/

/-- Green tree elements. -/
inductive Green
  | tok (kind : Kind) (text : Text)
  | node (kind : Kind) (children : List Green)
deriving Repr

/-- `ParseError` (parser/mod.rs L32-37): span and expected kinds. -/
structure SyntaxErr where
  start : Nat
  stop : Nat
  expected : List Kind
deriving DecidableEq, Repr

/-- Local state of `build_tree`: tokens before and from `cursor`, the builder's `parents` (top first) and `children`
vectors (rowan 0.15 `GreenNodeBuilder`), and the errors so far. -/
structure BState where
  done : List Tok
  rest : List Tok
  parents : List (Kind × Nat)
  children : List Green
  errs : List SyntaxErr

/-- `builder.token(kind, text); cursor += 1` for the token at the cursor (parser/mod.rs L109-111, L165-167). -/
def BState.emit (b : BState) (t : Tok) (rest : List Tok) : BState :=
  { b with done := b.done ++ [t], rest := rest, children := b.children ++ [.tok t.kind t.text] }

/-- `while tokens.get(cursor) is trivia { builder.token(..); cursor += 1 }` (parser/mod.rs L104-112, L157-164,
L173-180), with the remaining tokens as explicit argument. -/
def eatTrivia : List Tok → BState → BState
  | [], b => b
  | t :: ts, b => if t.trivia then eatTrivia ts (b.emit t ts) else b

/-- `builder.start_node(kind)` (rowan: push kind and number of children). -/
def BState.startNode (b : BState) (k : Kind) : BState :=
  { b with parents := (k, b.children.length) :: b.parents }

/-- `builder.finish_node()` (rowan: pop a parent, wrap the children from its first child on). -/
def BState.finishNode (b : BState) : Option BState :=
  match b.parents with
  | [] => none
  | (k, n) :: ps => some { b with parents := ps, children := b.children.take n ++ [.node k (b.children.drop n)] }

/-- The span of a syntax error (parser/mod.rs L115-135). -/
def errorSpan (done rest : List Tok) : Nat × Nat :=
  match rest.find? (fun t => !t.trivia) with
  | some t => (t.start, t.stop)
  | none =>
    let e := match done.reverse.find? (fun t => !t.trivia) with
      | some t => t.stop
      | none => 0
    (e, e)

/-- One event (parser/mod.rs L102-169). -/
def buildEvent (b : BState) : Event → Option BState
  | .openNode k =>
    let b := if k = K.QueryUnit ∨ k = K.UpdateUnit then b else eatTrivia b.rest b
    some (b.startNode k)
  | .error expected =>
    let sp := errorSpan b.done b.rest
    some { b with errs := b.errs ++ [⟨sp.1, sp.2, expected⟩] }
  | .close => b.finishNode
  | .advance =>
    let b := eatTrivia b.rest b
    match b.rest with
    | [] => none
    | t :: ts => some (b.emit t ts)

/-- The `for` loop (parser/mod.rs L101-170). -/
def buildLoop : List Event → BState → Option BState
  | [], b => some b
  | e :: es, b =>
    match buildEvent b e with
    | none => none
    | some b => buildLoop es b

/-- `builder.finish()` (rowan: exactly one child, which must be a node). -/
def BState.finish (b : BState) : Option (Green × List SyntaxErr) :=
  match b.children with
  | [.node k cs] => some (.node k cs, b.errs)
  | _ => none

/-- `build_tree` (parser/mod.rs L91-183). -/
def buildTree (tokens : List Tok) (events : List Event) : Option (Green × List SyntaxErr) :=
  match events with
  | [] => none
  | _ :: _ =>
    match buildLoop events.dropLast ⟨[], tokens, [], [], []⟩ with
    | none => none
    | some b =>
      if events.getLast? = some .close then
        match (eatTrivia b.rest b).finishNode with
        | none => none
        | some b => b.finish
      else none

end Verif.Grammar
