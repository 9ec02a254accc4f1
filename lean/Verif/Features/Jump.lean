import Verif.Features.Red
import Verif.Features.Rename
import Verif.ApplyEdits
/-!
# The `qlueLs/jump` request

Models `handle_jump_request`, `map_offset_through_edits` and `relevant_positions`
(`src/server/message_handler/jump/mod.rs` L22-183). The edits produced by `format_document` are a parameter (the formatter
is not modelled); parsing the formatted text is a parameter too (instantiated with `parseSource` in the theorems).
-/
namespace Verif.Features
open Verif Verif.Grammar

/-- `as u32` of an `i64`. -/
def toU32 (x : Int) : Nat := (x % 4294967296).toNat

/-- The `filter_map` that turns edits into byte ranges and lengths (jump/mod.rs L105-112). `TextRange::new` panics if the
range is reversed: `none`. -/
def byteEdits (text : Text) : List TextEdit → Option (List ((Nat × Nat) × Nat))
  | [] => some []
  | e :: es =>
    match byteEdits text es with
    | none => none
    | some rest =>
      match e.range.toByteIndexRange text with
      | none => some rest
      | some (a, b) => if b < a then none else some (((a, b), blen e.newText) :: rest)

/-- `sort_by_key(|(range, _)| range.start())` (jump/mod.rs L113): stable. -/
def sortByStart (l : List ((Nat × Nat) × Nat)) : List ((Nat × Nat) × Nat) :=
  l.insertionSort (fun a b => a.1.1 ≤ b.1.1)

/-- The loop of `map_offset_through_edits` (jump/mod.rs L114-123). -/
def mapLoop (offset : Nat) : List ((Nat × Nat) × Nat) → Int → Nat
  | [], delta => toU32 (offset + delta)
  | ((a, b), n) :: rest, delta =>
    if b ≤ offset then mapLoop offset rest (delta + (n - (b - a)))
    else if a < offset then toU32 (a + delta + n)
    else toU32 (offset + delta)

/-- `map_offset_through_edits` (jump/mod.rs L104-125); `none` is a panic. -/
def mapOffset (offset : Nat) (edits : List TextEdit) (text : Text) : Option Nat :=
  (byteEdits text edits).map (fun l => mapLoop offset (sortByStart l) 0)

/-- `first_child_by_kind(&T::can_cast)`. -/
def Red.childOf (r : Red) (ks : List Kind) : Option Red := r.children.find? (fun c => decide (c.kind ∈ ks))

/-- `QueryUnit::select_query` (ast/mod.rs L13-19). -/
def selectQuery (g : Green) : Option Red :=
  match (Red.root g).firstChild with
  | none => none
  | some q => q.childOf [K.SelectQuery, K.SubSelect]

/-- A place to jump to: offset, text inserted before and after the cursor. -/
abbrev Place := Nat × Text × Text

/-- End of the select clause, or start of the where clause when going back (jump/mod.rs L133-147). -/
def selectPlace (g : Green) (prev : Bool) : List Place :=
  match selectQuery g with
  | none => []
  | some sq =>
    if prev then
      match sq.childOf [K.WhereClause] with
      | none => []
      | some w => [(w.start, [], [' '])]
    else
      match sq.childOf [K.SelectClause] with
      | none => []
      | some c => [(c.stop, [' '], [])]

/-- In front of the last element of every group graph pattern (jump/mod.rs L149-168). -/
def groupPlaces (g : Green) : List Place :=
  ((Red.root g).descendants.filter (fun n => n.kind == K.GroupGraphPattern)).filterMap (fun n =>
    match n.lastChildT with
    | none => none
    | some t => some (t.start, if n.firstChild.isSome then [' ', ' '] else ['\n', ' ', ' '], ['\n']))

/-- Behind the last token that is not white space (jump/mod.rs L170-179). -/
def endPlace (g : Green) : List Place :=
  match ((Red.root g).tokens.reverse.dropWhile (fun t => t.kind == K.WHITESPACE)).head? with
  | none => []
  | some t => [(t.stop, ['\n'], [])]

/-- `relevant_positions` (jump/mod.rs L127-183). -/
def relevantPositions (g : Green) (prev : Bool) : List Place :=
  if g.kind = K.QueryUnit then
    (selectPlace g prev ++ groupPlaces g ++ endPlace g).insertionSort (fun a b => a.1 ≤ b.1)
  else []

/-- The choice of the target (jump/mod.rs L60-75). -/
def jumpTarget (results : List Place) (cursor : Nat) (prev : Bool) : Option Place :=
  if prev then (results.reverse.find? (fun p => decide (p.1 < cursor))).or results.getLast?
  else (results.find? (fun p => decide (p.1 > cursor))).or results.head?

/-- `String::insert_str`: panics if the index is not a character boundary. -/
def insertStr (t : Text) (o : Nat) (s : Text) : Option Text :=
  match splitAtByte t o with
  | none => none
  | some (a, b) => some (a ++ s ++ b)

/-- The second half of the handler on the formatted text and its tree (jump/mod.rs L58-87): the final text and the new
cursor position. -/
def jumpFormatted (formatted : Text) (g : Green) (cursor : Nat) (prev : Bool) : Option (Text × Option Position) :=
  match jumpTarget (relevantPositions g prev) cursor prev with
  | none => some (formatted, none)
  | some (offset, before, after) =>
    match insertStr formatted offset (before ++ after) with
    | none => none
    | some final => some (final, fromByteIndex (offset + blen before) final)

/-- `handle_jump_request` (jump/mod.rs L22-97). `edits` is what `format_document` returned. The new document is sent as one
edit over the range (0, 0) - (u32::MAX, u32::MAX). -/
def jump (parse : Text → Option (Green × List SyntaxErr)) (text : Text) (pos : Position) (edits : List TextEdit)
    (prev : Bool) : Reply (Text × Option Position) :=
  match byteIndex pos text with
  | none => .error .invalidRequest
  | some cursor =>
    match mapOffset cursor edits text with
    | none => .panic
    | some cursor' =>
      match applyTextEdits text edits with
      | none => .panic
      | some formatted =>
        match parse formatted with
        | none => .panic
        | some (g, _) =>
          match jumpFormatted formatted g cursor' prev with
          | none => .panic
          | some r => .ok r

end Verif.Features
