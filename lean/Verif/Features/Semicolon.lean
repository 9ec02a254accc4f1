import Verif.Features.ObjectSuffix
import Verif.Features.SameSubject
import Verif.Features.SelectDiagnostics
/-!
# A further predicate of the subject in front instead of a new triple

Models `SemicolonTransformer` (`src/server/message_handler/completion/transformer/semicolon.rs` L33-139). Positions are byte offsets here
(C01-C08 are about the conversion); the label, the detail and the order of the item are not modelled.
-/
namespace Verif.Features
open Verif Verif.Grammar

/-- `Path::can_cast` (`crates/sparql-parser/src/ast/mod.rs` L841-857). -/
def pathKinds : List Kind := [K.Path, K.VerbPath, K.VerbSimple, K.PathAlternative, K.PathSequence, K.PathElt, K.PathEltOrInverse, K.PathPrimary,
  K.PathNegatedPropertySet]

/-- `step_by(2)`. -/
def everySecond {α : Type} : List α → List α
  | [] => []
  | [a] => [a]
  | a :: _ :: l => a :: everySecond l

/-- `triple.properties_list_path()?.properties().first()?.verb` (ast/mod.rs L495-497, L622-633, L939-945). -/
def firstVerb (t : Red) : Option Red :=
  match t.children[1]? with
  | none => none
  | some pl =>
    if pl.kind = K.PropertyListPath ∨ pl.kind = K.PropertyListPathNotEmpty then (everySecond pl.children).find? (fun c => pathKinds.contains c.kind)
    else none

/-- `verb_start - line_start` (semicolon.rs L63-76): the bytes between the last line break in front of an offset and the offset. -/
def lineOffset : Nat → Nat → Text → Nat
  | 0, acc, _ => acc
  | _ + 1, acc, [] => acc
  | n + 1, acc, c :: cs => if u8 c ≤ n + 1 then lineOffset (n + 1 - u8 c) (if c = '\n' then 0 else acc + u8 c) cs else acc

/-- What a transformer stores. -/
structure SemicolonOffer where
  subject : Text
  dot : Nat
  indent : Nat
deriving DecidableEq, Repr

/-- `SemicolonTransformer::try_from_env` with the setting enabled (semicolon.rs L42-88). -/
def semicolonOffer (g : Green) (location : Location) (anchor : Option Red) : Option SemicolonOffer :=
  match location with
  | .subject =>
    match anchor with
    | none => none
    | some a =>
      match a.parent with
      | none => none
      | some b =>
        if b.kind = K.TriplesBlock then
          match (triplesOf b).head? with
          | none => none
          | some t =>
            match subjectText t, b.lastToken, firstVerb t with
            | some s, some d, some v => if d.kind = K.Dot then some ⟨s, d.start, lineOffset v.start 0 g.text⟩ else none
            | _, _, _ => none
        else none
  | _ => none

/-- `trim`. -/
def trimBoth (t : Text) : Text := (trimEnd t).dropWhile isWhite

/-- `item_value` (semicolon.rs L100-116). -/
def itemValue (t : Text) : Text := if (trimBoth t).head? = some '?' then trimBoth t else '?' :: trimBoth t

/-- `transform` for a variable (semicolon.rs L94-138): the text `from .. to` of the document is replaced by the text; `none` leaves the item. The
two edits, from the dot to the start of the range of the item, and this range, are next to each other. -/
def semicolonItem (o : SemicolonOffer) (replaceStop : Nat) (t : Text) : Option (Nat × Nat × Text) :=
  if itemValue t = o.subject then some (o.dot, replaceStop, [';', '\n'] ++ List.replicate o.indent ' ') else none

end Verif.Features
