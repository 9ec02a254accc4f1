import Verif.Features.SameSubject
import Verif.Format.Walker
/-!
# The code action "Contract all triples with same subject"

Models `contract_triples` and `contract_all_triple_groups` (`src/server/message_handler/code_action/same_subject.rs` L26-67, L113-186);
`column_at_offset` and `predicate_alignment_column` are modelled in OnType.lean. The width of a character (crate
`unicode-width`) is a parameter. Titles and kinds of actions are not modelled. The order of the groups is that of `tripleGroups` (the code
iterates over a hash map).
-/
namespace Verif.Features
open Verif Verif.Grammar

/-- The start of what is removed (same_subject.rs L123-131). -/
def dropStart (t : Red) : Nat :=
  match t.parent with
  | none => t.start
  | some b =>
    match Format.prevT b with
    | none => t.start
    | some p => if p.kind = K.WHITESPACE then p.start else t.start

/-- The end of what is removed (same_subject.rs L132-145). -/
def dropStop (t : Red) : Nat :=
  match (Format.younger t).find? (fun s => s.kind == K.WHITESPACE || s.kind == K.Dot) with
  | none => t.stop
  | some n =>
    match Format.nextT n with
    | none => n.stop
    | some m => if m.kind = K.Dot then m.stop else n.stop

/-- The edit that removes a triple (same_subject.rs L146-152). `none` is a panic. -/
def dropEdit (text : Text) (t : Red) : Option TextEdit :=
  (Range.fromByteOffsetRange (dropStart t) (dropStop t) text).map (fun r => ⟨r, []⟩)

/-- The subject of a triple (ast/mod.rs L491-493, L971-973). -/
def subjectNode (t : Red) : Option Red :=
  match t.firstChild with
  | none => none
  | some c => if c.kind = K.VarOrTerm ∨ c.kind = K.TriplesNodePath then some c else none

/-- `indentation` (same_subject.rs L156-169). `none` is a panic. -/
def contractColumn (width : Char → Nat) (text : Text) (align : Bool) (tab : Option Nat) (t : Red) : Option Nat :=
  if align then
    match t.tokens.head? with
    | none => none
    | some tok => (alignColumn width text tok).join
  else
    (columnAt width text (match subjectNode t with | none => 0 | some s => s.start)).map (fun n => n + tab.getD 2)

/-- `join`. -/
def joinWith (sep : Text) : List Text → Text
  | [] => []
  | [x] => x
  | x :: y :: l => x ++ sep ++ joinWith sep (y :: l)

/-- The edit behind the first triple (same_subject.rs L154-184). `none` is a panic. -/
def appendEdit (width : Char → Nat) (text : Text) (align : Bool) (tab : Option Nat) (t : Red) (rest : List Red) : Option TextEdit :=
  match contractColumn width text align tab t with
  | none => none
  | some n =>
    match fromByteIndex t.stop text with
    | none => none
    | some pos => some ⟨⟨pos, pos⟩, [' ', ';', '\n'] ++ List.replicate n ' ' ++
        joinWith ([' ', ';', '\n'] ++ List.replicate n ' ') ((rest.filterMap propertyList).map Red.text)⟩

/-- `contract_triples` (same_subject.rs L113-186). `none` is a panic. -/
def contractTriples (width : Char → Nat) (text : Text) (align : Bool) (tab : Option Nat) (ts : List Red) : Option (List TextEdit) :=
  match ts with
  | [] => some []
  | t :: rest =>
    match unwrapAll (dropEdit text) rest, appendEdit width text align tab t rest with
    | some drops, some ins => some (drops ++ [ins])
    | _, _ => none

/-- `ranges.contains` (same_subject.rs L57-62): an edit whose range was there before is left out. -/
def firstOfRange : List TextEdit → List Range → List TextEdit
  | [], _ => []
  | e :: es, seen => if seen.contains e.range then firstOfRange es seen else e :: firstOfRange es (e.range :: seen)

/-- `contract_all_triple_groups` (same_subject.rs L26-67). The outer `none` is a panic, the inner one no action. -/
def contractAll (width : Char → Nat) (text : Text) (align : Bool) (tab : Option Nat) (g : Green) : Option (Option (List TextEdit)) :=
  if g.kind = K.QueryUnit then
    match unwrapAll (fun x => contractTriples width text align tab x.2) (tripleGroups g) with
    | none => none
    | some ess => some (if (firstOfRange ess.flatten []).isEmpty then none else some (firstOfRange ess.flatten []))
  else some none

/-! ## Specification -/

/-- The triple has predicates: `?s ?p ?o`, but not `[ ?p ?o ]`. -/
def HasPredicates (t pl : Red) : Prop :=
  t.children[1]? = some pl ∧ (pl.kind = K.PropertyListPath ∨ pl.kind = K.PropertyListPathNotEmpty)

/-- The dot stands behind the triple, with at most white space between them. -/
def DotBehind (t d : Red) : Prop :=
  d.kind = K.Dot ∧ ((∃ R, Format.younger t = d :: R) ∨ ∃ w R, Format.younger t = w :: d :: R ∧ w.kind = K.WHITESPACE)

/-- The edit removes a piece of the text that contains the triple: it begins at the triple or at the white space in front of its block,
and ends at the triple, or at some white space or dot behind it. It contains the dot of the triple. -/
def Dropped (text : Text) (t : Red) (e : TextEdit) : Prop :=
  ∃ pre front back post, text = pre ++ front ++ t.text ++ back ++ post ∧ blen (pre ++ front) = t.start ∧
    e = ⟨⟨posOf pre, posOf (pre ++ front ++ t.text ++ back)⟩, []⟩ ∧
    (front = [] ∨ ∃ b w, t.parent = some b ∧ Format.prevT b = some w ∧ w.kind = K.WHITESPACE ∧ w.start = blen pre) ∧
    (back = [] ∨ ∃ m ∈ Format.younger t, (m.kind = K.WHITESPACE ∨ m.kind = K.Dot) ∧ m.stop = blen (pre ++ front ++ t.text ++ back)) ∧
    ∀ d, DotBehind t d → d.stop ≤ blen (pre ++ front ++ t.text ++ back)

/-- The display width of the text in front of the offset, back to the beginning of its line. -/
def ColumnIs (width : Char → Nat) (text : Text) (off n : Nat) : Prop :=
  ∃ pre post, text = pre ++ post ∧ blen pre = off ∧ n = ((lastLine pre).map width).sum

end Verif.Features
