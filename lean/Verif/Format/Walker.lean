import Verif.Format.Pipeline
import Verif.Format.Tables
/-!
# The layout rules of the formatter

Models the first half of `src/server/message_handler/formatting/core.rs` (`Walker`, `get_separator`, `inc_indent`,
`format_document`) and `subtree_width` of `formatting/utils.rs`, arm by arm.

Simplifications: the display width of a text (crate `unicode-width`) is a parameter; indentation levels (`u8` in the code,
so that a release build wraps at a nesting depth of 256 and a debug build panics) and lengths are natural numbers; the
stack of `Walker` is replaced by the traversal it implements; `next_token`/`prev_token`/`first_token`/`last_token` are read off
the row of tokens (rowan's versions stop at an empty node, of which there are none in parser output, C15).
`TextRange::new` asserts `start <= end`; that this holds for all edits is part of the theorems.
-/
namespace Verif.Format
open Verif Verif.Features Verif.Grammar

/-- `FormatSettings` (configuration.rs L181-197) without `contract_triples`, which is handled outside `core.rs`. -/
structure FormatSettings where
  alignPredicates : Bool
  alignPrefixes : Bool
  separatePrologue : Bool
  capitalizeKeywords : Bool
  insertSpaces : Option Bool
  tabSize : Option Nat
  whereNewLine : Bool
  filterSameLine : Bool
  compact : Option Nat
  lineLength : Nat
  keepEmptyLines : Bool

/-- `FormatSettings::default` (configuration.rs L199-216). -/
def FormatSettings.default : FormatSettings := ⟨true, false, false, true, some true, some 2, false, true, none, 120, false⟩

/-- `indent_string` (core.rs L74-77). -/
def indentString (s : FormatSettings) (o : TypeOptions) : Text :=
  if s.insertSpaces.getD o.insertSpaces then List.replicate (s.tabSize.getD o.tabSize) ' ' else ['\t']

/-- What a `Walker` (core.rs L220-240) knows, and the tree it walks through. -/
structure Walker where
  text : Text
  g : Green
  s : FormatSettings
  indent : Text
  width : Text → Nat

/-! ## Neighbours of an element -/

/-- The children of the parent of an element. -/
def siblings (r : Red) : List Red :=
  match r.parent with
  | none => []
  | some p => p.childrenT

/-- The elements in front of an element below the same parent. -/
def elder (r : Red) : List Red := (siblings r).take r.here.idx
/-- The elements behind an element below the same parent. -/
def younger (r : Red) : List Red := (siblings r).drop (r.here.idx + 1)

/-- `prev_sibling_or_token()`. -/
def prevT (r : Red) : Option Red := (elder r).getLast?
/-- `prev_sibling()`. -/
def prevNode (r : Red) : Option Red := ((elder r).filter Red.isNode).getLast?
/-- `next_sibling_or_token()`. -/
def nextT (r : Red) : Option Red := (younger r).head?
/-- `next_sibling()`. -/
def nextNode (r : Red) : Option Red := ((younger r).filter Red.isNode).head?

/-- `node.first_token().unwrap().prev_token()`. -/
def tokenBefore (g : Green) (r : Red) : Option Red := ((Red.root g).tokens.takeWhile (fun t => decide (t.stop ≤ r.start))).getLast?

/-- `node.last_token()`, `next_token()`, then trivia skipped (core.rs L826-836). -/
def sigTokenAfter (g : Green) (r : Red) : Option Red :=
  ((Red.root g).tokens.dropWhile (fun t => decide (t.start < r.stop))).find? (fun t => !triviaKind t.kind)

/-- `text.get(a..b)`. -/
def textGet (text : Text) (a b : Nat) : Option Text :=
  if b < a then none
  else match splitAtByte text a with
    | none => none
    | some (_, r) => (splitAtByte r (b - a)).map (·.1)

/-- `text.get(a..b).is_some_and(|s| !s.contains("\n"))`. -/
def sameLine (text : Text) (a b : Nat) : Bool :=
  match textGet text a b with
  | none => false
  | some s => !s.contains '\n'

/-- `subtree_width` (formatting/utils.rs L116-128). -/
def subtreeWidth (w : Walker) (r : Red) : Nat :=
  if r.isNode then
    ((r.tokens.filter (fun t => !triviaKind t.kind)).map (fun t => w.width t.text)).sum + (r.children.length - 1)
  else w.width r.text

/-! ## Edits -/

/-- An insertion. -/
def insAt (p : Nat) (t : Text) : SEdit := ⟨p, p, t⟩

/-- The replacement of an element. -/
def replace (r : Red) (t : Text) : SEdit := ⟨r.start, r.stop, t⟩

/-- `get_linebreak` (core.rs L909-912). -/
def linebreak (w : Walker) (level : Nat) : Text := '\n' :: repeatText w.indent level

/-- The children without trivia (`filter(|child| !child.kind().is_trivia())`). -/
def sigChildren (r : Red) : List Red := r.childrenT.filter (fun c => !triviaKind c.kind)

/-- `step_by(3)`. -/
def everyThird {α : Type} : List α → List α
  | [] => []
  | [x] => [x]
  | [x, _] => [x]
  | x :: _ :: _ :: l => x :: everyThird l

/-- Insertion of a text in front of the children of some kinds. -/
def beforeKinds (ks : List Kind) (t : Text) (cs : List Red) : List SEdit :=
  cs.filterMap (fun c => if c.kind ∈ ks then some (insAt c.start t) else none)

/-- Insertion of a text behind the children of some kinds. -/
def afterKinds (ks : List Kind) (t : Text) (cs : List Red) : List SEdit :=
  cs.filterMap (fun c => if c.kind ∈ ks then some (insAt c.stop t) else none)

/-- The `PNAME_NS` tokens to be aligned (core.rs L299-320). -/
def prefixLabel (c : Red) : Option Red :=
  match (sigChildren c)[1]? with
  | none => none
  | some x => if c.kind = K.PrefixDecl ∧ x.kind = K.PNAME_NS then some x else none

/-- The arm `Prologue` (core.rs L298-337). -/
def alignPrefixes (w : Walker) (cs : List Red) : List SEdit :=
  let labels := cs.filterMap prefixLabel
  let longest := (labels.map (fun x => w.width x.text)).foldl max 0
  labels.map (fun x => insAt x.stop (List.replicate (longest - w.width x.text) ' '))

/-- `total_width` (core.rs L346-361). -/
def selectWidth (w : Walker) (cs : List Red) : Nat :=
  6 + ((cs.drop 1).map (fun c => if c.kind = K.LParen ∨ c.kind = K.RParen then 1 else w.width c.text + 1)).sum + 1 + 7

/-- The arm `SelectClause` for a child and the child in front of it (core.rs L343-386). -/
def selectEdit (w : Walker) (cs : List Red) (level idx : Nat) (prev child : Red) : Option SEdit :=
  if child.kind = K.RParen then none
  else if 0 < idx ∧ prev.kind = K.LParen then none
  else if child.kind = K.AS ∨ prev.kind = K.AS then some (insAt child.start [' '])
  else if 0 < idx ∧ w.s.lineLength < selectWidth w cs then some (insAt child.start ('\n' :: List.replicate (7 + level * 2) ' '))
  else some (insAt child.start [' '])

/-- The arm `GroupCondition` for a child and the child in front of it (core.rs L393-410). -/
def groupEdit (prev child : Red) : Option SEdit :=
  if child.kind = K.RParen then none
  else if prev.kind = K.LParen then none
  else some (insAt child.start [' '])

/-- The arm `ConstructQuery` (core.rs L413-430). -/
def constructEdit (c : Red) : Option SEdit :=
  if c.kind = K.CONSTRUCT then some (insAt c.stop [' '])
  else if c.kind = K.LCurly then some (insAt c.start [' '])
  else if c.kind = K.RCurly then some (insAt c.start ['\n'])
  else none

/-- Line breaks in front of the further predicates of a property list (core.rs L447-460, L476-488). -/
def predicateBreaks (t : Text) (list : Red) : List SEdit :=
  ((everyThird (sigChildren list)).drop 1).map (fun c => insAt c.start t)

/-- The arm `BlankNodePropertyListPath | BlankNodePropertyList` (core.rs L445-461). -/
def blankNodeEdits (w : Walker) (level : Nat) (cs : List Red) : List SEdit :=
  match cs[1]? with
  | none => []
  | some list => if list.isNode then predicateBreaks (linebreak w level ++ [' ', ' ']) list else []

/-- The arm `TriplesSameSubjectPath | TriplesSameSubject` (core.rs L462-491). -/
def tripleEdits (w : Walker) (level : Nat) (cs : List Red) : List SEdit :=
  match cs.head?, cs.getLast? with
  | some subject, some list =>
    if subject.isNode ∧ list.isNode ∧ (list.kind = K.PropertyListPathNotEmpty ∨ list.kind = K.PropertyListNotEmpty) then
      predicateBreaks (linebreak w level ++
        (if w.s.alignPredicates then List.replicate (w.width subject.text + 1) ' ' else [' ', ' '])) list
    else []
  | _, _ => []

/-- The arm `Modify` (core.rs L533-560). -/
def modifyEdits (w : Walker) (level : Nat) (c : Red) : List SEdit :=
  if c.kind = K.iri then [insAt c.start [' ']]
  else if (c.kind = K.DeleteClause ∨ c.kind = K.InsertClause ∨ c.kind = K.UsingClause) ∧ (prevT c).isSome then
    [insAt c.start (linebreak w level)]
  else if c.kind = K.WHERE then [insAt c.start (linebreak w level), insAt c.stop [' ']]
  else []

/-- The arm `Bind` (core.rs L582-596). -/
def bindEdits (c : Red) : List SEdit :=
  if c.kind = K.LParen then [insAt c.start [' ']]
  else if c.kind = K.AS then [insAt c.start [' '], insAt c.stop [' ']]
  else []

/-- The arm `QuadsNotTriples` (core.rs L634-651). -/
def quadsEdit (w : Walker) (level : Nat) (c : Red) : Option SEdit :=
  if c.kind = K.GRAPH then some (insAt c.stop [' '])
  else if c.kind = K.VarOrIri then some (insAt c.stop [' '])
  else if c.kind = K.RCurly then some (insAt c.start (linebreak w level))
  else none

/-- The kinds of signed numbers (core.rs L597-602). -/
def signedKinds : List Kind :=
  [K.INTEGER_POSITIVE, K.DECIMAL_POSITIVE, K.DOUBLE_POSITIVE, K.INTEGER_NEGATIVE, K.DECIMAL_NEGATIVE, K.DOUBLE_NEGATIVE]

/-- `node.parent().is_some_and(|parent| parent.prev_sibling().is_some())` (core.rs L603-605). -/
def numberFollows (r : Red) : Bool :=
  match r.parent with
  | none => false
  | some p => (prevNode p).isSome

/-- The arms `DELETE_WHERE`, `DELETE_DATA`, `INSERT_DATA` (core.rs L652-690): `n` is the length of the second word. -/
def twoWords (w : Walker) (r : Red) (n : Nat) (first second : Text) : List SEdit :=
  ⟨r.start + 6, r.stop - n, [' ']⟩ ::
    (if w.s.capitalizeKeywords then [⟨r.start, r.start + 6, first⟩, ⟨r.stop - n, r.stop, second⟩] else [])

/-- The arm `DELETE` (core.rs L612-623). -/
def deleteEdits (w : Walker) (r : Red) : List SEdit :=
  if w.s.capitalizeKeywords then [replace r ['D', 'E', 'L', 'E', 'T', 'E']]
  else if 6 < r.stop - r.start then [⟨6, r.stop, []⟩]
  else []

/-- The arm `QueryUnit | UpdateUnit` (core.rs L280-297). -/
def unitEdits (r : Red) (cs : List Red) : List SEdit :=
  match cs.head?, cs.getLast? with
  | some first, some last => [⟨0, first.start, []⟩, ⟨last.stop, r.stop, []⟩]
  | _, _ => [⟨0, r.stop, []⟩]

/-- `in_node_augmentation` (core.rs L273-694). -/
def inNode (w : Walker) (r : Red) (cs : List Red) (level : Nat) : List SEdit :=
  if r.kind = K.QueryUnit ∨ r.kind = K.UpdateUnit then unitEdits r cs
  else if r.kind = K.Prologue ∧ w.s.alignPrefixes = true then alignPrefixes w cs
  else if r.kind = K.SelectClause then
    (cs.zip (cs.drop 1)).zipIdx.filterMap (fun p => selectEdit w cs level p.2 p.1.1 p.1.2)
  else if r.kind = K.GroupCondition then (cs.zip (cs.drop 1)).filterMap (fun p => groupEdit p.1 p.2)
  else if r.kind = K.ConstructQuery then cs.filterMap constructEdit
  else if r.kind = K.PropertyListPathNotEmpty ∨ r.kind = K.PropertyListNotEmpty then
    beforeKinds [K.Semicolon, K.ObjectListPath, K.ObjectList] [' '] cs
  else if r.kind = K.BlankNodePropertyListPath ∨ r.kind = K.BlankNodePropertyList then blankNodeEdits w level cs
  else if r.kind = K.TriplesSameSubjectPath ∨ r.kind = K.TriplesSameSubject then tripleEdits w level cs
  else if r.kind ∈ [K.TriplesBlock, K.TriplesTemplate, K.ConstructTriples, K.Quads, K.GroupGraphPatternSub] then
    beforeKinds [K.Dot] [' '] cs
  else if r.kind = K.ExpressionList ∨ r.kind = K.ObjectList ∨ r.kind = K.ObjectListPath then
    cs.filterMap (fun c => if c.kind = K.Comma then some (replace c [',', ' ']) else none)
  else if r.kind = K.DescribeQuery then beforeKinds [K.VAR1, K.VAR2, K.VarOrIri, K.Star] [' '] cs
  else if r.kind = K.Modify then cs.flatMap (modifyEdits w level)
  else if r.kind = K.Aggregate then afterKinds [K.Semicolon, K.DISTINCT] [' '] cs
  else if r.kind = K.Update then beforeKinds [K.Semicolon] [' '] cs
  else if r.kind = K.ANON then [replace r ['[', ']']]
  else if r.kind = K.Bind then cs.flatMap bindEdits
  else if r.kind ∈ signedKinds ∧ numberFollows r = true then [insAt (r.start + 1) [' ']]
  else if r.kind = K.DELETE then deleteEdits w r
  else if r.kind = K.QuadPattern ∨ r.kind = K.QuadData then beforeKinds [K.RCurly] ['\n'] cs
  else if r.kind = K.QuadsNotTriples then cs.filterMap (quadsEdit w level)
  else if r.kind = K.DELETE_WHERE then twoWords w r 5 ['D', 'E', 'L', 'E', 'T', 'E'] ['W', 'H', 'E', 'R', 'E']
  else if r.kind = K.DELETE_DATA then twoWords w r 4 ['D', 'E', 'L', 'E', 'T', 'E'] ['D', 'A', 'T', 'A']
  else if r.kind = K.INSERT_DATA then twoWords w r 4 ['I', 'N', 'S', 'E', 'R', 'T'] ['D', 'A', 'T', 'A']
  else if r.kind = K.a then [replace r ['a']]
  else []

/-- The text for `SubSelect | GroupGraphPatternSub`: a blank if it fits (core.rs L722-732, L890-900). -/
def blockBreak (w : Walker) (r : Red) (level : Nat) : Text :=
  match w.s.compact with
  | none => linebreak w level
  | some n =>
    match r.ancestors[3]? with
    | none => linebreak w level
    | some a => if a.kind ≠ K.SelectQuery ∧ subtreeWidth w r ≤ n then [' '] else linebreak w level

/-- Whether an element is directly below a blank node property list. -/
def inBlankNode (r : Red) : Bool :=
  match r.parent with
  | none => false
  | some p => p.kind == K.BlankNodePropertyListPath || p.kind == K.BlankNodePropertyList

/-- The arm `Filter` (core.rs L734-752). -/
def filterText (w : Walker) (r : Red) (level : Nat) : Option Text :=
  match r.parent.bind prevNode with
  | none => none
  | some prev =>
    if prev.kind = K.TriplesBlock ∧ sameLine w.text prev.stop r.start = true ∧ w.s.filterSameLine = true then some [' ']
    else some (linebreak w level)

/-- Whether the parent has this kind. -/
def parentIs (r : Red) (k : Kind) : Bool :=
  match r.parent with
  | none => false
  | some p => p.kind == k

/-- The text inserted in front of an element (core.rs L701-802). -/
def preText (w : Walker) (r : Red) (level : Nat) : Option Text :=
  if r.kind ∈ [K.ConstructTriples, K.SolutionModifier, K.DatasetClause, K.TriplesTemplate, K.UNION] then some (linebreak w level)
  else if r.kind = K.TriplesBlock then if (prevNode r).isSome then some (linebreak w level) else none
  else if r.kind = K.GraphPatternNotTriples then
    match prevNode r, r.firstChild with
    | some _, some c => if c.kind ≠ K.Filter then some (linebreak w level) else none
    | _, _ => none
  else if r.kind = K.SubSelect ∨ r.kind = K.GroupGraphPatternSub then some (blockBreak w r level)
  else if r.kind = K.Filter then filterText w r level
  else if r.kind = K.QuadsNotTriples ∨ r.kind = K.UpdateOne then
    match tokenBefore w.g r with
    | none => none
    | some t => if t.kind ≠ K.Dot then some (linebreak w level) else none
  else if r.kind = K.PropertyListPathNotEmpty ∨ r.kind = K.PropertyListNotEmpty then
    if inBlankNode r then if 3 < r.childrenT.length then some (linebreak w level) else some [' ']
    else none
  else if r.kind = K.WhereClause then
    if w.s.whereNewLine ∨ parentIs r K.ConstructQuery ∨ parentIs r K.DescribeQuery ∨
        (match prevNode r with | none => false | some p => p.kind == K.DatasetClause) = true then some (linebreak w level)
    else some [' ']
  else none

/-- `pre_node_augmentation` (core.rs L696-807). -/
def preNode (w : Walker) (r : Red) (level : Nat) : Option SEdit := (preText w r level).map (insAt r.start)

/-- `empty_line_marker` (core.rs L972-983): an element with more than one line feed. -/
def emptyLine (w : Walker) (r : Red) : Bool :=
  match textGet w.text r.start r.stop with
  | none => false
  | some s => decide (1 < s.count '\n')

/-- The next significant token is in an error node (core.rs L816-840). -/
def errorFollows (w : Walker) (r : Red) : Bool :=
  match (sigTokenAfter w.g r).bind Red.parent with
  | none => false
  | some p => p.kind == K.Error

/-- Whether a blank line is added behind the prologue (core.rs L845-855). -/
def prologueBreak (w : Walker) (r : Red) : Bool :=
  w.s.separatePrologue && (!w.s.keepEmptyLines ||
    ((nextNode r).isSome && (match nextT r with | none => true | some n => n.kind != K.WHITESPACE || !emptyLine w n)))

/-- The text inserted behind an element (core.rs L816-902). -/
def postText (w : Walker) (r : Red) (level : Nat) : Option Text :=
  if r.kind ∈ [K.Prologue, K.PropertyListPathNotEmpty, K.PropertyListNotEmpty, K.ConstructTriples, K.GroupGraphPatternSub,
      K.SubSelect] ∧ errorFollows w r = true then none
  else if r.kind = K.UNION then some [' ']
  else if r.kind = K.Prologue ∧ prologueBreak w r = true then some (linebreak w level)
  else if r.kind = K.PropertyListPathNotEmpty ∨ r.kind = K.PropertyListNotEmpty then
    if inBlankNode r then if 3 < r.children.length then some (linebreak w (level - 1)) else some [' ']
    else none
  else if r.kind = K.ConstructTriples ∧ (match r.parent with | none => false | some p => p.kind != K.ConstructTriples) = true then
    some (linebreak w (level - 1))
  else if r.kind = K.GroupGraphPatternSub ∨ r.kind = K.SubSelect then some (blockBreak w r (level - 1))
  else none

/-- `post_node_augmentation` (core.rs L809-907). -/
def postNode (w : Walker) (r : Red) (level : Nat) : Option SEdit := (postText w r level).map (insAt r.stop)

/-- The capitalisation of keywords (core.rs L257-270); keywords are ASCII. -/
def keywordEdits (w : Walker) (r : Red) : List SEdit :=
  if r.kind = K.IN then [replace r (if w.s.capitalizeKeywords then ['I', 'N'] else ['i', 'n'])]
  else if r.kind ∈ keywords ∧ w.s.capitalizeKeywords = true then [replace r (r.text.map Char.toUpper)]
  else []

/-- `node_augmentation` (core.rs L242-271). -/
def nodeAug (w : Walker) (r : Red) (cs : List Red) (level : Nat) : List SEdit :=
  inNode w r cs level ++ (preNode w r level).toList ++ (postNode w r level).toList ++ keywordEdits w r

/-! ## The walk -/

/-- `inc_indent` (core.rs L201-218). -/
def incIndent (r : Red) : Nat :=
  if r.kind ∈ [K.BlankNodePropertyListPath, K.BlankNodePropertyList, K.GroupGraphPattern, K.BrackettedExpression,
      K.ConstructTemplate, K.Quads, K.QuadsNotTriples] then 1
  else if r.kind = K.ConstructQuery ∧ (match r.firstChild with | none => false | some c => c.kind != K.ConstructTemplate) = true then 1
  else 0

/-- The indentation the stack carries for an element: the increments of its ancestors (core.rs L1055-1061). -/
def levelOf (r : Red) : Nat := ((Red.chain r.up).map incIndent).sum

/-- The children without white space and, outside error nodes, comments (core.rs L995-1018). -/
def fmtChildren (r : Red) : List Red :=
  r.childrenT.filter (fun c => decide (c.kind ≠ K.WHITESPACE) && (decide (c.kind ≠ K.Comment) || decide (r.kind = K.Error)))

/-- `enum Seperator` (core.rs L1071-1076). -/
inductive Sep
  | lineBreak | space | empty | unknown
deriving DecidableEq

/-- `get_separator` (core.rs L1078-1174). -/
def separator (k : Kind) : Sep :=
  if k ∈ lineBreakKinds then .lineBreak
  else if k ∈ emptyKinds then .empty
  else if k ∈ spaceKinds then .space
  else .unknown

/-- Step 1: the separator between two children (core.rs L1024-1050). -/
def sepEdit (w : Walker) (r : Red) (level : Nat) (a b : Red) : Option SEdit :=
  match separator r.kind with
  | .lineBreak => some ⟨a.stop, b.start, linebreak w level⟩
  | .space => some ⟨a.stop, b.start, [' ']⟩
  | .empty => some ⟨a.stop, b.start, if b.kind = K.Error then [' '] else []⟩
  | .unknown => none

/-- The edits for one element (core.rs L1020-1067). -/
def elemEdits (w : Walker) (r : Red) : List SEdit :=
  nodeAug w r (fmtChildren r) (levelOf r) ++
    ((fmtChildren r).zip ((fmtChildren r).drop 1)).filterMap (fun p => sepEdit w r (levelOf r) p.1 p.2)

/-- The trivia between a comment and the element it is attached to, last one first (core.rs L919-932). -/
def triviaBefore (c : Red) : List Red := (elder c).reverse.takeWhile (fun x => triviaKind x.kind)

/-- `attach` (core.rs L919-936); the `expect` cannot fail for a child of a node. -/
def attachOf (c : Red) : Option Red :=
  match (elder c).reverse.find? (fun x => !triviaKind x.kind) with
  | some x => some x
  | none => c.parent

/-- `comment_marker` (core.rs L914-952); `none` is the panic of `expect`. -/
def commentMarker (w : Walker) (level : Nat) (c : Red) : Option SComment :=
  match attachOf c with
  | none => none
  | some a => some
    { text := c.text
      pos := if a.kind = K.QueryUnit ∨ a.kind = K.UpdateUnit then 0 else a.stop
      level := level
      trailing := sameLine w.text a.stop c.start
      emptyLine := w.s.keepEmptyLines && (triviaBefore c).any (fun x => x.kind == K.WHITESPACE && emptyLine w x) }

/-- The comments directly below an element (core.rs L1010-1012). -/
def elemComments (w : Walker) (r : Red) : List SComment :=
  if r.kind = K.Error then []
  else (r.childrenT.filter (fun c => c.kind == K.Comment)).filterMap (commentMarker w (levelOf r + incIndent r))

/-- The empty lines directly below an element (core.rs L1005-1009). -/
def elemEmptyLines (w : Walker) (r : Red) : List Nat :=
  (r.childrenT.filter (fun c => c.kind == K.WHITESPACE && emptyLine w c)).map Red.start

mutual
/-- The order in which the stack of `Walker` visits the elements (core.rs L992-993, L1055-1061): an element, then its
children, last one first. -/
def walkFrom (g : Green) (idx off : Nat) (up : List Site) : List Red :=
  match g with
  | .tok k t => [⟨⟨.tok k t, idx, off⟩, up⟩]
  | .node k cs => ⟨⟨.node k cs, idx, off⟩, up⟩ :: walkFromL cs 0 off (⟨.node k cs, idx, off⟩ :: up)
def walkFromL (cs : List Green) (idx off : Nat) (up : List Site) : List Red :=
  match cs with
  | [] => []
  | g :: gs => walkFromL gs (idx + 1) (off + blen g.text) up ++ walkFrom g idx off up
end

/-- All elements in the order of the walk. -/
def walked (g : Green) : List Red := walkFrom g 0 0 []

/-- `collect_edits_and_comments` (core.rs L954-970) and `merge_empty_lines`. -/
def collected (w : Walker) : List SEdit :=
  let edits := (walked w.g).flatMap (elemEdits w)
  if w.s.keepEmptyLines then mergeEmptyLines edits ((walked w.g).flatMap (elemEmptyLines w)) else edits

/-- `format_document` (core.rs L67-99); `none` is a panic or an endless loop. -/
def formatCore (w : Walker) : Option (List TextEdit) :=
  match transformComments ((walked w.g).flatMap (elemComments w)) w.text with
  | none => none
  | some comments =>
    match transformEdits (collected w) w.text with
    | none => none
    | some edits => mergeComments (consolidate (sortEdits edits)) comments w.text w.indent

/-- The walker of a document. -/
def walkerOf (width : Text → Nat) (s : FormatSettings) (o : TypeOptions) (text : Text) (g : Green) : Walker :=
  ⟨text, g, s, indentString s o, width⟩

/-- `format_document` (core.rs L67-99) of a document with a tree. -/
def formatDoc (width : Text → Nat) (s : FormatSettings) (o : TypeOptions) (text : Text) (g : Green) : Option (List TextEdit) :=
  formatCore (walkerOf width s o text g)

end Verif.Format
