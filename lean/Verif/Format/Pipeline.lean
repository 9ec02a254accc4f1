import Verif.ApplyEdits
import Verif.Lexer.Table
import Verif.Features.OnType
/-!
# From byte edits to text edits

Models the second half of `src/server/message_handler/formatting/core.rs`: `merge_empty_lines`, `transform_comments`,
`transform_edits`, `consolidate_edits`, `ConsolidatedTextEdit`, `merge_comments`. A panic and an endless loop are `none`.
`sort_by` is modelled as stable insertion sort.
-/
namespace Verif.Format
open Verif Verif.Features

/-- `SimplifiedTextEdit` (core.rs L138-151): a replacement of a byte range. -/
structure SEdit where
  start : Nat
  stop : Nat
  text : Text
deriving DecidableEq, Repr

/-- `SimplifiedCommentMarker` (core.rs L183-190). -/
structure SComment where
  text : Text
  pos : Nat
  level : Nat
  trailing : Bool
  emptyLine : Bool
deriving DecidableEq, Repr

/-- `CommentMarker` (core.rs L153-160). -/
structure CMarker where
  text : Text
  pos : Position
  level : Nat
  trailing : Bool
  emptyLine : Bool
deriving DecidableEq, Repr

/-! ## `merge_empty_lines` (core.rs L101-136) -/

/-- The order of the sort (core.rs L105-110): by start, then by end. -/
def byStart (a b : SEdit) : Prop := a.start < b.start ∨ (a.start = b.start ∧ a.stop ≤ b.stop)

instance : DecidableRel byStart := fun a b => by unfold byStart; infer_instance

/-- The edits that follow without a gap (the `take_while` of core.rs L122-127). -/
def adjacentRun : Nat → List SEdit → List SEdit
  | _, [] => []
  | p, e :: es => if e.start = p then e :: adjacentRun e.stop es else []

/-- `has_newline_in_consecutive` (core.rs L119-128). -/
def hasBreak (e : SEdit) (es : List SEdit) : Bool :=
  e.text.contains '\n' || (adjacentRun e.stop es).any (fun x => x.text.contains '\n')

/-- The loop (core.rs L113-134) over the sorted edits and markers. -/
def markLoop : List SEdit → List Nat → List SEdit
  | [], _ => []
  | e :: es, [] => e :: es
  | e :: es, m :: ms =>
    if m ≤ e.start then (if hasBreak e es then { e with text := '\n' :: e.text } else e) :: markLoop es ms
    else e :: markLoop es (m :: ms)

/-- `merge_empty_lines` (core.rs L101-136). -/
def mergeEmptyLines (edits : List SEdit) (markers : List Nat) : List SEdit :=
  markLoop (edits.insertionSort byStart) (markers.insertionSort (· ≤ ·))

/-! ## `transform_comments` (core.rs L1176-1219), `transform_edits` (core.rs L1221-1266) -/

/-- The comments whose position is the current one (iterations of core.rs L1197-1210 that take the first branch). -/
def drainComments (b : Nat) (p : Position) : List SComment → List CMarker × List SComment
  | [] => ([], [])
  | c :: cs =>
    if c.pos = b then
      let (o, r) := drainComments b p cs
      (⟨c.text, p, c.level, c.trailing, c.emptyLine⟩ :: o, r)
    else ([], c :: cs)

/-- The walk through the text (core.rs L1197-1217); `none` if the loop never ends. -/
def walkComments : List Char → Nat → Position → List SComment → Option (List CMarker)
  | cs, b, p, ms =>
    match drainComments b p ms with
    | (o, []) => some o
    | (o, m :: ms') =>
      match cs with
      | [] => none
      | c :: cs' => (walkComments cs' (b + u8 c) (p.step c) (m :: ms')).map (o ++ ·)

/-- The comment markers in the order of the sort (core.rs L1183). -/
def sortComments (cs : List SComment) : List SComment := cs.insertionSort (fun a b => a.pos ≤ b.pos)

/-- `transform_comments` (core.rs L1176-1219). -/
def transformComments (cs : List SComment) (text : Text) : Option (List CMarker) :=
  if cs = [] then some [] else walkComments text 0 ⟨0, 0⟩ (sortComments cs)

/-- The order of the sort (core.rs L1222-1227): by end, then by start, both descending. -/
def byStopDesc (a b : SEdit) : Prop := b.stop < a.stop ∨ (b.stop = a.stop ∧ b.start ≤ a.start)

instance : DecidableRel byStopDesc := fun a b => by unfold byStopDesc; infer_instance

/-- The edits that end at the current offset (iterations of core.rs L1236-1253 that push an edit), with the marker. -/
def drainEdits (b : Nat) (p m : Position) : List SEdit → List TextEdit × Position × List SEdit
  | [] => ([], m, [])
  | e :: es =>
    if e.stop = b then
      let (o, m', r) := drainEdits b p (if e.start = b then p else m) es
      (⟨⟨if e.start = b then p else m, p⟩, e.text⟩ :: o, m', r)
    else ([], if e.start = b then p else m, e :: es)

/-- The walk through the text (core.rs L1236-1264); `none` if the loop never ends. -/
def walkEdits : List Char → Nat → Position → Position → List SEdit → Option (List TextEdit)
  | cs, b, p, m, es =>
    match drainEdits b p m es with
    | (o, _, []) => some o
    | (o, m', e :: es') =>
      match cs with
      | [] => none
      | c :: cs' => (walkEdits cs' (b + u8 c) (p.step c) m' (e :: es')).map (o ++ ·)

/-- `transform_edits` (core.rs L1221-1266). `edits.next().unwrap()` panics if there is no edit. -/
def transformEdits (edits : List SEdit) (text : Text) : Option (List TextEdit) :=
  if edits = [] then none
  else walkEdits text 0 ⟨0, 0⟩ ⟨0, 0⟩ (edits.insertionSort byStopDesc).reverse

/-! ## `consolidate_edits` (core.rs L1268-1300), `ConsolidatedTextEdit` (core.rs L1302-1368) -/

/-- One step of the fold (core.rs L1270-1299); the accumulator is kept in reverse (`acc.last_mut()` is its head). -/
def consolidateStep (acc : List (List TextEdit)) (e : TextEdit) : List (List TextEdit) :=
  if e.isEmpty then acc
  else
    match acc with
    | [] => [[e]]
    | [] :: rest => [e] :: rest
    | (n :: ns) :: rest =>
      if n.range.start = e.range.stop then (e :: n :: ns) :: rest
      else if n.range.start = n.range.stop ∧ n.range.start = e.range.start then
        (⟨⟨n.range.start, e.range.stop⟩, n.newText ++ e.newText⟩ :: ns) :: rest
      else [e] :: (n :: ns) :: rest

/-- `consolidate_edits` (core.rs L1268-1300). -/
def consolidate (edits : List TextEdit) : List (List TextEdit) := (edits.foldl consolidateStep []).reverse

/-- `ConsolidatedTextEdit::fuse`, `range` (core.rs L1319-1345); `none` is the panic for an empty list. -/
def fuse : List TextEdit → Option TextEdit
  | [] => none
  | e :: es => some ⟨⟨e.range.start, ((e :: es).getLast (by simp)).range.stop⟩, ((e :: es).map (·.newText)).flatten⟩

/-- The condition of `split_at` (core.rs L1358-1360). -/
def goesBefore (pos : Position) (e : TextEdit) : Bool := e.range.start.lt pos && e.range.stop.le pos

/-- `ConsolidatedTextEdit::split_at` (core.rs L1351-1367). -/
def splitAt (chain : List TextEdit) (pos : Position) : List TextEdit × List TextEdit :=
  (chain.filter (goesBefore pos), chain.filter (fun e => !goesBefore pos e))

/-! ## `merge_comments` (core.rs L1370-1471) -/

/-- The prefix of `CommentMarker::to_edit` (core.rs L162-171) and the comment. -/
def CMarker.shown (indent : Text) (c : CMarker) : Text :=
  (if c.pos.line = 0 ∧ c.pos.character = 0 then []
   else if c.trailing then [' ']
   else '\n' :: repeatText indent c.level) ++ c.text

/-- `char::is_whitespace`. -/
def isSpace (c : Char) : Bool := Lexer.space.has c

/-- The `find_map` (core.rs L1398-1403): the first character that is a line feed or not white space, with its index. -/
def firstMark : Text → Nat → Option (Nat × Char)
  | [], _ => none
  | c :: cs, i => if !isSpace c || c == '\n' then some (i, c) else firstMark cs (i + 1)

/-- `text.get(i..i + 1) == Some("}")` (core.rs L1433-1441). -/
def closesAt (text : Text) (i : Nat) : Bool :=
  match splitAtByte text i with
  | some (_, '}' :: _) => true
  | _ => false

/-- The new text of the edit behind a comment (core.rs L1394-1457); `none` is a panic of a slice. -/
def withComment (text indent : Text) (c : CMarker) (next : TextEdit) : Option Text :=
  match firstMark next.newText 0 with
  | some (i, ch) =>
    if ch = '\n' then
      if c.emptyLine ∧ ['\n', '\n'] <+: next.newText then
        (splitAtByte next.newText (i + 1)).map (fun p => '\n' :: c.shown indent ++ p.2)
      else (splitAtByte next.newText i).map (fun p => c.shown indent ++ p.2)
    else (splitAtByte next.newText i).map (fun p => c.shown indent ++ '\n' :: repeatText indent c.level ++ p.2)
  | none =>
    let level :=
      match byteIndex next.range.stop text with
      | some i => if closesAt text i then c.level - 1 else c.level
      | none => c.level
    some ((if c.emptyLine then ['\n'] else []) ++ c.shown indent ++ '\n' :: repeatText indent level)

/-- The `while` loop (core.rs L1381-1461) for one consolidated edit; the comments come last one first. -/
def insertComments (text indent : Text) (start : Position) : List CMarker → List TextEdit → Option (List TextEdit × List CMarker)
  | [], chain => some (chain, [])
  | c :: cs, chain =>
    if start.le c.pos then
      match fuse (splitAt chain c.pos).2 with
      | none => none
      | some next =>
        match withComment text indent c next with
        | none => none
        | some new => insertComments text indent start cs ((splitAt chain c.pos).1 ++ [⟨next.range, new⟩])
    else some (chain, c :: cs)

/-- The fold over the consolidated edits (core.rs L1377-1464). -/
def mergeLoop (text indent : Text) : List (List TextEdit) → List CMarker → Option (List TextEdit × List CMarker)
  | [], cs => some ([], cs)
  | chain :: chains, cs =>
    match fuse chain with
    | none => none
    | some f =>
      match insertComments text indent f.range.start cs chain with
      | none => none
      | some (chain', cs') =>
        match fuse chain' with
        | none => none
        | some e =>
          match mergeLoop text indent chains cs' with
          | none => none
          | some (es, rest) => some (e :: es, rest)

/-- The edits for one of the remaining comments (core.rs L1466-1470). -/
def leftover (indent : Text) (c : CMarker) : List TextEdit :=
  [⟨⟨⟨0, 0⟩, ⟨0, 0⟩⟩, ['\n']⟩, ⟨⟨c.pos, c.pos⟩, c.shown indent⟩]

/-- `merge_comments` (core.rs L1370-1471). -/
def mergeComments (chains : List (List TextEdit)) (comments : List CMarker) (text indent : Text) : Option (List TextEdit) :=
  match mergeLoop text indent chains comments.reverse with
  | none => none
  | some (es, rest) => some (es ++ rest.flatMap (leftover indent))

end Verif.Format
