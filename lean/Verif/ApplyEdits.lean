import Verif.Text
import Mathlib.Data.List.Sort
/-!
# `TextDocumentItem::apply_text_edits`

Models `src/server/lsp/textdocument.rs` L27-100. Panics are `none`.
-/
namespace Verif

/-- Split a text at a byte offset; `none` if the offset is not a character boundary of the text
(the panic of `String::replace_range`, used at textdocument.rs L80-81 and L157-158). -/
def splitAtByte : Text → Nat → Option (Text × Text)
  | t, 0 => some ([], t)
  | [], _ + 1 => none
  | c :: cs, n + 1 =>
    if u8 c ≤ n + 1 then
      match splitAtByte cs (n + 1 - u8 c) with
      | none => none
      | some (p, r) => some (c :: p, r)
    else none

/-- `String::replace_range(a..b, new)` (used at textdocument.rs L80-81 and L157-158): panics if
`a > b` or one of the ends is not a character boundary. -/
def replaceRange (t : Text) (a b : Nat) (new : Text) : Option Text :=
  if b < a then none
  else
    match splitAtByte t a with
    | none => none
    | some (p, r) =>
      match splitAtByte r (b - a) with
      | none => none
      | some (_, s) => some (p ++ new ++ s)

/-- The comparison of `sort_by` (textdocument.rs L32-37): start descending, then end descending.
`editOrder a b` is `cmp(a, b) != Greater`. -/
def editOrder (a b : TextEdit) : Prop :=
  b.range.start.lt a.range.start = true ∨
    (b.range.start = a.range.start ∧ b.range.stop.le a.range.stop = true)

instance : DecidableRel editOrder := fun a b => by unfold editOrder; infer_instance

/-- The stable sort of textdocument.rs L32-37 (`slice::sort_by` modelled as stable insertion sort). -/
def sortEdits (edits : List TextEdit) : List TextEdit := edits.insertionSort editOrder

/-- The line break scan (textdocument.rs L48-57): the stack of UTF-16 line lengths (top = last line
break) and the running counter. -/
def lineBreaks : Text → List Nat → Nat → List Nat × Nat
  | [], breaks, n => (breaks, n)
  | c :: cs, breaks, n =>
    if c = '\n' then lineBreaks cs (n :: breaks) 0 else lineBreaks cs breaks (n + u16 c)

/-- The iterations of the loop (textdocument.rs L70-84) that stay at one cursor position: every
pending edit that starts at the cursor is applied. Yields the text, `current_edit_end_byte_offset`
and the pending edits; `none` = assertion failure or `replace_range` panic. -/
def applyAt (cursor : Position) (byteOff : Nat) :
    List TextEdit → Text → Nat → Option (Text × Nat × List TextEdit)
  | [], text, endOff => some (text, endOff, [])
  | e :: es, text, endOff =>
    if e.range.start.le cursor = false then none
    else
      let endOff' := if e.range.stop = cursor then byteOff else endOff
      if e.range.start = cursor then
        match replaceRange text byteOff endOff' e.newText with
        | none => none
        | some text' => applyAt cursor byteOff es text' endOff'
      else some (text, endOff', e :: es)

/-- The main loop (textdocument.rs L70-95): apply what is due at the cursor, then move the cursor one
character backwards. `rest` are the characters before the cursor, last one first. With no character
left and an edit pending the Rust loop would spin (its assertion excludes that); modelled as `none`. -/
def applyLoop : (rest : List Char) → (breaks : List Nat) → Position → Nat → Text → Nat →
    List TextEdit → Option Text
  | rest, breaks, cursor, byteOff, text, endOff, edits =>
    match applyAt cursor byteOff edits text endOff with
    | none => none
    | some (text', _, []) => some text'
    | some (text', endOff', e :: es) =>
      match rest with
      | [] => none
      | c :: rest' =>
        if c = '\n' then
          match breaks with
          | [] => none
          | b :: bs => applyLoop rest' bs ⟨cursor.line - 1, b⟩ (byteOff - u8 c) text' endOff' (e :: es)
        else
          applyLoop rest' breaks ⟨cursor.line, cursor.character - u16 c⟩ (byteOff - u8 c) text' endOff'
            (e :: es)
termination_by structural rest => rest

/-- `if !matches!(self.text.chars().last(), Some('\n')) { push('\n') }` (textdocument.rs L96-98). -/
def ensureNL (t : Text) : Text := if t.getLast? = some '\n' then t else t ++ ['\n']

/-- `TextDocumentItem::apply_text_edits` (textdocument.rs L27-99). -/
def applyTextEdits (t : Text) (edits : List TextEdit) : Option Text :=
  let (breaks, n) := lineBreaks t [] 0
  let cursor : Position :=
    if t.getLast? = some '\n' then ⟨breaks.length, 0⟩ else ⟨breaks.length, n⟩
  match applyLoop t.reverse breaks cursor (blen t) t (blen t) (sortEdits edits) with
  | none => none
  | some t' => some (ensureNL t')

end Verif
