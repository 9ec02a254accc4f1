/-!
# Texts, LSP positions and ranges

Models `src/server/lsp/textdocument.rs` L213-430. A Rust `String` is a `List Char`; a byte offset is
the sum of the UTF-8 sizes of the characters before it; `u32`/`usize` are `Nat`.
-/
namespace Verif

/-- A document text: the sequence of its Unicode scalar values (`str::chars`). -/
abbrev Text := List Char

/-- `char::len_utf8`. -/
def u8 (c : Char) : Nat := c.utf8Size

/-- `char::len_utf16`: one code unit inside the basic multilingual plane, two outside. -/
def u16 (c : Char) : Nat := if c.toNat < 0x10000 then 1 else 2

/-- `str::len` in bytes. -/
def blen : Text → Nat
  | [] => 0
  | c :: cs => u8 c + blen cs

/-- UTF-16 length of a text. -/
def len16 : Text → Nat
  | [] => 0
  | c :: cs => u16 c + len16 cs

/-- `Position` (textdocument.rs L213-217). -/
structure Position where
  line : Nat
  character : Nat
deriving DecidableEq, Repr

/-- `impl Ord for Position` (textdocument.rs L330-337): compare lines, then characters.
`Position.lt a b` is `a < b`. -/
def Position.lt (a b : Position) : Bool :=
  if a.line = b.line then decide (a.character < b.character) else decide (a.line < b.line)

/-- `a <= b` (textdocument.rs L324-337). -/
def Position.le (a b : Position) : Bool :=
  if a.line = b.line then decide (a.character ≤ b.character) else decide (a.line < b.line)

/-- One step of the position walk used by `from_byte_index` (textdocument.rs L237-245):
a line feed starts a new line, any other character advances the UTF-16 column. -/
def Position.step (p : Position) (c : Char) : Position :=
  if c = '\n' then ⟨p.line + 1, 0⟩ else ⟨p.line, p.character + u16 c⟩

/-- The loop of `Position::from_byte_index` (textdocument.rs L230-247). -/
def fromByteIndexLoop (offset : Nat) : Text → Nat → Position → Nat × Position
  | [], count, pos => (count, pos)
  | c :: cs, count, pos =>
    if count < offset then fromByteIndexLoop offset cs (count + u8 c) (pos.step c)
    else (count, pos)

/-- `Position::from_byte_index` (textdocument.rs L230-251). -/
def fromByteIndex (offset : Nat) (text : Text) : Option Position :=
  let r := fromByteIndexLoop offset text 0 ⟨0, 0⟩
  if r.1 = offset then some r.2 else none

/-- First loop of `Position::byte_index` (textdocument.rs L289-310): skip `line` line breaks
(LF or CR LF); gives the remaining characters and the byte index reached. -/
def skipLines (line : Nat) : Text → (lineIdx byteIdx : Nat) → Option (Text × Nat)
  | [], lineIdx, byteIdx => if lineIdx < line then none else some ([], byteIdx)
  | c :: cs, lineIdx, byteIdx =>
    if lineIdx < line then
      if c = '\n' then skipLines line cs (lineIdx + 1) (byteIdx + 1)
      else
        match cs with
        | [] => skipLines line [] lineIdx (byteIdx + u8 c)
        | d :: cs' =>
          if c = '\r' ∧ d = '\n' then skipLines line cs' (lineIdx + 1) (byteIdx + 2)
          else skipLines line (d :: cs') lineIdx (byteIdx + u8 c)
    else some (c :: cs, byteIdx)

/-- Second loop of `Position::byte_index` (textdocument.rs L311-319): advance to the UTF-16 column.
Note that on `'\r'` the implementation consumes the next character (`chars.next()`) even when it is
not a line feed; that is modelled here. -/
def skipCols (character : Nat) : Text → (idx16 byteIdx : Nat) → Option Nat
  | [], idx16, byteIdx => if idx16 < character then none else some byteIdx
  | c :: cs, idx16, byteIdx =>
    if idx16 < character then
      if c = '\n' then none
      else
        match cs with
        | [] => skipCols character [] (idx16 + u16 c) (byteIdx + u8 c)
        | d :: cs' =>
          if c = '\r' then
            if d = '\n' then none
            else skipCols character cs' (idx16 + u16 c) (byteIdx + u8 c)
          else skipCols character (d :: cs') (idx16 + u16 c) (byteIdx + u8 c)
    else some byteIdx

/-- `Position::byte_index` (textdocument.rs L285-321). -/
def byteIndex (p : Position) (text : Text) : Option Nat :=
  if p.line = 0 ∧ p.character = 0 ∧ text = [] then some 0
  else
    match skipLines p.line text 0 0 with
    | none => none
    | some (rest, b) => skipCols p.character rest 0 b

/-- `Range` (textdocument.rs L357-361). -/
structure Range where
  start : Position
  stop : Position
deriving DecidableEq, Repr

/-- `Range::to_byte_index_range` (textdocument.rs L378-383). `TextRange::new` asserts
`start <= end`; the outer `Option` of the result is the `Option` of the code, a range with
`start > end` is the panic case and represented by the pair itself (callers check). -/
def Range.toByteIndexRange (r : Range) (text : Text) : Option (Nat × Nat) :=
  match byteIndex r.start text, byteIndex r.stop text with
  | some a, some b => some (a, b)
  | _, _ => none

/-- `Range::overlaps` (textdocument.rs L385-387). -/
def Range.overlaps (a b : Range) : Bool :=
  a.start.lt b.stop && b.start.lt a.stop

/-- `Range::is_empty` (textdocument.rs L389-391). -/
def Range.isEmpty (a : Range) : Bool := decide (a.start = a.stop)

/-- `Range::from_byte_offset_range` (textdocument.rs L393-398). -/
def Range.fromByteOffsetRange (a b : Nat) (text : Text) : Option Range :=
  match fromByteIndex a text with
  | none => none
  | some s =>
    match fromByteIndex b text with
    | none => none
    | some e => some ⟨s, e⟩

/-- `TextEdit` (textdocument.rs L407-412). -/
structure TextEdit where
  range : Range
  newText : Text
deriving DecidableEq, Repr

/-- `TextEdit::overlaps` (textdocument.rs L422-424). -/
def TextEdit.overlaps (a b : TextEdit) : Bool := a.range.overlaps b.range

/-- `TextEdit::is_empty` (textdocument.rs L426-428). -/
def TextEdit.isEmpty (a : TextEdit) : Bool := a.range.isEmpty && decide (a.newText = [])

end Verif
