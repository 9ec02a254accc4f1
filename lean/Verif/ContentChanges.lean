import Verif.ApplyEdits
/-!
# `TextDocumentItem::apply_content_changes`

Models `src/server/lsp/textdocument.rs` L119-196. Panics are `none`.
-/
namespace Verif

/-- `TextDocumentContentChangeEvent` (src/server/lsp/messages/textdocument_syncronization.rs):
a change without a range replaces the whole document. -/
structure Change where
  range : Option Range
  text : Text
deriving DecidableEq, Repr

/-- The iterations of the loop that belong to one ranged change (textdocument.rs L139-192): walk
forward from the cursor until the end of the range is reached, remembering the byte offset of its
start. `rest` is `self.text[byte_offset..]`. Yields (end offset, start offset); `none` = a failed
assertion (invalid range, cursor beyond the end) or end of text reached. -/
def walkChange (r : Range) : (rest : Text) → Position → (byteOff startOff : Nat) → Option (Nat × Nat)
  | rest, cursor, byteOff, startOff =>
    if r.start.le r.stop = false then none
    else if cursor.le r.stop = false then none
    else
      let startOff' := if r.start = cursor then byteOff else startOff
      if r.stop = cursor then some (byteOff, startOff')
      else
        match rest with
        | [] => none
        | c :: rest' =>
          if c = '\n' then walkChange r rest' ⟨cursor.line + 1, 0⟩ (byteOff + u8 c) startOff'
          else
            match rest' with
            | [] => walkChange r [] ⟨cursor.line, cursor.character + u16 c⟩ (byteOff + u8 c) startOff'
            | d :: rest'' =>
              if c = '\r' ∧ d = '\n' then
                walkChange r rest'' ⟨cursor.line + 1, 0⟩ (byteOff + 2) startOff'
              else
                walkChange r (d :: rest'') ⟨cursor.line, cursor.character + u16 c⟩ (byteOff + u8 c) startOff'
termination_by structural rest => rest

/-- Whether the cursor is reset after a change (textdocument.rs L165-174): the next change is
rangeless or starts in front of the cursor. -/
def needsReset (cursor : Position) : List Change → Bool
  | [] => false
  | ⟨none, _⟩ :: _ => true
  | ⟨some r, _⟩ :: _ => r.start.lt cursor

/-- The loop over the changes (textdocument.rs L130-193) with its state: text, cursor, byte offset of
the cursor, byte offset of the start of the current change. -/
def changesLoop : List Change → Text → Position → (byteOff startOff : Nat) → Option Text
  | [], text, _, _, _ => some text
  | ⟨none, new⟩ :: cs, _, _, _, _ => changesLoop cs new ⟨0, 0⟩ 0 0
  | ⟨some r, new⟩ :: cs, text, cursor, byteOff, startOff =>
    match splitAtByte text byteOff with
    | none => none
    | some (_, rest) =>
      match walkChange r rest cursor byteOff startOff with
      | none => none
      | some (e, s) =>
        match replaceRange text s e new with
        | none => none
        | some text' =>
          if needsReset r.start cs then changesLoop cs text' ⟨0, 0⟩ 0 s
          else changesLoop cs text' r.start s s

/-- `TextDocumentItem::apply_content_changes` (textdocument.rs L119-196). -/
def applyContentChanges (t : Text) (cs : List Change) : Option Text := changesLoop cs t ⟨0, 0⟩ 0 0

end Verif
