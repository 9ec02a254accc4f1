import Verif.Features.SemanticTokens
import Verif.Grammar.TreeSpec
/-!
# Properties C23, C24: semantic tokens
-/
namespace Verif.Props
open Verif Verif.Grammar Verif.Features

/-- C23. For every sequence of tokens in document order the delta encoding does not overflow, and decoding it the way an
LSP client does gives back exactly the tokens. -/
theorem c23_roundtrip (ts : List SemTok) (h : ts.Pairwise InOrder) :
    ∃ e, encode ts 0 0 = some e ∧ decode e 0 0 = some ts :=
  encode_decode ts 0 0 h (fun t _ => by omega)

/-- C23. For every syntax tree (and every requested range) the tokens found are in document order, so the response can
always be built and decodes to them. -/
theorem c23_response (g : Green) (r : Option Range) :
    ∃ e, encode (collect r g.leaves 0 0) 0 0 = some e ∧ decode e 0 0 = some (collect r g.leaves 0 0) :=
  c23_roundtrip _ (collect_pairwise r g.leaves 0 0)

-- three tokens on two lines
example : ([⟨0, 0, 6, 0⟩, ⟨0, 7, 2, 2⟩, ⟨1, 2, 5, 0⟩] : List SemTok).Pairwise InOrder ∧
    encode [⟨0, 0, 6, 0⟩, ⟨0, 7, 2, 2⟩, ⟨1, 2, 5, 0⟩] 0 0 = some [0, 0, 6, 0, 0, 0, 7, 2, 2, 0, 1, 2, 5, 0, 0] := by
  refine ⟨?_, by decide⟩
  simp [InOrder]

/-- C23, negative: out of order tokens make the unsigned subtraction overflow. -/
theorem c23_out_of_order_overflows : encode [⟨1, 0, 1, 0⟩, ⟨0, 0, 1, 0⟩] 0 0 = none := by decide

/-- C24. If the document is ASCII and line breaks occur in white space only, the tokens reported are exactly the leaves of
highlighted kinds, each with the LSP line, column and length of its text. -/
theorem c24_positions (g : Green) (ha : ∀ l ∈ g.leaves, Ascii l.2) (hs : ∀ l ∈ g.leaves, SingleLine l) :
    collect none g.leaves 0 0 = highlights [] g.leaves :=
  collect_highlights [] g.leaves ha hs

/-- C24. With a requested range, they are those whose LSP range overlaps it. -/
theorem c24_positions_in_range (g : Green) (r : Range) (ha : ∀ l ∈ g.leaves, Ascii l.2)
    (hs : ∀ l ∈ g.leaves, SingleLine l) : collect (some r) g.leaves 0 0 = highlightsIn r [] g.leaves :=
  collect_highlightsIn r [] g.leaves ha hs

/-- C24. The position of `highlights` is the conversion of the byte offset of the leaf (C03). -/
theorem c24_highlight_is_offset_position (pre : Text) (k : Kind) (t : Text) (rest : List (Kind × Text)) (ty : Nat)
    (hk : tokenType k = some ty) (post : Text) :
    ∃ p, fromByteIndex (blen pre) (pre ++ t ++ post) = some p ∧
      (highlights pre ((k, t) :: rest)).head? = some ⟨p.line, p.character, len16 t, ty⟩ := by
  refine ⟨posOf pre, ?_, by simp [highlights, hk]⟩
  rw [List.append_assoc]
  exact fromByteIndex_of_prefix pre (t ++ post)

/-- A two-line ASCII tree: `ASK` newline `?x` (example). -/
def c24Tree : Green := .node K.QueryUnit
  [.tok K.ASK ['A', 'S', 'K'], .tok K.WHITESPACE ['\n', ' '], .tok K.VAR1 ['?', 'x']]

example : (∀ l ∈ c24Tree.leaves, Ascii l.2) ∧ (∀ l ∈ c24Tree.leaves, SingleLine l) ∧
    collect none c24Tree.leaves 0 0 = [⟨0, 0, 3, 0⟩, ⟨1, 1, 2, 2⟩] := by
  have e : c24Tree.leaves = [(K.ASK, ['A', 'S', 'K']), (K.WHITESPACE, ['\n', ' ']), (K.VAR1, ['?', 'x'])] := by
    simp [c24Tree, Green.leaves, Green.leavesL]
  rw [e]
  refine ⟨?_, ?_, by decide⟩
  · simp [Ascii]
  · simp [SingleLine]

/-- C24, negative: lengths and columns are counted in bytes. After the string `"é"` the variable is reported one column too
far right. -/
theorem c24_non_ascii_wrong :
    collect none [(K.STRING_LITERAL2, ['"', 'é', '"']), (K.VAR1, ['?', 'x'])] 0 0 = [⟨0, 0, 4, 3⟩, ⟨0, 4, 2, 2⟩] ∧
    highlights [] [(K.STRING_LITERAL2, ['"', 'é', '"']), (K.VAR1, ['?', 'x'])] = [⟨0, 0, 3, 3⟩, ⟨0, 3, 2, 2⟩] := by
  decide

/-- C24, negative: after a multi-line string literal everything is reported on the wrong line. -/
theorem c24_multiline_string_wrong :
    collect none [(K.STRING_LITERAL_LONG2, ['"', '"', '"', '\n', '"', '"', '"']), (K.VAR1, ['?', 'x'])] 0 0 =
      [⟨0, 0, 7, 3⟩, ⟨0, 7, 2, 2⟩] ∧
    highlights [] [(K.STRING_LITERAL_LONG2, ['"', '"', '"', '\n', '"', '"', '"']), (K.VAR1, ['?', 'x'])] =
      [⟨0, 0, 7, 3⟩, ⟨1, 3, 2, 2⟩] := by
  decide

end Verif.Props
