import Verif.TextSpec
/-!
# Specification of simultaneous editing

A document together with the edits to be made is cut into segments: some text to keep, the text to be
replaced, and its replacement. The original document, the edited document and the edits themselves are
all read off this one decomposition.
-/
namespace Verif

/-- One edit with the unedited text in front of it. -/
structure Seg where
  keep : Text
  old : Text
  new : Text

/-- The original text of a list of segments. -/
def origOf : List Seg → Text
  | [] => []
  | s :: ss => s.keep ++ s.old ++ origOf ss

/-- The text after simultaneously replacing every `old` by `new`. -/
def resultOf : List Seg → Text
  | [] => []
  | s :: ss => s.keep ++ s.new ++ resultOf ss

/-- The text edits in document order, given the text `pre` in front of the segments. -/
def editsOf (pre : Text) : List Seg → List TextEdit
  | [] => []
  | s :: ss =>
    ⟨⟨posOf (pre ++ s.keep), posOf (pre ++ s.keep ++ s.old)⟩, s.new⟩ ::
      editsOf (pre ++ s.keep ++ s.old) ss

/-- The range delimits a piece of the text (both ends are positions of the document, in order). -/
def ValidIn (t : Text) (r : Range) : Prop :=
  ∃ a b c, t = a ++ b ++ c ∧ r.start = posOf a ∧ r.stop = posOf (a ++ b)

end Verif
