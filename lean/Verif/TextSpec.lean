import Verif.Text
/-!
# Specification of positions

What a position *means*, independent of the algorithms: a boundary in a text is a split
`text = pre ++ post`; its byte offset is `blen pre` and its LSP position is
(number of line feeds in `pre`, UTF-16 length of the part of `pre` after its last line feed).
-/
namespace Verif

/-- Number of line feeds. -/
def lineNo (pre : Text) : Nat := pre.count '\n'

/-- The part after the last line feed. -/
def lastLine (pre : Text) : Text := (pre.reverse.takeWhile (fun c => c != '\n')).reverse

/-- The LSP position of the boundary after `pre`. -/
def posOf (pre : Text) : Position := ⟨lineNo pre, len16 (lastLine pre)⟩

/-- Every carriage return is directly followed by a line feed (texts with Unix or Windows line
endings, no old-Mac ones). -/
def NoLoneCR (t : Text) : Prop := ∀ a b, t = a ++ '\r' :: b → ∃ b', b = '\n' :: b'

/-- `a < b` on positions, as a proposition: lexicographic. -/
def Position.Before (a b : Position) : Prop :=
  a.line < b.line ∨ (a.line = b.line ∧ a.character < b.character)

end Verif
