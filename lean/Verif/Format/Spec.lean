import Verif.Format.Tables
import Verif.Lexer.Blank
/-!
# What it means to re-format a document

Independent of the formatter: a text is a layout of a list of tokens if it consists of these tokens, in this order, with white
space in front of, between and behind them; keywords may be written in another letter case, `[ ]` as `[]`; a comment ends
with its line.
-/
namespace Verif.Format
open Verif Verif.Grammar Verif.Lexer Verif.Features

/-- Signed numbers: the formatter may separate the sign from the digits (`?x +1` becomes `?x + 1`). -/
def signed : List Kind :=
  [K.INTEGER_POSITIVE, K.DECIMAL_POSITIVE, K.DOUBLE_POSITIVE, K.INTEGER_NEGATIVE, K.DECIMAL_NEGATIVE, K.DOUBLE_NEGATIVE]

/-- The number of letters of the second word of a token of two words. -/
def secondWord (k : Kind) : Option Nat :=
  if k = K.DELETE_WHERE then some 5
  else if k = K.DELETE_DATA ∨ k = K.INSERT_DATA then some 4
  else none

/-- The pieces of a token: `DELETE WHERE`, `DELETE DATA` and `INSERT DATA` are one token for the lexer, but consist of two words
with white space between them; a signed number consists of its sign and its digits (if `σ`); every other token is one piece. -/
def pieces (σ : Bool) (p : Kind × Text) : List (Kind × Text) :=
  match secondWord p.1 with
  | some n => [(p.1, p.2.take 6), (K.WHITESPACE, (p.2.take (p.2.length - n)).drop 6), (p.1, p.2.drop (p.2.length - n))]
  | none => if σ = true ∧ p.1 ∈ signed then [(p.1, p.2.take 1), (p.1, p.2.drop 1)] else [p]

/-- The keywords whose letter case the formatter may change. -/
def caseKinds : List Kind := K.DELETE :: K.DELETE_WHERE :: K.DELETE_DATA :: K.INSERT_DATA :: keywords

/-- The ways a token may be written: as it was, a keyword in another letter case, an anonymous blank node without the white
space inside. -/
def Restyled (p : Kind × Text) (t : Text) : Prop :=
  t = p.2 ∨ (p.1 ∈ caseKinds ∧ t.map Char.toLower = p.2.map Char.toLower) ∨ (p.1 = K.ANON ∧ t = ['[', ']'])

/-- `Laid R l t`: the text `t` is a layout of the tokens `l`, each written in one of the ways `R` allows. -/
inductive Laid (R : Kind × Text → Text → Prop) : List (Kind × Text) → Text → Prop
  | done {w} (hw : Spaces w) : Laid R [] w
  | token {w p t l r} (hw : Spaces w) (hk : p.1 ≠ K.Comment) (ht : R p t) (h : Laid R l r) : Laid R (p :: l) (w ++ (t ++ r))
  | comment {w t l r} (hw : Spaces w) (h : Laid R l ('\n' :: r)) : Laid R ((K.Comment, '#' :: t) :: l) (w ++ ('#' :: t ++ '\n' :: r))

/-- The tokens of a document a formatted version has to contain: all of them except white space, split into their pieces. -/
def contents (leaves : List (Kind × Text)) : List (Kind × Text) :=
  (leaves.flatMap (pieces true)).filter (fun p => p.1 != K.WHITESPACE)

end Verif.Format
