import Verif.Grammar.Tree
import Verif.Grammar.Forest
/-!
# Vocabulary for statements about syntax trees

Specification, not part of the code.
-/
namespace Verif.Grammar

/-- Kinds that are trivia. -/
def triviaKind (k : Kind) : Bool := k == K.WHITESPACE || k == K.Comment

mutual
/-- The leaves of a tree, left to right. -/
def Green.leaves : Green → List (Kind × Text)
  | .tok k t => [(k, t)]
  | .node _ cs => Green.leavesL cs
def Green.leavesL : List Green → List (Kind × Text)
  | [] => []
  | g :: gs => g.leaves ++ Green.leavesL gs
end

/-- The text of a tree. -/
def Green.text (g : Green) : Text := (g.leaves.map (·.2)).flatten

/-- The kind of the root. -/
def Green.kind : Green → Kind
  | .tok k _ => k
  | .node k _ => k

mutual
/-- The tree without trivia and without the token labels, in front of a forest. -/
def Green.shape : Green → Forest → Forest
  | .tok k _, r => if triviaKind k then r else .tok r
  | .node k cs, r => .node k (Green.shapeL cs) r
def Green.shapeL : List Green → Forest
  | [] => .nil
  | g :: gs => g.shape (Green.shapeL gs)
end

mutual
/-- All nodes of a tree. -/
def Green.nodes : Green → List Green
  | .tok _ _ => []
  | .node k cs => .node k cs :: Green.nodesL cs
def Green.nodesL : List Green → List Green
  | [] => []
  | g :: gs => g.nodes ++ Green.nodesL gs
end

/-- The node strictly below the root. -/
def Green.inner : Green → List Green
  | .tok _ _ => []
  | .node _ cs => Green.nodesL cs

/-- Neither begins nor ends with trivia, and has a leaf. -/
def Green.Tight (g : Green) : Prop :=
  (∃ k t l, g.leaves = (k, t) :: l ∧ triviaKind k = false) ∧
  (∃ k t l, g.leaves = l ++ [(k, t)] ∧ triviaKind k = false)

/-- The significant (non-trivia) tokens. -/
def significant (toks : List Tok) : List Tok := toks.filter (fun t => !t.trivia)

/-- The span an error is attached to when `m` significant tokens precede it: the next significant token, or the end of
the last one. -/
def anchor (sig : List Tok) (m : Nat) : Nat × Nat :=
  match sig[m]? with
  | some t => (t.start, t.stop)
  | none =>
    match sig.getLast? with
    | some t => (t.stop, t.stop)
    | none => (0, 0)

namespace Forest

/-- Empty nodes removed; the error reports inside them are kept. -/
def prune : Forest → Forest
  | nil => nil
  | tok r => tok r.prune
  | err e r => err e r.prune
  | node k c r => if c.toks = 0 then c.prune.append r.prune else node k c.prune r.prune

/-- Error reports removed. -/
def dropErr : Forest → Forest
  | nil => nil
  | tok r => tok r.dropErr
  | err _ r => r.dropErr
  | node k c r => node k c.dropErr r.dropErr

/-- The error reports in order, each with the number of tokens before it. -/
def reports : Forest → Nat → List (Nat × List Kind)
  | nil, _ => []
  | tok r, m => r.reports (m + 1)
  | err e r, m => (m, e) :: r.reports m
  | node _ c r, m => c.reports m ++ r.reports (m + c.toks)

/-- No empty node. -/
def full : Forest → Prop
  | nil => True
  | tok r => r.full
  | err _ r => r.full
  | node _ c r => c.toks ≠ 0 ∧ c.full ∧ r.full

/-- No node has one of the given kinds. -/
def avoids (p : Kind → Prop) : Forest → Prop
  | nil => True
  | tok r => r.avoids p
  | err _ r => r.avoids p
  | node k c r => ¬ p k ∧ c.avoids p ∧ r.avoids p

end Forest

/-- The tokens tile a text: spans are contiguous from `at`, and have the length of the token text. -/
def TilesFrom : Nat → List Tok → Prop
  | _, [] => True
  | o, t :: ts => t.start = o ∧ t.stop = o + blen t.text ∧ TilesFrom t.stop ts

/-- `toks` is a tokenization of `text`. -/
def Tiles (text : Text) (toks : List Tok) : Prop :=
  TilesFrom 0 toks ∧ (toks.map (·.text)).flatten = text

/-- What the lexer delivers for `text`: tokens that tile the text, none of which has the end-of-input kind (there is no
such lexer rule, syntax_kind/generated.rs L7); the kind is one of the 344 discriminants. -/
structure Lexed (text : Text) (toks : List Tok) : Prop where
  tiles : Tiles text toks
  noEof : ∀ t ∈ toks, t.kind ≠ K.Eof
  kind_lt : ∀ t ∈ toks, t.kind < 344

/-- Nesting depth after an event stream, starting at depth `d`; `none` if a close has no open. -/
def depthAfter : Nat → List Event → Option Nat
  | d, [] => some d
  | d, .openNode _ :: es => depthAfter (d + 1) es
  | 0, .close :: _ => none
  | d + 1, .close :: es => depthAfter d es
  | d, _ :: es => depthAfter d es

end Verif.Grammar
