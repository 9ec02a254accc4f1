import Verif.Grammar.TreeSpec
import Verif.Grammar.Rule
/-!
# What a syntax tree of any text, valid or not, looks like

Specification, not part of the code.
-/
namespace Verif.Grammar

/-- A grammar symbol: a terminal or a non-terminal. -/
inductive Sym
  | tok (k : Kind)
  | node (k : Kind)
deriving DecidableEq, Repr

/-- The words of a right-hand side, one level deep. -/
inductive Word : Rule → List Sym → Prop
  | tok (k) : Word (.tok k) [.tok k]
  | node (k) : Word (.node k) [.node k]
  | seq {a b u v} (da : Word a u) (db : Word b v) : Word (.seq a b) (u ++ v)
  | altL {a b w} (d : Word a w) : Word (.alt a b) w
  | altR {a b w} (d : Word b w) : Word (.alt a b) w
  | optNone (r) : Word (.opt r) []
  | optSome {r w} (d : Word r w) : Word (.opt r) w
  | repNil (r) : Word (.rep r) []
  | repCons {r u v} (d : Word r u) (ds : Word (.rep r) v) : Word (.rep r) (u ++ v)

/-- A right-hand side with symbols missing. -/
def Loose (r : Rule) (l : List Sym) : Prop := ∃ w, Word r w ∧ List.Sublist l w

/-- The grammar symbol of a child; trivia and error nodes have none. -/
def Green.sym : Green → Option Sym
  | .tok k _ => if triviaKind k then none else some (.tok k)
  | .node k _ => if k = K.Error then none else some (.node k)

def Green.isTok : Green → Bool
  | .tok _ _ => true
  | .node _ _ => false

/-- The children of a node of some kind follow the grammar: those of an error node are tokens; those of another node,
trivia and error nodes aside, are a right-hand side of its kind with symbols missing. -/
def Follows (R : Kind → Option Rule) : Green → Prop
  | .tok _ _ => True
  | .node k cs =>
    if k = K.Error then ∀ c ∈ cs, c.isTok = true
    else ∃ r, R k = some r ∧ Loose r (cs.filterMap Green.sym)

end Verif.Grammar
