import Verif.Grammar.Kinds
/-!
# Grammar rules

Models `crates/sparql-parser/src/rules.rs` L1-40.
-/
namespace Verif.Grammar

/-- `enum Rule` (rules.rs L3-10), with `Seq`/`Alt` vectors nested to the right. -/
inductive Rule
  | node (k : Kind)
  | tok (k : Kind)
  | seq (a b : Rule)
  | alt (a b : Rule)
  | opt (r : Rule)
  | rep (r : Rule)
deriving DecidableEq, Repr

/-- The language of a rule over token kinds: the usual meaning of an EBNF grammar. This is the specification of what
a syntactically valid SPARQL text is. -/
inductive Derives (R : Kind → Option Rule) : Rule → List Kind → Prop
  | tok (k) : Derives R (.tok k) [k]
  | node (k r w) (h : R k = some r) (d : Derives R r w) : Derives R (.node k) w
  | seq (a b u v) (da : Derives R a u) (db : Derives R b v) : Derives R (.seq a b) (u ++ v)
  | altL (a b w) (d : Derives R a w) : Derives R (.alt a b) w
  | altR (a b w) (d : Derives R b w) : Derives R (.alt a b) w
  | optNone (r) : Derives R (.opt r) []
  | optSome (r w) (d : Derives R r w) : Derives R (.opt r) w
  | repNil (r) : Derives R (.rep r) []
  | repCons (r u v) (d : Derives R r u) (ds : Derives R (.rep r) v) : Derives R (.rep r) (u ++ v)

end Verif.Grammar
