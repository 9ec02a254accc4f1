import Verif.Grammar.TreeSpec
/-!
# Variables visible from outside a syntax node

Models the `visible_variables` methods of `crates/sparql-parser/src/ast/mod.rs` as far as they are reached from
`SelectQuery::visible_variables`. Only the texts of the variables are kept (callers compare `text()` or `var_name()`), so no offsets
are needed. The methods look several levels down, so the recursion computes for every element a record of all that its
parents may ask for; the non-recursive function `mkAttr` builds it from those of the children.
-/
namespace Verif.Features
open Verif Verif.Grammar

/-- `Var::var_name` (ast/mod.rs L731-737). -/
def varName (t : Text) : Text :=
  match t with
  | '?' :: name => name
  | t => t

/-- What the methods ask of an element. -/
structure Attr where
  /-- `kind()` -/
  kind : Kind
  /-- node or token -/
  node : Bool
  /-- `text()` of the element -/
  name : Text
  /-- kind of `last_child_or_token()` -/
  lastT : Option Kind
  /-- texts of `descendants().filter_map(Var::cast)` -/
  vars : List Text
  /-- texts of `visible_variables()` of the element cast to its own type -/
  visible : List Text
  /-- what a `GroupGraphPattern` collects below its first child (ast/mod.rs L1089-1102) -/
  inner : List Text
  /-- what an `InlineData` collects below its last child (ast/mod.rs L1452-1472) -/
  data : List Text

/-- `GraphPatternNotTriples::cast` succeeds on a node with this first child (ast/mod.rs L1572-1599). -/
def patternKinds : List Kind :=
  [K.GroupOrUnionGraphPattern, K.OptionalGraphPattern, K.MinusGraphPattern, K.GraphGraphPattern, K.ServiceGraphPattern,
    K.Filter, K.Bind, K.InlineData]

/-- `visible` of an optional element if it has one of the kinds. -/
def visibleIf (ks : List Kind) : Option Attr → List Text
  | some a => if a.kind ∈ ks then a.visible else []
  | none => []

/-- The text of an optional element if it is a variable. -/
def nameIfVar : Option Attr → List Text
  | some a => if a.kind = K.Var then [a.name] else []
  | none => []

/-- `visible_variables` by kind: all children with tokens `as`, children that are nodes `kids`, variables below the node
`vars`. Lines of ast/mod.rs: `SelectQuery` L1534-1550, `SelectClause` L1480-1482 with L183-185, `WhereClause` L1127-1131
with L380-383, `GroupGraphPattern` L1086-1105 with L435-437, `OptionalGraphPattern` L1152-1156 with L303-305,
`MinusGraphPattern` L1205-1209 with L313-315, `GraphGraphPattern` L1231-1235 with L335-337, `ServiceGraphPattern`
L1257-1261 with L371-376, `GroupOrUnionGraphPattern` L1178-1183 with L288-293, `GraphPatternNotTriples` L1616-1627,
`Filter` L1283-1285, `Bind` L1307-1314, `InlineData` L1449-1472. -/
def visibleOf (k : Kind) (as kids : List Attr) (vars : List Text) : List Text :=
  if k = K.SelectQuery ∨ k = K.SubSelect then
    match kids.find? (fun a => a.kind == K.SelectClause) with
    | none => []
    | some clause =>
      if clause.lastT = some K.Star then visibleIf [K.WhereClause] (kids.find? (fun a => a.kind == K.WhereClause))
      else clause.visible
  else if k = K.SelectClause then (kids.filter (fun a => a.kind == K.Var)).map (·.name)
  else if k = K.WhereClause then visibleIf [K.GroupGraphPattern] kids.head?
  else if k = K.GroupGraphPattern then
    match kids.head? with
    | none => []
    | some c => if c.kind = K.SelectQuery ∨ c.kind = K.SubSelect then c.visible else c.inner
  else if k = K.OptionalGraphPattern ∨ k = K.MinusGraphPattern ∨ k = K.GraphGraphPattern ∨ k = K.ServiceGraphPattern then
    visibleIf [K.GroupGraphPattern] kids.getLast?
  else if k = K.GroupOrUnionGraphPattern then
    (kids.filter (fun a => a.kind == K.GroupGraphPattern)).flatMap (·.visible)
  else if k = K.GraphPatternNotTriples then visibleIf patternKinds kids.head?
  else if k = K.Filter then vars
  else if k = K.Bind then nameIfVar kids.getLast?
  else if k = K.InlineData then
    match kids.getLast? with
    | none => []
    | some block => block.data
  else if k = K.InlineDataOneVar then nameIfVar kids.head?
  else if k = K.InlineDataFull then
    ((as.takeWhile (fun a => a.kind != K.RParen)).filter (fun a => a.node && a.kind == K.Var)).map (·.name)
  else []

/-- The record of a node from those of its children. -/
def mkAttr (k : Kind) (text : Text) (as : List Attr) : Attr :=
  let kids := as.filter (·.node)
  let vars := (if k = K.Var then [text] else []) ++ kids.flatMap (·.vars)
  { kind := k
    node := true
    name := text
    lastT := as.getLast?.map (·.kind)
    vars := vars
    visible := visibleOf k as kids vars
    inner := kids.flatMap (fun a =>
      if a.kind = K.TriplesBlock then a.vars else if a.kind = K.GraphPatternNotTriples then a.visible else [])
    data := visibleIf [K.InlineDataOneVar, K.InlineDataFull] kids.head? }

mutual
/-- The record of an element. -/
def attr : Green → Attr
  | .tok k t => ⟨k, false, t, none, [], [], [], []⟩
  | .node k cs => mkAttr k (Green.node k cs).text (attrs cs)
def attrs : List Green → List Attr
  | [] => []
  | g :: gs => attr g :: attrs gs
end

/-- `visible_variables().iter().any(|var| var.var_name() == name)` of a `SelectQuery` (common/mod.rs L50-55). -/
def projects (g : Green) (name : Text) : Bool := (attr g).visible.any (fun t => varName t == name)

end Verif.Features
