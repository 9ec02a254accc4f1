import Verif.Features.Continuations
import Verif.Features.SearchTerm
/-!
# What kind of completion is asked for

Models `get_continuations`, `get_location` and `inline_data_variable_index`
(`src/server/message_handler/completion/environment/mod.rs` L456-675). They work on the tree `g` of the text in front of the cursor.
-/
namespace Verif.Features
open Verif Verif.Grammar

/-- `CompletionLocation` (mod.rs L73-265). -/
inductive Location
  | start
  | predicate (triple : Red)
  | blankProperty (b : Red)
  | subject
  | object (triple : Red)
  | blankObject (b : Red)
  | modifier
  | graph
  | service
  | selectBinding (clause : Red)
  | groupCondition (clause : Red)
  | orderCondition
  | inlineData (data : Red) (index : Nat)
  | builtIn
  | unknown

/-- The kinds of `// NOTE: Predicate` (mod.rs L479-490). -/
def verbKinds : List Kind :=
  [K.PropertyListPathNotEmpty, K.PropertyListPath, K.Path, K.VerbPath, K.VerbSimple, K.PathEltOrInverse, K.PathSequence, K.PathElt,
    K.PathNegatedPropertySet, K.PathOneInPropertySet, K.PathAlternative]

/-- The kinds of `// NOTE: Subject` (mod.rs L507-512). -/
def subjectKinds : List Kind := [K.GroupGraphPatternSub, K.TriplesBlock, K.GraphPatternNotTriples, K.GraphNodePath]

/-- The kinds of `// NOTE: Object` (mod.rs L516-521). -/
def objectKinds : List Kind := [K.ObjectListPath, K.ObjectPath, K.ObjectList, K.Object]

/-- The kinds of `// NOTE: SolutionModifier` (mod.rs L533-540). -/
def modifierKinds : List Kind :=
  [K.SolutionModifier, K.HavingClause, K.OrderClause, K.LimitOffsetClauses, K.LimitClause, K.OffsetClause]

/-- `BlankPropertyList::can_cast` (crates/sparql-parser/src/ast/mod.rs L905-912). -/
def bracketKinds : List Kind := [K.BlankNodePropertyListPath, K.BlankNodePropertyList, K.BlankNode]

/-- The innermost node around a token with one of the kinds: `anchor.parent_ancestors().find_map(T::cast)`. -/
def innermost (a : Red) (kinds : List Kind) : Option Red := (Red.chain a.up).find? (fun q => kinds.contains q.kind)

/-- `child_of!` (mod.rs L468-472). -/
def childOf (a : Red) (k : Kind) : Bool :=
  match a.parent with
  | none => false
  | some p => p.kind == k

/-- `continues_with!` (mod.rs L462-466). -/
def anyOf (kinds ks : List Kind) : Bool := kinds.any (fun k => ks.contains k)

/-- The loop of `inline_data_variable_index` (mod.rs L627-644). -/
def slotLoop (off : Nat) : List Red → Bool → Nat → Nat
  | [], _, n => n
  | c :: cs, past, n =>
    if c.kind == K.LCurly then slotLoop off cs true n
    else if !past then slotLoop off cs past n
    else
      let n' := if c.kind == K.LParen then 0 else if c.kind == K.DataBlockValue && decide (c.stop ≤ off) then n + 1 else n
      if off ≤ c.start then n' else slotLoop off cs past n'

/-- `inline_data_variable_index` (mod.rs L615-645). -/
def slotIndex (d : Red) (off : Nat) : Nat :=
  match (d.childrenT.filter Red.isNode).getLast? with
  | none => 0
  | some block =>
    match block.childrenT.filter Red.isNode with
    | [] => 0
    | inner :: _ => if inner.kind == K.InlineDataFull then slotLoop off inner.childrenT false 0 else 0

/-- `get_location` (mod.rs L456-611): the kinds that can follow are a set, given as a list here. -/
def getLocation (anchor : Option Red) (ks : List Kind) (off : Nat) : Location :=
  match anchor with
  | none => .start
  | some a =>
    if a.kind == K.WHITESPACE && a.start == 0 then .start
    else if anyOf verbKinds ks || (anyOf [K.iri] ks && childOf a K.PathOneInPropertySet) then
      match innermost a bracketKinds with
      | some b => .blankProperty b
      | none =>
        match innermost a [K.TriplesSameSubjectPath] with
        | some t => .predicate t
        | none => .unknown
    else if anyOf subjectKinds ks then .subject
    else if anyOf objectKinds ks then
      match innermost a bracketKinds with
      | some b => .blankObject b
      | none =>
        match innermost a [K.TriplesSameSubjectPath] with
        | some t => .object t
        | none => .unknown
    else if anyOf modifierKinds ks then .modifier
    else if (anyOf [K.VarOrIri] ks && childOf a K.GraphGraphPattern) || anyOf [K.DefaultGraphClause, K.SourceSelector] ks then .graph
    else if anyOf [K.VarOrIri] ks && childOf a K.ServiceGraphPattern then .service
    else if (anyOf [K.Var] ks && (innermost a [K.SelectClause]).isSome) || (anyOf [K.Expression] ks && childOf a K.SelectClause) then
      match innermost a [K.SelectClause] with
      | some c => .selectBinding c
      | none => .unknown
    else
      match (if anyOf [K.GroupCondition, K.Expression] ks then innermost a [K.GroupClause] else none) with
      | some c => .groupCondition c
      | none =>
        if anyOf [K.OrderCondition] ks || (anyOf [K.BrackettedExpression] ks && childOf a K.OrderCondition) then .orderCondition
        else if anyOf [K.DataBlockValue] ks then
          match innermost a [K.InlineData] with
          | some d => .inlineData d (slotIndex d off)
          | none => .unknown
        else if anyOf [K.Constraint, K.Expression, K.GroupCondition] ks then .builtIn
        else .unknown

/-- `get_continuations` (mod.rs L648-675) returns the kinds. -/
def Conts (g : Green) (anchor : Option Red) (ks : List Kind) : Prop :=
  match anchor with
  | none => ks = []
  | some a =>
    match (backFrom g a).find? (fun t => !triviaKind t.kind) with
    | none => ks = []
    | some t => ∃ out, Continues g t.stop out ∧ ks = out.getD []

/-! ## Specification -/

/-- The grammar symbols that begin with a predicate, in patterns. -/
def predicateSymbols : List Kind :=
  [K.PropertyListPathNotEmpty, K.PropertyListPath, K.Path, K.VerbPath, K.VerbSimple, K.PathEltOrInverse, K.PathSequence, K.PathElt,
    K.PathNegatedPropertySet, K.PathOneInPropertySet, K.PathAlternative]

/-- The grammar symbols that begin with a subject, or with an element of a list. -/
def subjectSymbols : List Kind := [K.GroupGraphPatternSub, K.TriplesBlock, K.GraphPatternNotTriples, K.GraphNodePath]

/-- The grammar symbols that begin with an object. -/
def objectSymbols : List Kind := [K.ObjectListPath, K.ObjectPath, K.ObjectList, K.Object]

/-- The grammar symbols that modify a solution. -/
def modifierSymbols : List Kind :=
  [K.SolutionModifier, K.HavingClause, K.OrderClause, K.LimitOffsetClauses, K.LimitClause, K.OffsetClause]

/-- The nodes that are brackets: with predicates and objects of their own. -/
def brackets : List Kind := [K.BlankNodePropertyListPath, K.BlankNodePropertyList, K.BlankNode]

/-- What can come next according to a location: the kinds of grammar symbols it offers completions for. -/
def Location.offers : Location → List Kind
  | .start => []
  | .predicate _ | .blankProperty _ => K.iri :: predicateSymbols
  | .subject => subjectSymbols
  | .object _ | .blankObject _ => objectSymbols
  | .modifier => modifierSymbols
  | .graph => [K.VarOrIri, K.DefaultGraphClause, K.SourceSelector]
  | .service => [K.VarOrIri]
  | .selectBinding _ => [K.Var, K.Expression]
  | .groupCondition _ => [K.GroupCondition, K.Expression]
  | .orderCondition => [K.OrderCondition, K.BrackettedExpression]
  | .inlineData _ _ => [K.DataBlockValue]
  | .builtIn => [K.Constraint, K.Expression, K.GroupCondition]
  | .unknown => []

/-- The values of the row that is open at the end of a list of children. -/
def openRow (l : List Kind) : Nat := (l.reverse.takeWhile (fun k => k != K.LParen)).count K.DataBlockValue

end Verif.Features
