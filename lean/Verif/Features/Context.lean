import Mathlib.Data.List.Sort
import Verif.Features.QueryGraph
import Verif.Features.SameSubject
import Verif.Features.VisibleSpec
/-!
# The context of a completion

Models `src/server/message_handler/completion/environment/context.rs` with the syntax tree methods it calls. Of `Context` the field
`raw_inject` is always empty here and left out. A panic is an outer `none`.
-/
namespace Verif.Features
open Verif Verif.Grammar

/-- A node of the query graph: a piece of the query and the texts of its visible variables. -/
abbrev Piece := QNode Red Text

/-- `Triple::visible_variables` as texts (crates/sparql-parser/src/ast/mod.rs L1011-1013). -/
def tripleVars (t : Red) : List Text := (attr t.green).vars

/-- `visible_variables` of a pattern, an inline data or a select query as texts. -/
def shownVars (x : Red) : List Text := (attr x.green).visible

/-- `GraphPatternNotTriples::cast` followed by `syntax()` (ast/mod.rs L1572-1614): the first child, whatever the node is. -/
def castPattern (w : Red) : Option Red :=
  match w.firstChild with
  | none => none
  | some x => if x.kind ∈ patternKinds then some x else none

/-- `GroupGraphPattern::group_pattern_not_triples` (ast/mod.rs L409-418). -/
def patternsOf (p : Red) : List Red :=
  match p.childOf [K.GroupGraphPatternSub] with
  | none => []
  | some sub => sub.children.filterMap castPattern

/-- `GroupGraphPattern::sub_select` (ast/mod.rs L438-440, L1528-1530). -/
def subSelectOf (p : Red) : Option Red :=
  match p.firstChild with
  | none => none
  | some s => if s.kind = K.SelectQuery ∨ s.kind = K.SubSelect then some s else none

/-- The filter on the pieces (context.rs L127-129, L145). -/
def eligible (cutoff : Nat) (x : Red) : Bool := decide (x.start < cutoff) && !hasErrorNode x

/-- The triples of a group (context.rs L122-140). -/
def groupPieces (p : Red) (cutoff : Nat) : List Piece :=
  (((tripleBlocks p).flatMap triplesOf).filter (eligible cutoff)).map (fun t => ⟨t, tripleVars t⟩)

/-- The last step of `collect_nodes` (context.rs L168-177). -/
def selectPieces (p : Red) : List Piece :=
  match subSelectOf p with
  | none => []
  | some s => [⟨p, shownVars s⟩]

/-- The body of the loop over the patterns (context.rs L147-166); `again` is the recursive call, `none` the panic of `unwrap`. -/
def pieceStep (again : Red → Option (List Piece)) (x : Red) : Option (List Piece) :=
  if x.kind = K.GroupOrUnionGraphPattern ∧ x.children.length = 1 then
    match x.firstChild with
    | none => none
    | some q => if q.kind = K.GroupGraphPattern then again q else none
  else some [⟨x, shownVars x⟩]

/-- `collect_nodes` (context.rs L121-178): the pieces in the order they are added. The recursion gets a fuel, which `collectNodes`
makes large enough. -/
def collectIn : Nat → Red → Nat → Option (List Piece)
  | 0, _, _ => none
  | fuel + 1, p, cutoff =>
    match unwrapAll (pieceStep (fun q => collectIn fuel q cutoff)) ((patternsOf p).filter (eligible cutoff)) with
    | none => none
    | some ls => some (groupPieces p cutoff ++ ls.flatten ++ selectPieces p)

/-- `collect_nodes`. -/
def collectNodes (p : Red) (cutoff : Nat) : Option (List Piece) := collectIn (p.green.nodes.length + 1) p cutoff

/-- `Context` (context.rs L12-17). -/
structure Ctx where
  nodes : List Red
  prefixes : List Text

/-- The ranges of two elements differ. -/
def otherRange (t x : Red) : Bool := !(x.start == t.start && x.stop == t.stop)

/-- `nodes.sort_by_key(|node| node.text_range().start())` (context.rs L102): a stable sort. -/
def sortNodes (l : List Red) : List Red := l.insertionSort (fun a b => a.start ≤ b.start)

/-- `compute_context` (context.rs L85-119); the inner `none` is its `None`. -/
def computeContext (o : HashOrder) (trigger : Red) (vars : List Text) : Option (Option Ctx) :=
  match trigger.ancestors.find? (fun x => x.kind == K.GroupGraphPattern) with
  | none => some none
  | some p =>
    match collectNodes p trigger.start with
    | none => none
    | some ps =>
      match component o (⟨trigger, vars⟩ :: ps) 0 with
      | none => none
      | some ns =>
        let nodes := sortNodes (ns.filter (otherRange trigger))
        match unwrapAll usePrefix (nodes.flatMap (fun n => n.descendants.filter (fun c => c.kind == K.PrefixedName))) with
        | none => none
        | some prefixes => some (some ⟨nodes, prefixes⟩)

/-- The locations of the completion that have a context (mod.rs `CompletionLocation`, context.rs L54-69). -/
inductive Loc
  | predicate (triple : Red)
  | object (triple : Red)
  | inlineData (data : Red) (index : Nat)
  | other

/-- `context` (context.rs L53-70). -/
def completionContext (o : HashOrder) : Loc → Option (Option Ctx)
  | .predicate t => computeContext o t (tripleVars t)
  | .object t => computeContext o t (tripleVars t)
  | .inlineData d i =>
    match (shownVars d)[i]? with
    | none => some none
    | some v => computeContext o d [v]
  | .other => some none

/-! ## Specification -/

/-- No error inside. -/
def Faultless (x : Red) : Prop := ∀ y ∈ x.descendants, y.kind ≠ K.Error

/-- `x` is a pattern other than triples (`FILTER`, `OPTIONAL`, `{ .. } UNION { .. }`, ...) written directly in the group `p`. -/
def PatternOf (p x : Red) : Prop :=
  x.isNode = true ∧ p.kind = K.GroupGraphPattern ∧
  x.kind ∈ [K.GroupOrUnionGraphPattern, K.OptionalGraphPattern, K.MinusGraphPattern, K.GraphGraphPattern,
    K.ServiceGraphPattern, K.Filter, K.Bind, K.InlineData] ∧
  ∃ w sub rest, Red.chain x.up = w :: sub :: p :: rest ∧ w.kind = K.GraphPatternNotTriples ∧ w.children.head? = some x ∧
    sub.kind = K.GroupGraphPatternSub

/-- `x` is just a group in a group: `{ .. }` without `UNION`, around the group `q`. -/
def JustGroup (x q : Red) : Prop := x.kind = K.GroupOrUnionGraphPattern ∧ x.children = [q]

/-- The pieces of the query the group `p` is made of, as far as they start before `cut` and have no error inside: its triples, its
patterns; in place of a group in the group the pieces of that group; in place of a group around a sub-select the whole group. -/
inductive PieceOf (g : Green) (cut : Nat) : Red → Red → Prop
  | triple {p t : Red} (hT : InTree g t) (h : TripleOf p t) (hs : t.start < cut) (he : Faultless t) : PieceOf g cut p t
  | pattern {p x : Red} (hT : InTree g x) (h : PatternOf p x) (hs : x.start < cut) (he : Faultless x)
      (hj : ∀ q, ¬ JustGroup x q) : PieceOf g cut p x
  | inside {p x q y : Red} (hT : InTree g x) (h : PatternOf p x) (hs : x.start < cut) (he : Faultless x)
      (hj : JustGroup x q) (hy : PieceOf g cut q y) : PieceOf g cut p y
  | select {p s : Red} (hp : p.kind = K.GroupGraphPattern) (h : p.children.head? = some s)
      (hs : s.kind = K.SelectQuery ∨ s.kind = K.SubSelect) : PieceOf g cut p p

/-- The variables a piece shows: those in it if it is a triple, those visible from outside otherwise. -/
def Sees (x : Red) (v : Text) : Prop := if x.kind = K.TriplesSameSubjectPath then HasVar x.green v else Shows x.green v

/-- The pieces that hang together with the variables: they share one with them or with another such piece. -/
inductive Connected (g : Green) (cut : Nat) (p : Red) (vars : Text → Prop) : Red → Prop
  | start {y : Red} {v : Text} (hy : PieceOf g cut p y) (hv : vars v) (hs : Sees y v) : Connected g cut p vars y
  | step {y z : Red} {v : Text} (hy : Connected g cut p vars y) (hz : PieceOf g cut p z) (h1 : Sees y v) (h2 : Sees z v) :
      Connected g cut p vars z

end Verif.Features
