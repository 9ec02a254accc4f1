import Verif.Features.Diagnostics
import Verif.Features.OnType
/-!
# Triples with the same subject

Models `src/server/message_handler/diagnostic/same_subject.rs` with the syntax tree methods it calls. The hash map of the code
is a list in the order of the first insertion; the order in which the groups come is not part of any theorem. Messages are
not modelled.
-/
namespace Verif.Features
open Verif Verif.Grammar

mutual
/-- `TriplesBlock::triples` (crates/sparql-parser/src/ast/mod.rs L450-460). -/
def triplesIn (g : Green) (idx off : Nat) (up : List Site) : List Red :=
  match g with
  | .tok _ _ => []
  | .node k cs => triplesInL cs 0 off (⟨.node k cs, idx, off⟩ :: up)
def triplesInL (cs : List Green) (idx off : Nat) (up : List Site) : List Red :=
  match cs with
  | [] => []
  | .tok _ t :: gs => triplesInL gs (idx + 1) (off + blen t) up
  | .node k cs :: gs =>
    (if k = K.TriplesSameSubjectPath then [⟨⟨.node k cs, idx, off⟩, up⟩]
     else if k = K.TriplesBlock then triplesIn (.node k cs) idx off up
     else []) ++ triplesInL gs (idx + 1) (off + blen (Green.node k cs).text) up
end

/-- `TriplesBlock::triples`. -/
def triplesOf (b : Red) : List Red := triplesIn b.here.green b.here.idx b.here.off b.up

/-- `GroupGraphPattern::triple_blocks` (ast/mod.rs L402-407). -/
def tripleBlocks (p : Red) : List Red :=
  match p.childOf [K.GroupGraphPatternSub] with
  | none => []
  | some sub => sub.children.filter (fun c => c.kind == K.TriplesBlock)

/-- `AstNode::has_error` (ast/mod.rs L1647-1655). -/
def hasErrorNode (t : Red) : Bool := t.descendants.any (fun x => x.kind == K.Error)

/-- `triple.subject()` and its text (ast/mod.rs L491-493, L971-973). -/
def subjectText (t : Red) : Option Text :=
  match t.firstChild with
  | none => none
  | some c => if c.kind = K.VarOrTerm ∨ c.kind = K.TriplesNodePath then some c.text else none

/-- `groups.entry(subject).and_modify(push).or_insert(vec![triple])` (same_subject.rs L80-83). -/
def addGroup (s : Text) (t : Red) : List (Text × List Red) → List (Text × List Red)
  | [] => [(s, [t])]
  | (s', l) :: r => if s' = s then (s', l ++ [t]) :: r else (s', l) :: addGroup s t r

/-- The body of the loop (same_subject.rs L79-84). -/
def groupStep (acc : List (Text × List Red)) (t : Red) : List (Text × List Red) :=
  match subjectText t with
  | none => acc
  | some s => addGroup s t acc

/-- The loop over the triples of a graph pattern (same_subject.rs L77-85). -/
def groupTriples (ts : List Red) : List (Text × List Red) :=
  (ts.filter (fun t => !hasErrorNode t)).foldl groupStep []

/-- `find_all_triple_groups` (same_subject.rs L65-93). -/
def tripleGroups (g : Green) : List (Text × List Red) :=
  ((Red.root g).descendants.filter (fun p => p.kind == K.GroupGraphPattern)).flatMap (fun p =>
    (groupTriples ((tripleBlocks p).flatMap triplesOf)).filter (fun x => decide (2 ≤ x.2.length)))

/-- The diagnostic of a triple, with the byte ranges of its group as data. -/
structure TripleDiag where
  range : Range
  severity : Severity
  code : DiagCode
  data : List (Nat × Nat)
deriving DecidableEq, Repr

/-- The byte range of an element. -/
def span (t : Red) : Nat × Nat := (t.start, t.stop)

/-- `same_subject::diagnostics` (same_subject.rs L23-63); `none` is the panic of `expect`. -/
def sameSubject (text : Text) (g : Green) : Option (List TripleDiag) :=
  unwrapAll (fun x : List Red × Red => (rangeOf text x.2).map (fun r => ⟨r, .information, .sameSubject, x.1.map span⟩))
    ((tripleGroups g).flatMap (fun x => x.2.map (fun t => (x.2, t))))

/-! ## Specification -/

/-- `t` is a triple written directly in the graph pattern `p` (`{ .. }`), not in a nested one. -/
def TripleOf (p t : Red) : Prop :=
  t.isNode = true ∧ t.kind = K.TriplesSameSubjectPath ∧ p.kind = K.GroupGraphPattern ∧
  ∃ bs sub rest, Red.chain t.up = bs ++ sub :: p :: rest ∧ (∀ b ∈ bs, b.kind = K.TriplesBlock) ∧ sub.kind = K.GroupGraphPatternSub

/-- A triple of the document without errors inside, in the pattern `p` and with the subject `s`. -/
def SubjectIn (g : Green) (p : Red) (s : Text) (t : Red) : Prop :=
  InTree g t ∧ TripleOf p t ∧ (∀ x ∈ t.descendants, x.kind ≠ K.Error) ∧
  ∃ c, t.children.head? = some c ∧ (c.kind = K.VarOrTerm ∨ c.kind = K.TriplesNodePath) ∧ c.text = s

end Verif.Features
