import Verif.Features.Red
/-!
# Indentation

Models `brace_nesting_depth` (`src/server/message_handler/indent.rs` L45-73).
-/
namespace Verif.Features
open Verif Verif.Grammar

/-- The kinds of the first arm of the `match` (indent.rs L51-57). -/
def braceKinds : List Kind :=
  [K.GroupGraphPattern, K.ConstructTemplate, K.QuadData, K.QuadPattern, K.QuadsNotTriples, K.InlineDataOneVar, K.InlineDataFull]

/-- What a node adds to the depth (indent.rs L50-69); `prev` is `prev_kind`. -/
def depthOf (prev : Option Kind) (k : Kind) : Nat :=
  if k ∈ braceKinds then 1
  else if k = K.ConstructQuery ∧ prev = some K.TriplesTemplate then 1
  else 0

/-- The loop over the ancestors (indent.rs L49-71). -/
def depthLoop : Option Kind → List Red → Nat
  | _, [] => 0
  | prev, n :: rest => depthOf prev n.kind + depthLoop (some n.kind) rest

/-- `brace_nesting_depth(token)` (indent.rs L45-73): `token.parent_ancestors()` are the parents of the token. -/
def braceDepth (t : Red) : Nat := depthLoop none (Red.chain t.up)

end Verif.Features
