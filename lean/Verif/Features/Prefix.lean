import Verif.Grammar.Trail
import Verif.Features.TokenRow
/-!
# What stands in front of an offset

Specification vocabulary, not part of the code.
-/
namespace Verif.Features
open Verif Verif.Grammar

/-- The elements of a node that start in front of an offset: whether it is a node, and its kind. White space and comments do not count. -/
def faces (q : Red) (off : Nat) : List (Bool × Kind) :=
  (q.childrenT.filter (fun c => decide (c.start < off))).filterMap (fun c => c.green.face)

/-- The nodes around a token, the innermost first: their kinds, and their elements up to the token. -/
def surroundings (t : Red) : List (Kind × List (Bool × Kind)) := (Red.chain t.up).map (fun q => (q.kind, faces q t.stop))

end Verif.Features
