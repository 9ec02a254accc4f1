import Verif.EditSpec
import Verif.ContentChanges
/-!
# Specification of incremental synchronisation

`Replays t cs t'`: replaying the changes `cs` one after the other on `t`, each against the document the
previous ones produced, gives `t'`. A ranged change names a piece of the current document by its two
positions; a position must not point between the two characters of a CR LF pair.
-/
namespace Verif

/-- The boundary between `a` and `b` is not inside a CR LF line break. -/
def NotInCRLF (a b : Text) : Prop := ∀ a' b', ¬ (a = a' ++ ['\r'] ∧ b = '\n' :: b')

inductive Replays : Text → List Change → Text → Prop
  | done (t : Text) : Replays t [] t
  | full (t new t' : Text) (cs : List Change) (h : Replays new cs t') :
      Replays t (⟨none, new⟩ :: cs) t'
  | ranged (a old b new t' : Text) (cs : List Change)
      (h1 : NotInCRLF a (old ++ b)) (h2 : NotInCRLF (a ++ old) b)
      (h : Replays (a ++ new ++ b) cs t') :
      Replays (a ++ old ++ b) (⟨some ⟨posOf a, posOf (a ++ old)⟩, new⟩ :: cs) t'

end Verif
