import Verif.Grammar.Complete
import Verif.Grammar.LLData
import Verif.Grammar.Table
import Verif.Grammar.Rules
/-!
# The SPARQL parser functions implement the SPARQL rules (checked by the kernel)
-/
namespace Verif.Grammar

theorem sparql_ll_all : sparqlRulesTree.toList.all (fun p => match sparql p.1 with
    | none => false
    | some f => llFn sparqlLL sparql p.1 f p.2) = true := by decide +kernel

theorem sparql_ll : LLOk sparqlLL sparql sparqlRules := by
  constructor
  intro k r h
  have := (List.all_eq_true.mp sparql_ll_all) (k, r) (sparqlRulesTree.find_mem k r h)
  cases hf : sparql k with
  | none => simp [hf] at this
  | some f => exact ⟨f, rfl, by simpa [hf] using this⟩

end Verif.Grammar
