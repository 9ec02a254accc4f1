import Verif.Grammar.Table
import Verif.Grammar.CertData
/-!
# Checked certificates for the SPARQL parser functions
-/
namespace Verif.Grammar

theorem sparql_fnOk_all :
    sparqlTree.toList.all (fun p => fnOk sparql sparqlCert rankBound 80 p.1 p.2) = true := by decide +kernel

theorem sparql_wf_all : sparqlTree.toList.all (fun p => wfStmt sparql p.2.body) = true := by decide +kernel

theorem sparql_fnOk (k : Kind) (f : FnDef) (h : sparql k = some f) :
    fnOk sparql sparqlCert rankBound 80 k f = true :=
  (List.all_eq_true.mp sparql_fnOk_all) (k, f) (sparqlTree.find_mem k f h)

theorem sparql_wf (k : Kind) (f : FnDef) (h : sparql k = some f) : wfStmt sparql f.body = true :=
  (List.all_eq_true.mp sparql_wf_all) (k, f) (sparqlTree.find_mem k f h)

end Verif.Grammar
