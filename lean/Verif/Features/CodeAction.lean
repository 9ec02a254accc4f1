import Verif.Format.Walker
import Verif.Features.SelectDiagnostics
/-!
# Code actions for variables

Models `src/server/message_handler/code_action/variable/*.rs`. A code action is its title and the list of its edits; the kind and the copied
diagnostics are not modelled. `v` is a `Var` node.
-/
namespace Verif.Features
open Verif Verif.Grammar

/-- `Var::triple` (crates/sparql-parser/src/ast/mod.rs L722-724). -/
def tripleOfVar (v : Red) : Option Red := v.ancestors.find? (fun a => a.kind == K.TriplesSameSubjectPath)

/-- rowan's `next_sibling_or_token_by_kind`: the first later sibling of the kind. -/
def laterSibling (k : Kind) (r : Red) : Option Red := (Format.younger r).find? (fun s => s.kind == k)

/-- Where a filter for a triple is put: behind its dot or, without dot, behind the triple (filter_var.rs L15-23). -/
def filterOffset (t : Red) : Nat :=
  match laterSibling K.Dot t with
  | some d => d.stop
  | none => t.stop

/-- An edit that inserts text. -/
def insertAt (text : Text) (off : Nat) (new : Text) : Option TextEdit :=
  (fromByteIndex off text).map (fun p => ⟨⟨p, p⟩, new⟩)

/-- ` FILTER (?x)` (filter_var.rs L35). -/
def filterNew (v : Text) : Text := [' ', 'F', 'I', 'L', 'T', 'E', 'R', ' ', '('] ++ v ++ [')']

/-- ` FILTER (LANG(?x) = "en")` (filter_var_lang.rs L45). -/
def langNew (v : Text) : Text :=
  [' ', 'F', 'I', 'L', 'T', 'E', 'R', ' ', '(', 'L', 'A', 'N', 'G', '('] ++ v ++ [')', ' ', '=', ' ', '"', 'e', 'n', '"', ')']

/-- `filter_var::code_action` (filter_var.rs L14-40). -/
def filterVar (text : Text) (v : Red) : Option TextEdit :=
  match tripleOfVar v with
  | none => none
  | some t => insertAt text (filterOffset t) (filterNew v.text)

/-- `filter_var_lang::code_action` (filter_var_lang.rs L24-50). -/
def filterLang (text : Text) (v : Red) : Option TextEdit :=
  match tripleOfVar v with
  | none => none
  | some t => insertAt text (filterOffset t) (langNew v.text)

end Verif.Features
