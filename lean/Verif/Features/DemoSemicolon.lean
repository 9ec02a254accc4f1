import Verif.Features.Demo
import Verif.Props.ParserLang
/-!
# Trees of valid documents (examples only; generated by tools/gen_demo2.py)
-/
namespace Verif.Features
open Verif Verif.Grammar Verif.Lexer Verif.Props

/-- `SELECT * {?s ?p ?o . ` -/
def semiCutText : Text :=
  ['S', 'E', 'L', 'E', 'C', 'T', ' ', '*', ' ', '{', '?', 's', ' ', '?', 'p', ' ', '?', 'o', ' ', '.', ' ']

/-- The tree of `SELECT * {?s ?p ?o . `. -/
def semiCutTree : Green :=
  .node 184 [.node 185 [.node 187 [.node 198 [.tok 8 ['S', 'E', 'L', 'E', 'C', 'T'], .tok 2 [' '], .tok 14 ['*']],
  .tok 2 [' '], .node 200 [.node 212 [.tok 17 ['{'], .node 250 [.node 251 [.node 261 [.node 279 [.node 203 [.tok 76
  ['?', 's']]], .tok 2 [' '], .node 296 [.node 300 [.node 203 [.tok 76 ['?', 'p']]], .tok 2 [' '], .node 301 [.node
  303 [.node 304 [.node 279 [.node 203 [.tok 76 ['?', 'o']]]]]]]], .tok 2 [' '], .tok 56 ['.']]]]]]], .tok 2 [' ']]

theorem semiCutTree_parse : parseSource (fun _ => 1) semiCutText = some (semiCutTree, [{ start := 20, stop := 20, expected := [18] }]) := parse_of_code (by decide +kernel)

/-- `SELECT * {?s ?p ?o . ?s ?q ?r}` -/
def semiFullText : Text :=
  ['S', 'E', 'L', 'E', 'C', 'T', ' ', '*', ' ', '{', '?', 's', ' ', '?', 'p', ' ', '?', 'o', ' ', '.', ' ', '?', 's',
  ' ', '?', 'q', ' ', '?', 'r', '}']

/-- The tree of `SELECT * {?s ?p ?o . ?s ?q ?r}`. -/
def semiFullTree : Green :=
  .node 184 [.node 185 [.node 187 [.node 198 [.tok 8 ['S', 'E', 'L', 'E', 'C', 'T'], .tok 2 [' '], .tok 14 ['*']],
  .tok 2 [' '], .node 200 [.node 212 [.tok 17 ['{'], .node 250 [.node 251 [.node 261 [.node 279 [.node 203 [.tok 76
  ['?', 's']]], .tok 2 [' '], .node 296 [.node 300 [.node 203 [.tok 76 ['?', 'p']]], .tok 2 [' '], .node 301 [.node
  303 [.node 304 [.node 279 [.node 203 [.tok 76 ['?', 'o']]]]]]]], .tok 2 [' '], .tok 56 ['.'], .tok 2 [' '], .node
  251 [.node 261 [.node 279 [.node 203 [.tok 76 ['?', 's']]], .tok 2 [' '], .node 296 [.node 300 [.node 203 [.tok 76
  ['?', 'q']]], .tok 2 [' '], .node 301 [.node 303 [.node 304 [.node 279 [.node 203 [.tok 76 ['?', 'r']]]]]]]]]]],
  .tok 18 ['}']]]]]]

theorem semiFullTree_parse : parseSource (fun _ => 1) semiFullText = some (semiFullTree, []) := parse_of_code (by decide +kernel)

theorem semiFull_derives : Derives sparqlRules (.node semiFullTree.kind) (kinds (lex (fun _ => 1) semiFullText)) :=
  (c42_accept_iff .query _ (by decide +kernel) (by decide +kernel)).mp
    ⟨_, (Option.some_get (x := parseTokens .query (kinds (lex (fun _ => 1) semiFullText))) (by decide +kernel)).symm, by
      have : ((parseTokens .query (kinds (lex (fun _ => 1) semiFullText))).get (by decide +kernel)).all
        (fun e => match e with | .error _ => false | _ => true) = true := by decide +kernel
      intro x hx
      have := List.all_eq_true.mp this _ hx
      simp at this, by decide +kernel⟩

/-- `SELECT * {?s ?p ?o ;\n              ?q ?r}` -/
def semiDoneText : Text :=
  ['S', 'E', 'L', 'E', 'C', 'T', ' ', '*', ' ', '{', '?', 's', ' ', '?', 'p', ' ', '?', 'o', ' ', ';', '\n', ' ', ' ',
  ' ', ' ', ' ', ' ', ' ', ' ', ' ', ' ', ' ', ' ', ' ', ' ', '?', 'q', ' ', '?', 'r', '}']

/-- The tree of `SELECT * {?s ?p ?o ;\n              ?q ?r}`. -/
def semiDoneTree : Green :=
  .node 184 [.node 185 [.node 187 [.node 198 [.tok 8 ['S', 'E', 'L', 'E', 'C', 'T'], .tok 2 [' '], .tok 14 ['*']],
  .tok 2 [' '], .node 200 [.node 212 [.tok 17 ['{'], .node 250 [.node 251 [.node 261 [.node 279 [.node 203 [.tok 76
  ['?', 's']]], .tok 2 [' '], .node 296 [.node 300 [.node 203 [.tok 76 ['?', 'p']]], .tok 2 [' '], .node 301 [.node
  303 [.node 304 [.node 279 [.node 203 [.tok 76 ['?', 'o']]]]]], .tok 2 [' '], .tok 34 [';'], .tok 2 ['\n', ' ', ' ',
  ' ', ' ', ' ', ' ', ' ', ' ', ' ', ' ', ' ', ' ', ' ', ' '], .node 300 [.node 203 [.tok 76 ['?', 'q']]], .tok 2
  [' '], .node 301 [.node 303 [.node 304 [.node 279 [.node 203 [.tok 76 ['?', 'r']]]]]]]]]], .tok 18 ['}']]]]]]

theorem semiDoneTree_parse : parseSource (fun _ => 1) semiDoneText = some (semiDoneTree, []) := parse_of_code (by decide +kernel)

theorem semiDone_derives : Derives sparqlRules (.node semiDoneTree.kind) (kinds (lex (fun _ => 1) semiDoneText)) :=
  (c42_accept_iff .query _ (by decide +kernel) (by decide +kernel)).mp
    ⟨_, (Option.some_get (x := parseTokens .query (kinds (lex (fun _ => 1) semiDoneText))) (by decide +kernel)).symm, by
      have : ((parseTokens .query (kinds (lex (fun _ => 1) semiDoneText))).get (by decide +kernel)).all
        (fun e => match e with | .error _ => false | _ => true) = true := by decide +kernel
      intro x hx
      have := List.all_eq_true.mp this _ hx
      simp at this, by decide +kernel⟩

end Verif.Features
