import Verif.Features.Demo
import Verif.Props.ParserLang
/-!
# Trees of valid documents (examples only; generated by tools/gen_demo2.py)
-/
namespace Verif.Features
open Verif Verif.Grammar Verif.Lexer Verif.Props

/-- `SELECT * {[?p ?o] . [?p ?o]}` -/
def bnodeText : Text :=
  ['S', 'E', 'L', 'E', 'C', 'T', ' ', '*', ' ', '{', '[', '?', 'p', ' ', '?', 'o', ']', ' ', '.', ' ', '[', '?', 'p',
  ' ', '?', 'o', ']', '}']

/-- The tree of `SELECT * {[?p ?o] . [?p ?o]}`. -/
def bnodeTree : Green :=
  .node 184 [.node 185 [.node 187 [.node 198 [.tok 8 ['S', 'E', 'L', 'E', 'C', 'T'], .tok 2 [' '], .tok 14 ['*']],
  .tok 2 [' '], .node 200 [.node 212 [.tok 17 ['{'], .node 250 [.node 251 [.node 261 [.node 297 [.node 317 [.tok 74
  ['['], .node 296 [.node 300 [.node 203 [.tok 76 ['?', 'p']]], .tok 2 [' '], .node 301 [.node 303 [.node 304 [.node
  279 [.node 203 [.tok 76 ['?', 'o']]]]]]], .tok 75 [']']]]], .tok 2 [' '], .tok 56 ['.'], .tok 2 [' '], .node 251
  [.node 261 [.node 297 [.node 317 [.tok 74 ['['], .node 296 [.node 300 [.node 203 [.tok 76 ['?', 'p']]], .tok 2
  [' '], .node 301 [.node 303 [.node 304 [.node 279 [.node 203 [.tok 76 ['?', 'o']]]]]]], .tok 75 [']']]]]]]], .tok 18
  ['}']]]]]]

theorem bnodeTree_parse : parseSource (fun _ => 1) bnodeText = some (bnodeTree, []) := parse_of_code (by decide +kernel)

theorem bnode_derives : Derives sparqlRules (.node bnodeTree.kind) (kinds (lex (fun _ => 1) bnodeText)) :=
  (c42_accept_iff .query _ (by decide +kernel) (by decide +kernel)).mp
    ⟨_, (Option.some_get (x := parseTokens .query (kinds (lex (fun _ => 1) bnodeText))) (by decide +kernel)).symm, by
      have : ((parseTokens .query (kinds (lex (fun _ => 1) bnodeText))).get (by decide +kernel)).all
        (fun e => match e with | .error _ => false | _ => true) = true := by decide +kernel
      intro x hx
      have := List.all_eq_true.mp this _ hx
      simp at this, by decide +kernel⟩

/-- `SELECT * {?s ?p ?o . ?s ?q ?r .\n?x ?p ?o . ?s ?u ?v}` -/
def contractText : Text :=
  ['S', 'E', 'L', 'E', 'C', 'T', ' ', '*', ' ', '{', '?', 's', ' ', '?', 'p', ' ', '?', 'o', ' ', '.', ' ', '?', 's',
  ' ', '?', 'q', ' ', '?', 'r', ' ', '.', '\n', '?', 'x', ' ', '?', 'p', ' ', '?', 'o', ' ', '.', ' ', '?', 's', ' ',
  '?', 'u', ' ', '?', 'v', '}']

/-- The tree of `SELECT * {?s ?p ?o . ?s ?q ?r .\n?x ?p ?o . ?s ?u ?v}`. -/
def contractTree : Green :=
  .node 184 [.node 185 [.node 187 [.node 198 [.tok 8 ['S', 'E', 'L', 'E', 'C', 'T'], .tok 2 [' '], .tok 14 ['*']],
  .tok 2 [' '], .node 200 [.node 212 [.tok 17 ['{'], .node 250 [.node 251 [.node 261 [.node 279 [.node 203 [.tok 76
  ['?', 's']]], .tok 2 [' '], .node 296 [.node 300 [.node 203 [.tok 76 ['?', 'p']]], .tok 2 [' '], .node 301 [.node
  303 [.node 304 [.node 279 [.node 203 [.tok 76 ['?', 'o']]]]]]]], .tok 2 [' '], .tok 56 ['.'], .tok 2 [' '], .node
  251 [.node 261 [.node 279 [.node 203 [.tok 76 ['?', 's']]], .tok 2 [' '], .node 296 [.node 300 [.node 203 [.tok 76
  ['?', 'q']]], .tok 2 [' '], .node 301 [.node 303 [.node 304 [.node 279 [.node 203 [.tok 76 ['?', 'r']]]]]]]], .tok 2
  [' '], .tok 56 ['.'], .tok 2 ['\n'], .node 251 [.node 261 [.node 279 [.node 203 [.tok 76 ['?', 'x']]], .tok 2 [' '],
  .node 296 [.node 300 [.node 203 [.tok 76 ['?', 'p']]], .tok 2 [' '], .node 301 [.node 303 [.node 304 [.node 279
  [.node 203 [.tok 76 ['?', 'o']]]]]]]], .tok 2 [' '], .tok 56 ['.'], .tok 2 [' '], .node 251 [.node 261 [.node 279
  [.node 203 [.tok 76 ['?', 's']]], .tok 2 [' '], .node 296 [.node 300 [.node 203 [.tok 76 ['?', 'u']]], .tok 2 [' '],
  .node 301 [.node 303 [.node 304 [.node 279 [.node 203 [.tok 76 ['?', 'v']]]]]]]]]]]]], .tok 18 ['}']]]]]]

theorem contractTree_parse : parseSource (fun _ => 1) contractText = some (contractTree, []) := parse_of_code (by decide +kernel)

theorem contract_derives : Derives sparqlRules (.node contractTree.kind) (kinds (lex (fun _ => 1) contractText)) :=
  (c42_accept_iff .query _ (by decide +kernel) (by decide +kernel)).mp
    ⟨_, (Option.some_get (x := parseTokens .query (kinds (lex (fun _ => 1) contractText))) (by decide +kernel)).symm, by
      have : ((parseTokens .query (kinds (lex (fun _ => 1) contractText))).get (by decide +kernel)).all
        (fun e => match e with | .error _ => false | _ => true) = true := by decide +kernel
      intro x hx
      have := List.all_eq_true.mp this _ hx
      simp at this, by decide +kernel⟩

/-- `SELECT * {?s ?p ?o . ?s ?q ?r#c\n. ?x ?y ?z}` -/
def remarkText : Text :=
  ['S', 'E', 'L', 'E', 'C', 'T', ' ', '*', ' ', '{', '?', 's', ' ', '?', 'p', ' ', '?', 'o', ' ', '.', ' ', '?', 's',
  ' ', '?', 'q', ' ', '?', 'r', '#', 'c', '\n', '.', ' ', '?', 'x', ' ', '?', 'y', ' ', '?', 'z', '}']

/-- The tree of `SELECT * {?s ?p ?o . ?s ?q ?r#c\n. ?x ?y ?z}`. -/
def remarkTree : Green :=
  .node 184 [.node 185 [.node 187 [.node 198 [.tok 8 ['S', 'E', 'L', 'E', 'C', 'T'], .tok 2 [' '], .tok 14 ['*']],
  .tok 2 [' '], .node 200 [.node 212 [.tok 17 ['{'], .node 250 [.node 251 [.node 261 [.node 279 [.node 203 [.tok 76
  ['?', 's']]], .tok 2 [' '], .node 296 [.node 300 [.node 203 [.tok 76 ['?', 'p']]], .tok 2 [' '], .node 301 [.node
  303 [.node 304 [.node 279 [.node 203 [.tok 76 ['?', 'o']]]]]]]], .tok 2 [' '], .tok 56 ['.'], .tok 2 [' '], .node
  251 [.node 261 [.node 279 [.node 203 [.tok 76 ['?', 's']]], .tok 2 [' '], .node 296 [.node 300 [.node 203 [.tok 76
  ['?', 'q']]], .tok 2 [' '], .node 301 [.node 303 [.node 304 [.node 279 [.node 203 [.tok 76 ['?', 'r']]]]]]]], .tok 3
  ['#', 'c'], .tok 2 ['\n'], .tok 56 ['.'], .tok 2 [' '], .node 251 [.node 261 [.node 279 [.node 203 [.tok 76 ['?',
  'x']]], .tok 2 [' '], .node 296 [.node 300 [.node 203 [.tok 76 ['?', 'y']]], .tok 2 [' '], .node 301 [.node 303
  [.node 304 [.node 279 [.node 203 [.tok 76 ['?', 'z']]]]]]]]]]]], .tok 18 ['}']]]]]]

theorem remarkTree_parse : parseSource (fun _ => 1) remarkText = some (remarkTree, []) := parse_of_code (by decide +kernel)

theorem remark_derives : Derives sparqlRules (.node remarkTree.kind) (kinds (lex (fun _ => 1) remarkText)) :=
  (c42_accept_iff .query _ (by decide +kernel) (by decide +kernel)).mp
    ⟨_, (Option.some_get (x := parseTokens .query (kinds (lex (fun _ => 1) remarkText))) (by decide +kernel)).symm, by
      have : ((parseTokens .query (kinds (lex (fun _ => 1) remarkText))).get (by decide +kernel)).all
        (fun e => match e with | .error _ => false | _ => true) = true := by decide +kernel
      intro x hx
      have := List.all_eq_true.mp this _ hx
      simp at this, by decide +kernel⟩

end Verif.Features
