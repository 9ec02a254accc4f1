import Verif.Features.Demo
import Verif.Props.ParserLang
/-!
# Trees of valid documents (examples only; generated by tools/gen_demo2.py)
-/
namespace Verif.Features
open Verif Verif.Grammar Verif.Lexer Verif.Props

/-- `PREFIX s: <e/>\nSELECT * {<e/a> s:b <f>, <e/a>} VALUES ?x {<e/c>}` -/
def shortOtherText : Text :=
  ['P', 'R', 'E', 'F', 'I', 'X', ' ', 's', ':', ' ', '<', 'e', '/', '>', '\n', 'S', 'E', 'L', 'E', 'C', 'T', ' ', '*',
  ' ', '{', '<', 'e', '/', 'a', '>', ' ', 's', ':', 'b', ' ', '<', 'f', '>', ',', ' ', '<', 'e', '/', 'a', '>', '}',
  ' ', 'V', 'A', 'L', 'U', 'E', 'S', ' ', '?', 'x', ' ', '{', '<', 'e', '/', 'c', '>', '}']

/-- The tree of `PREFIX s: <e/>\nSELECT * {<e/a> s:b <f>, <e/a>} VALUES ?x {<e/c>}`. -/
def shortOtherTree : Green :=
  .node 184 [.node 185 [.node 186 [.node 195 [.tok 6 ['P', 'R', 'E', 'F', 'I', 'X'], .tok 2 [' '], .tok 7 ['s', ':'],
  .tok 2 [' '], .tok 5 ['<', 'e', '/', '>']]], .tok 2 ['\n'], .node 187 [.node 198 [.tok 8 ['S', 'E', 'L', 'E', 'C',
  'T'], .tok 2 [' '], .tok 14 ['*']], .tok 2 [' '], .node 200 [.node 212 [.tok 17 ['{'], .node 250 [.node 251 [.node
  261 [.node 279 [.node 211 [.tok 5 ['<', 'e', '/', 'a', '>']]], .tok 2 [' '], .node 296 [.node 299 [.node 302 [.node
  305 [.node 306 [.node 307 [.node 308 [.node 309 [.node 211 [.node 343 [.tok 181 ['s', ':', 'b']]]]]]]]]], .tok 2
  [' '], .node 301 [.node 303 [.node 304 [.node 279 [.node 211 [.tok 5 ['<', 'f', '>']]]]], .tok 66 [','], .tok 2
  [' '], .node 303 [.node 304 [.node 279 [.node 211 [.tok 5 ['<', 'e', '/', 'a', '>']]]]]]]]]], .tok 18 ['}']]]], .tok
  2 [' '], .node 191 [.tok 33 ['V', 'A', 'L', 'U', 'E', 'S'], .tok 2 [' '], .node 226 [.node 270 [.node 203 [.tok 76
  ['?', 'x']], .tok 2 [' '], .tok 17 ['{'], .node 272 [.node 211 [.tok 5 ['<', 'e', '/', 'c', '>']]], .tok 18
  ['}']]]]]]

theorem shortOtherTree_parse : parseSource (fun _ => 1) shortOtherText = some (shortOtherTree, []) := parse_of_code (by decide +kernel)

theorem shortOther_derives : Derives sparqlRules (.node shortOtherTree.kind) (kinds (lex (fun _ => 1) shortOtherText)) :=
  (c42_accept_iff .query _ (by decide +kernel) (by decide +kernel)).mp
    ⟨_, (Option.some_get (x := parseTokens .query (kinds (lex (fun _ => 1) shortOtherText))) (by decide +kernel)).symm, by
      have : ((parseTokens .query (kinds (lex (fun _ => 1) shortOtherText))).get (by decide +kernel)).all
        (fun e => match e with | .error _ => false | _ => true) = true := by decide +kernel
      intro x hx
      have := List.all_eq_true.mp this _ hx
      simp at this, by decide +kernel⟩

/-- `SELECT * {<e/a> ?p <f>, <e/a>} VALUES ?x {<e/c>}` -/
def shortNewText : Text :=
  ['S', 'E', 'L', 'E', 'C', 'T', ' ', '*', ' ', '{', '<', 'e', '/', 'a', '>', ' ', '?', 'p', ' ', '<', 'f', '>', ',',
  ' ', '<', 'e', '/', 'a', '>', '}', ' ', 'V', 'A', 'L', 'U', 'E', 'S', ' ', '?', 'x', ' ', '{', '<', 'e', '/', 'c',
  '>', '}']

/-- The tree of `SELECT * {<e/a> ?p <f>, <e/a>} VALUES ?x {<e/c>}`. -/
def shortNewTree : Green :=
  .node 184 [.node 185 [.node 187 [.node 198 [.tok 8 ['S', 'E', 'L', 'E', 'C', 'T'], .tok 2 [' '], .tok 14 ['*']],
  .tok 2 [' '], .node 200 [.node 212 [.tok 17 ['{'], .node 250 [.node 251 [.node 261 [.node 279 [.node 211 [.tok 5
  ['<', 'e', '/', 'a', '>']]], .tok 2 [' '], .node 296 [.node 300 [.node 203 [.tok 76 ['?', 'p']]], .tok 2 [' '],
  .node 301 [.node 303 [.node 304 [.node 279 [.node 211 [.tok 5 ['<', 'f', '>']]]]], .tok 66 [','], .tok 2 [' '],
  .node 303 [.node 304 [.node 279 [.node 211 [.tok 5 ['<', 'e', '/', 'a', '>']]]]]]]]]], .tok 18 ['}']]]], .tok 2
  [' '], .node 191 [.tok 33 ['V', 'A', 'L', 'U', 'E', 'S'], .tok 2 [' '], .node 226 [.node 270 [.node 203 [.tok 76
  ['?', 'x']], .tok 2 [' '], .tok 17 ['{'], .node 272 [.node 211 [.tok 5 ['<', 'e', '/', 'c', '>']]], .tok 18
  ['}']]]]]]

theorem shortNewTree_parse : parseSource (fun _ => 1) shortNewText = some (shortNewTree, []) := parse_of_code (by decide +kernel)

theorem shortNew_derives : Derives sparqlRules (.node shortNewTree.kind) (kinds (lex (fun _ => 1) shortNewText)) :=
  (c42_accept_iff .query _ (by decide +kernel) (by decide +kernel)).mp
    ⟨_, (Option.some_get (x := parseTokens .query (kinds (lex (fun _ => 1) shortNewText))) (by decide +kernel)).symm, by
      have : ((parseTokens .query (kinds (lex (fun _ => 1) shortNewText))).get (by decide +kernel)).all
        (fun e => match e with | .error _ => false | _ => true) = true := by decide +kernel
      intro x hx
      have := List.all_eq_true.mp this _ hx
      simp at this, by decide +kernel⟩

end Verif.Features
