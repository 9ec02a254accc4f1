import Verif.Features.Demo
import Verif.Props.ParserLang
/-!
# Trees of valid documents (examples only; generated by tools/gen_demo2.py)
-/
namespace Verif.Features
open Verif Verif.Grammar Verif.Lexer Verif.Props

/-- `SELECT * {?s ?p ?o.OPTIONAL{$o ?q 1 .?x ?y (2)}}` -/
def roomText : Text :=
  ['S', 'E', 'L', 'E', 'C', 'T', ' ', '*', ' ', '{', '?', 's', ' ', '?', 'p', ' ', '?', 'o', '.', 'O', 'P', 'T', 'I',
  'O', 'N', 'A', 'L', '{', '$', 'o', ' ', '?', 'q', ' ', '1', ' ', '.', '?', 'x', ' ', '?', 'y', ' ', '(', '2', ')',
  '}', '}']

/-- The tree of `SELECT * {?s ?p ?o.OPTIONAL{$o ?q 1 .?x ?y (2)}}`. -/
def roomTree : Green :=
  .node 184 [.node 185 [.node 187 [.node 198 [.tok 8 ['S', 'E', 'L', 'E', 'C', 'T'], .tok 2 [' '], .tok 14 ['*']],
  .tok 2 [' '], .node 200 [.node 212 [.tok 17 ['{'], .node 250 [.node 251 [.node 261 [.node 279 [.node 203 [.tok 76
  ['?', 's']]], .tok 2 [' '], .node 296 [.node 300 [.node 203 [.tok 76 ['?', 'p']]], .tok 2 [' '], .node 301 [.node
  303 [.node 304 [.node 279 [.node 203 [.tok 76 ['?', 'o']]]]]]]], .tok 56 ['.']], .node 260 [.node 263 [.tok 58 ['O',
  'P', 'T', 'I', 'O', 'N', 'A', 'L'], .node 212 [.tok 17 ['{'], .node 250 [.node 251 [.node 261 [.node 279 [.node 203
  [.tok 77 ['$', 'o']]], .tok 2 [' '], .node 296 [.node 300 [.node 203 [.tok 76 ['?', 'q']]], .tok 2 [' '], .node 301
  [.node 303 [.node 304 [.node 279 [.node 274 [.node 342 [.tok 166 ['1']]]]]]]]], .tok 2 [' '], .tok 56 ['.'], .node
  251 [.node 261 [.node 279 [.node 203 [.tok 76 ['?', 'x']]], .tok 2 [' '], .node 296 [.node 300 [.node 203 [.tok 76
  ['?', 'y']]], .tok 2 [' '], .node 301 [.node 303 [.node 304 [.node 297 [.node 316 [.tok 11 ['('], .node 304 [.node
  279 [.node 274 [.node 342 [.tok 166 ['2']]]]], .tok 13 [')']]]]]]]]]]], .tok 18 ['}']]]]], .tok 18 ['}']]]]]]

theorem roomTree_parse : parseSource (fun _ => 1) roomText = some (roomTree, []) := parse_of_code (by decide +kernel)

theorem room_derives : Derives sparqlRules (.node roomTree.kind) (kinds (lex (fun _ => 1) roomText)) :=
  (c42_accept_iff .query _ (by decide +kernel) (by decide +kernel)).mp
    ⟨_, (Option.some_get (x := parseTokens .query (kinds (lex (fun _ => 1) roomText))) (by decide +kernel)).symm, by
      have : ((parseTokens .query (kinds (lex (fun _ => 1) roomText))).get (by decide +kernel)).all
        (fun e => match e with | .error _ => false | _ => true) = true := by decide +kernel
      intro x hx
      have := List.all_eq_true.mp this _ hx
      simp at this, by decide +kernel⟩

/-- `SELECT ?a (COUNT(?o) AS ?n) {?a ?p ?o {SELECT *WHERE{?x ?q $z}}} GROUP BY ?a ?p` -/
def projText : Text :=
  ['S', 'E', 'L', 'E', 'C', 'T', ' ', '?', 'a', ' ', '(', 'C', 'O', 'U', 'N', 'T', '(', '?', 'o', ')', ' ', 'A', 'S',
  ' ', '?', 'n', ')', ' ', '{', '?', 'a', ' ', '?', 'p', ' ', '?', 'o', ' ', '{', 'S', 'E', 'L', 'E', 'C', 'T', ' ',
  '*', 'W', 'H', 'E', 'R', 'E', '{', '?', 'x', ' ', '?', 'q', ' ', '$', 'z', '}', '}', '}', ' ', 'G', 'R', 'O', 'U',
  'P', ' ', 'B', 'Y', ' ', '?', 'a', ' ', '?', 'p']

/-- The tree of `SELECT ?a (COUNT(?o) AS ?n) {?a ?p ?o {SELECT *WHERE{?x ?q $z}}} GROUP BY ?a ?p`. -/
def projTree : Green :=
  .node 184 [.node 185 [.node 187 [.node 198 [.tok 8 ['S', 'E', 'L', 'E', 'C', 'T'], .tok 2 [' '], .node 203 [.tok 76
  ['?', 'a']], .tok 2 [' '], .tok 11 ['('], .node 204 [.node 320 [.node 321 [.node 322 [.node 323 [.node 324 [.node
  325 [.node 326 [.node 329 [.node 330 [.node 218 [.node 335 [.tok 147 ['C', 'O', 'U', 'N', 'T'], .tok 11 ['('], .node
  204 [.node 320 [.node 321 [.node 322 [.node 323 [.node 324 [.node 325 [.node 326 [.node 329 [.node 330 [.node 203
  [.tok 76 ['?', 'o']]]]]]]]]]]], .tok 13 [')']]]]]]]]]]]]], .tok 2 [' '], .tok 12 ['A', 'S'], .tok 2 [' '], .node 203
  [.tok 76 ['?', 'n']], .tok 13 [')']], .tok 2 [' '], .node 200 [.node 212 [.tok 17 ['{'], .node 250 [.node 251 [.node
  261 [.node 279 [.node 203 [.tok 76 ['?', 'a']]], .tok 2 [' '], .node 296 [.node 300 [.node 203 [.tok 76 ['?',
  'p']]], .tok 2 [' '], .node 301 [.node 303 [.node 304 [.node 279 [.node 203 [.tok 76 ['?', 'o']]]]]]]]], .tok 2
  [' '], .node 260 [.node 262 [.node 212 [.tok 17 ['{'], .node 202 [.node 198 [.tok 8 ['S', 'E', 'L', 'E', 'C', 'T'],
  .tok 2 [' '], .tok 14 ['*']], .node 200 [.tok 16 ['W', 'H', 'E', 'R', 'E'], .node 212 [.tok 17 ['{'], .node 250
  [.node 251 [.node 261 [.node 279 [.node 203 [.tok 76 ['?', 'x']]], .tok 2 [' '], .node 296 [.node 300 [.node 203
  [.tok 76 ['?', 'q']]], .tok 2 [' '], .node 301 [.node 303 [.node 304 [.node 279 [.node 203 [.tok 77 ['$',
  'z']]]]]]]]]], .tok 18 ['}']]]], .tok 18 ['}']]]]], .tok 18 ['}']]], .tok 2 [' '], .node 201 [.node 213 [.tok 25
  ['G', 'R', 'O', 'U', 'P'], .tok 2 [' '], .tok 26 ['B', 'Y'], .tok 2 [' '], .node 217 [.node 203 [.tok 76 ['?',
  'a']]], .tok 2 [' '], .node 217 [.node 203 [.tok 76 ['?', 'p']]]]]]]]

theorem projTree_parse : parseSource (fun _ => 1) projText = some (projTree, []) := parse_of_code (by decide +kernel)

theorem proj_derives : Derives sparqlRules (.node projTree.kind) (kinds (lex (fun _ => 1) projText)) :=
  (c42_accept_iff .query _ (by decide +kernel) (by decide +kernel)).mp
    ⟨_, (Option.some_get (x := parseTokens .query (kinds (lex (fun _ => 1) projText))) (by decide +kernel)).symm, by
      have : ((parseTokens .query (kinds (lex (fun _ => 1) projText))).get (by decide +kernel)).all
        (fun e => match e with | .error _ => false | _ => true) = true := by decide +kernel
      intro x hx
      have := List.all_eq_true.mp this _ hx
      simp at this, by decide +kernel⟩

/-- `SELECT ?a (1 AS ?n) {\n?a ?p ?o\n} LIMIT 5` -/
def wrapText : Text :=
  ['S', 'E', 'L', 'E', 'C', 'T', ' ', '?', 'a', ' ', '(', '1', ' ', 'A', 'S', ' ', '?', 'n', ')', ' ', '{', '\n', '?',
  'a', ' ', '?', 'p', ' ', '?', 'o', '\n', '}', ' ', 'L', 'I', 'M', 'I', 'T', ' ', '5']

/-- The tree of `SELECT ?a (1 AS ?n) {\n?a ?p ?o\n} LIMIT 5`. -/
def wrapTree : Green :=
  .node 184 [.node 185 [.node 187 [.node 198 [.tok 8 ['S', 'E', 'L', 'E', 'C', 'T'], .tok 2 [' '], .node 203 [.tok 76
  ['?', 'a']], .tok 2 [' '], .tok 11 ['('], .node 204 [.node 320 [.node 321 [.node 322 [.node 323 [.node 324 [.node
  325 [.node 326 [.node 329 [.node 330 [.node 274 [.node 342 [.tok 166 ['1']]]]]]]]]]]]], .tok 2 [' '], .tok 12 ['A',
  'S'], .tok 2 [' '], .node 203 [.tok 76 ['?', 'n']], .tok 13 [')']], .tok 2 [' '], .node 200 [.node 212 [.tok 17
  ['{'], .tok 2 ['\n'], .node 250 [.node 251 [.node 261 [.node 279 [.node 203 [.tok 76 ['?', 'a']]], .tok 2 [' '],
  .node 296 [.node 300 [.node 203 [.tok 76 ['?', 'p']]], .tok 2 [' '], .node 301 [.node 303 [.node 304 [.node 279
  [.node 203 [.tok 76 ['?', 'o']]]]]]]]]], .tok 2 ['\n'], .tok 18 ['}']]], .tok 2 [' '], .node 201 [.node 216 [.node
  224 [.tok 31 ['L', 'I', 'M', 'I', 'T'], .tok 2 [' '], .tok 166 ['5']]]]]]]

theorem wrapTree_parse : parseSource (fun _ => 1) wrapText = some (wrapTree, []) := parse_of_code (by decide +kernel)

theorem wrap_derives : Derives sparqlRules (.node wrapTree.kind) (kinds (lex (fun _ => 1) wrapText)) :=
  (c42_accept_iff .query _ (by decide +kernel) (by decide +kernel)).mp
    ⟨_, (Option.some_get (x := parseTokens .query (kinds (lex (fun _ => 1) wrapText))) (by decide +kernel)).symm, by
      have : ((parseTokens .query (kinds (lex (fun _ => 1) wrapText))).get (by decide +kernel)).all
        (fun e => match e with | .error _ => false | _ => true) = true := by decide +kernel
      intro x hx
      have := List.all_eq_true.mp this _ hx
      simp at this, by decide +kernel⟩

/-- `SELECT * FROM <g> {?s ?p ?o}` -/
def fromText : Text :=
  ['S', 'E', 'L', 'E', 'C', 'T', ' ', '*', ' ', 'F', 'R', 'O', 'M', ' ', '<', 'g', '>', ' ', '{', '?', 's', ' ', '?',
  'p', ' ', '?', 'o', '}']

/-- The tree of `SELECT * FROM <g> {?s ?p ?o}`. -/
def fromTree : Green :=
  .node 184 [.node 185 [.node 187 [.node 198 [.tok 8 ['S', 'E', 'L', 'E', 'C', 'T'], .tok 2 [' '], .tok 14 ['*']],
  .tok 2 [' '], .node 199 [.tok 23 ['F', 'R', 'O', 'M'], .tok 2 [' '], .node 208 [.node 210 [.node 211 [.tok 5 ['<',
  'g', '>']]]]], .tok 2 [' '], .node 200 [.node 212 [.tok 17 ['{'], .node 250 [.node 251 [.node 261 [.node 279 [.node
  203 [.tok 76 ['?', 's']]], .tok 2 [' '], .node 296 [.node 300 [.node 203 [.tok 76 ['?', 'p']]], .tok 2 [' '], .node
  301 [.node 303 [.node 304 [.node 279 [.node 203 [.tok 76 ['?', 'o']]]]]]]]]], .tok 18 ['}']]]]]]

theorem fromTree_parse : parseSource (fun _ => 1) fromText = some (fromTree, []) := parse_of_code (by decide +kernel)

theorem from_derives : Derives sparqlRules (.node fromTree.kind) (kinds (lex (fun _ => 1) fromText)) :=
  (c42_accept_iff .query _ (by decide +kernel) (by decide +kernel)).mp
    ⟨_, (Option.some_get (x := parseTokens .query (kinds (lex (fun _ => 1) fromText))) (by decide +kernel)).symm, by
      have : ((parseTokens .query (kinds (lex (fun _ => 1) fromText))).get (by decide +kernel)).all
        (fun e => match e with | .error _ => false | _ => true) = true := by decide +kernel
      intro x hx
      have := List.all_eq_true.mp this _ hx
      simp at this, by decide +kernel⟩

/-- `SELECT * WHERE {\n  {\n    SELECT * FROM <g> {?s ?p ?o}\n  }\n}` -/
def fromBadText : Text :=
  ['S', 'E', 'L', 'E', 'C', 'T', ' ', '*', ' ', 'W', 'H', 'E', 'R', 'E', ' ', '{', '\n', ' ', ' ', '{', '\n', ' ',
  ' ', ' ', ' ', 'S', 'E', 'L', 'E', 'C', 'T', ' ', '*', ' ', 'F', 'R', 'O', 'M', ' ', '<', 'g', '>', ' ', '{', '?',
  's', ' ', '?', 'p', ' ', '?', 'o', '}', '\n', ' ', ' ', '}', '\n', '}']

/-- The tree of `SELECT * WHERE {\n  {\n    SELECT * FROM <g> {?s ?p ?o}\n  }\n}`. -/
def fromBadTree : Green :=
  .node 184 [.node 185 [.node 187 [.node 198 [.tok 8 ['S', 'E', 'L', 'E', 'C', 'T'], .tok 2 [' '], .tok 14 ['*']],
  .tok 2 [' '], .node 200 [.tok 16 ['W', 'H', 'E', 'R', 'E'], .tok 2 [' '], .node 212 [.tok 17 ['{'], .tok 2 ['\n',
  ' ', ' '], .node 250 [.node 260 [.node 262 [.node 212 [.tok 17 ['{'], .tok 2 ['\n', ' ', ' ', ' ', ' '], .node 202
  [.node 198 [.tok 8 ['S', 'E', 'L', 'E', 'C', 'T'], .tok 2 [' '], .tok 14 ['*']], .tok 2 [' '], .node 200 [.node 212
  [.node 1 [.tok 23 ['F', 'R', 'O', 'M'], .tok 2 [' '], .tok 5 ['<', 'g', '>'], .tok 2 [' '], .tok 17 ['{'], .tok 76
  ['?', 's'], .tok 2 [' '], .tok 76 ['?', 'p'], .tok 2 [' '], .tok 76 ['?', 'o']], .tok 18 ['}']]]], .tok 2 ['\n',
  ' ', ' '], .tok 18 ['}']]]]], .tok 2 ['\n'], .tok 18 ['}']]]]]]

theorem fromBadTree_parse : parseSource (fun _ => 1) fromBadText = some (fromBadTree, [{ start := 34, stop := 38, expected := [17] }, { start := 34, stop := 38, expected := [18] }]) := parse_of_code (by decide +kernel)

/-- `SELECT * {?s ?p """a\nb"""}` -/
def longText : Text :=
  ['S', 'E', 'L', 'E', 'C', 'T', ' ', '*', ' ', '{', '?', 's', ' ', '?', 'p', ' ', '\"', '\"', '\"', 'a', '\n', 'b',
  '\"', '\"', '\"', '}']

/-- The tree of `SELECT * {?s ?p """a\nb"""}`. -/
def longTree : Green :=
  .node 184 [.node 185 [.node 187 [.node 198 [.tok 8 ['S', 'E', 'L', 'E', 'C', 'T'], .tok 2 [' '], .tok 14 ['*']],
  .tok 2 [' '], .node 200 [.node 212 [.tok 17 ['{'], .node 250 [.node 251 [.node 261 [.node 279 [.node 203 [.tok 76
  ['?', 's']]], .tok 2 [' '], .node 296 [.node 300 [.node 203 [.tok 76 ['?', 'p']]], .tok 2 [' '], .node 301 [.node
  303 [.node 304 [.node 279 [.node 273 [.node 341 [.tok 180 ['\"', '\"', '\"', 'a', '\n', 'b', '\"', '\"',
  '\"']]]]]]]]]]], .tok 18 ['}']]]]]]

theorem longTree_parse : parseSource (fun _ => 1) longText = some (longTree, []) := parse_of_code (by decide +kernel)

theorem long_derives : Derives sparqlRules (.node longTree.kind) (kinds (lex (fun _ => 1) longText)) :=
  (c42_accept_iff .query _ (by decide +kernel) (by decide +kernel)).mp
    ⟨_, (Option.some_get (x := parseTokens .query (kinds (lex (fun _ => 1) longText))) (by decide +kernel)).symm, by
      have : ((parseTokens .query (kinds (lex (fun _ => 1) longText))).get (by decide +kernel)).all
        (fun e => match e with | .error _ => false | _ => true) = true := by decide +kernel
      intro x hx
      have := List.all_eq_true.mp this _ hx
      simp at this, by decide +kernel⟩

/-- `SELECT * { ?a ex:p ?b . ?c <q> ?d { ?b <r> ?e } FILTER (?e) { SELECT ?e { ?e <x> ?z } } ?a ` -/
def ctxText : Text :=
  ['S', 'E', 'L', 'E', 'C', 'T', ' ', '*', ' ', '{', ' ', '?', 'a', ' ', 'e', 'x', ':', 'p', ' ', '?', 'b', ' ', '.',
  ' ', '?', 'c', ' ', '<', 'q', '>', ' ', '?', 'd', ' ', '{', ' ', '?', 'b', ' ', '<', 'r', '>', ' ', '?', 'e', ' ',
  '}', ' ', 'F', 'I', 'L', 'T', 'E', 'R', ' ', '(', '?', 'e', ')', ' ', '{', ' ', 'S', 'E', 'L', 'E', 'C', 'T', ' ',
  '?', 'e', ' ', '{', ' ', '?', 'e', ' ', '<', 'x', '>', ' ', '?', 'z', ' ', '}', ' ', '}', ' ', '?', 'a', ' ']

/-- The tree of `SELECT * { ?a ex:p ?b . ?c <q> ?d { ?b <r> ?e } FILTER (?e) { SELECT ?e { ?e <x> ?z } } ?a `. -/
def ctxTree : Green :=
  .node 184 [.node 185 [.node 187 [.node 198 [.tok 8 ['S', 'E', 'L', 'E', 'C', 'T'], .tok 2 [' '], .tok 14 ['*']],
  .tok 2 [' '], .node 200 [.node 212 [.tok 17 ['{'], .tok 2 [' '], .node 250 [.node 251 [.node 261 [.node 279 [.node
  203 [.tok 76 ['?', 'a']]], .tok 2 [' '], .node 296 [.node 299 [.node 302 [.node 305 [.node 306 [.node 307 [.node 308
  [.node 309 [.node 211 [.node 343 [.tok 181 ['e', 'x', ':', 'p']]]]]]]]]], .tok 2 [' '], .node 301 [.node 303 [.node
  304 [.node 279 [.node 203 [.tok 76 ['?', 'b']]]]]]]], .tok 2 [' '], .tok 56 ['.'], .tok 2 [' '], .node 251 [.node
  261 [.node 279 [.node 203 [.tok 76 ['?', 'c']]], .tok 2 [' '], .node 296 [.node 299 [.node 302 [.node 305 [.node 306
  [.node 307 [.node 308 [.node 309 [.node 211 [.tok 5 ['<', 'q', '>']]]]]]]]], .tok 2 [' '], .node 301 [.node 303
  [.node 304 [.node 279 [.node 203 [.tok 76 ['?', 'd']]]]]]]]]], .tok 2 [' '], .node 260 [.node 262 [.node 212 [.tok
  17 ['{'], .tok 2 [' '], .node 250 [.node 251 [.node 261 [.node 279 [.node 203 [.tok 76 ['?', 'b']]], .tok 2 [' '],
  .node 296 [.node 299 [.node 302 [.node 305 [.node 306 [.node 307 [.node 308 [.node 309 [.node 211 [.tok 5 ['<', 'r',
  '>']]]]]]]]], .tok 2 [' '], .node 301 [.node 303 [.node 304 [.node 279 [.node 203 [.tok 76 ['?', 'e']]]]]]]]]], .tok
  2 [' '], .tok 18 ['}']]]], .tok 2 [' '], .node 260 [.node 267 [.tok 65 ['F', 'I', 'L', 'T', 'E', 'R'], .tok 2 [' '],
  .node 221 [.node 223 [.tok 11 ['('], .node 204 [.node 320 [.node 321 [.node 322 [.node 323 [.node 324 [.node 325
  [.node 326 [.node 329 [.node 330 [.node 203 [.tok 76 ['?', 'e']]]]]]]]]]]], .tok 13 [')']]]]], .tok 2 [' '], .node
  260 [.node 262 [.node 212 [.tok 17 ['{'], .tok 2 [' '], .node 202 [.node 198 [.tok 8 ['S', 'E', 'L', 'E', 'C', 'T'],
  .tok 2 [' '], .node 203 [.tok 76 ['?', 'e']]], .tok 2 [' '], .node 200 [.node 212 [.tok 17 ['{'], .tok 2 [' '],
  .node 250 [.node 251 [.node 261 [.node 279 [.node 203 [.tok 76 ['?', 'e']]], .tok 2 [' '], .node 296 [.node 299
  [.node 302 [.node 305 [.node 306 [.node 307 [.node 308 [.node 309 [.node 211 [.tok 5 ['<', 'x', '>']]]]]]]]], .tok 2
  [' '], .node 301 [.node 303 [.node 304 [.node 279 [.node 203 [.tok 76 ['?', 'z']]]]]]]]]], .tok 2 [' '], .tok 18
  ['}']]]], .tok 2 [' '], .tok 18 ['}']]]], .tok 2 [' '], .node 251 [.node 261 [.node 279 [.node 203 [.tok 76 ['?',
  'a']]]]]]]]]], .tok 2 [' ']]

theorem ctxTree_parse : parseSource (fun _ => 1) ctxText = some (ctxTree, [{ start := 90, stop := 90, expected := [18] }]) := parse_of_code (by decide +kernel)

/-- `SELECT * { ?a <p> ?b . ?c <q> ?d VALUES (?a ?c) { (<u> <v>) (<w> ` -/
def slotText : Text :=
  ['S', 'E', 'L', 'E', 'C', 'T', ' ', '*', ' ', '{', ' ', '?', 'a', ' ', '<', 'p', '>', ' ', '?', 'b', ' ', '.', ' ',
  '?', 'c', ' ', '<', 'q', '>', ' ', '?', 'd', ' ', 'V', 'A', 'L', 'U', 'E', 'S', ' ', '(', '?', 'a', ' ', '?', 'c',
  ')', ' ', '{', ' ', '(', '<', 'u', '>', ' ', '<', 'v', '>', ')', ' ', '(', '<', 'w', '>', ' ']

/-- The tree of `SELECT * { ?a <p> ?b . ?c <q> ?d VALUES (?a ?c) { (<u> <v>) (<w> `. -/
def slotTree : Green :=
  .node 184 [.node 185 [.node 187 [.node 198 [.tok 8 ['S', 'E', 'L', 'E', 'C', 'T'], .tok 2 [' '], .tok 14 ['*']],
  .tok 2 [' '], .node 200 [.node 212 [.tok 17 ['{'], .tok 2 [' '], .node 250 [.node 251 [.node 261 [.node 279 [.node
  203 [.tok 76 ['?', 'a']]], .tok 2 [' '], .node 296 [.node 299 [.node 302 [.node 305 [.node 306 [.node 307 [.node 308
  [.node 309 [.node 211 [.tok 5 ['<', 'p', '>']]]]]]]]], .tok 2 [' '], .node 301 [.node 303 [.node 304 [.node 279
  [.node 203 [.tok 76 ['?', 'b']]]]]]]], .tok 2 [' '], .tok 56 ['.'], .tok 2 [' '], .node 251 [.node 261 [.node 279
  [.node 203 [.tok 76 ['?', 'c']]], .tok 2 [' '], .node 296 [.node 299 [.node 302 [.node 305 [.node 306 [.node 307
  [.node 308 [.node 309 [.node 211 [.tok 5 ['<', 'q', '>']]]]]]]]], .tok 2 [' '], .node 301 [.node 303 [.node 304
  [.node 279 [.node 203 [.tok 76 ['?', 'd']]]]]]]]]], .tok 2 [' '], .node 260 [.node 269 [.tok 33 ['V', 'A', 'L', 'U',
  'E', 'S'], .tok 2 [' '], .node 226 [.node 271 [.tok 11 ['('], .node 203 [.tok 76 ['?', 'a']], .tok 2 [' '], .node
  203 [.tok 76 ['?', 'c']], .tok 13 [')'], .tok 2 [' '], .tok 17 ['{'], .tok 2 [' '], .tok 11 ['('], .node 272 [.node
  211 [.tok 5 ['<', 'u', '>']]], .tok 2 [' '], .node 272 [.node 211 [.tok 5 ['<', 'v', '>']]], .tok 13 [')'], .tok 2
  [' '], .tok 11 ['('], .node 272 [.node 211 [.tok 5 ['<', 'w', '>']]]]]]]]]]]], .tok 2 [' ']]

theorem slotTree_parse : parseSource (fun _ => 1) slotText = some (slotTree, [{ start := 64, stop := 64, expected := [13] }, { start := 64, stop := 64, expected := [18] }, { start := 64, stop := 64, expected := [18] }]) := parse_of_code (by decide +kernel)

/-- `SELECT * {?s foa` -/
def termText : Text :=
  ['S', 'E', 'L', 'E', 'C', 'T', ' ', '*', ' ', '{', '?', 's', ' ', 'f', 'o', 'a']

/-- The tree of `SELECT * {?s foa`. -/
def termTree : Green :=
  .node 184 [.node 185 [.node 187 [.node 198 [.tok 8 ['S', 'E', 'L', 'E', 'C', 'T'], .tok 2 [' '], .tok 14 ['*']],
  .tok 2 [' '], .node 200 [.node 212 [.tok 17 ['{'], .node 250 [.node 251 [.node 261 [.node 279 [.node 203 [.tok 76
  ['?', 's']]], .tok 2 [' '], .node 296 [.node 1 [.tok 1 ['f']], .node 301 [.node 303 [.node 304 [.node 1 [.tok 1
  ['o']]]]]]]]], .node 1 [.tok 67 ['a']]]]]]]

theorem termTree_parse : parseSource (fun _ => 1) termText = some (termTree, [{ start := 13, stop := 14, expected := [5, 7, 11, 67, 70, 73, 181, 76, 77] }, { start := 14, stop := 15, expected := [5, 7, 177, 178, 166, 61, 88, 76, 77, 167, 168, 169, 170, 171, 172, 173, 174, 175, 176, 179, 180, 181, 182, 183, 11, 74, 87] }, { start := 15, stop := 16, expected := [18] }, { start := 16, stop := 16, expected := [18] }]) := parse_of_code (by decide +kernel)

/-- `SELECT * WHERE {} foo\nbar` -/
def termNlText : Text :=
  ['S', 'E', 'L', 'E', 'C', 'T', ' ', '*', ' ', 'W', 'H', 'E', 'R', 'E', ' ', '{', '}', ' ', 'f', 'o', 'o', '\n', 'b',
  'a', 'r']

/-- The tree of `SELECT * WHERE {} foo\nbar`. -/
def termNlTree : Green :=
  .node 184 [.node 185 [.node 187 [.node 198 [.tok 8 ['S', 'E', 'L', 'E', 'C', 'T'], .tok 2 [' '], .tok 14 ['*']],
  .tok 2 [' '], .node 200 [.tok 16 ['W', 'H', 'E', 'R', 'E'], .tok 2 [' '], .node 212 [.tok 17 ['{'], .tok 18
  ['}']]]]], .tok 2 [' '], .node 1 [.tok 1 ['f'], .tok 1 ['o'], .tok 1 ['o'], .tok 2 ['\n'], .tok 1 ['b'], .tok 1
  ['a'], .tok 1 ['r']]]

theorem termNlTree_parse : parseSource (fun _ => 1) termNlText = some (termNlTree, []) := parse_of_code (by decide +kernel)

/-- `SELECT (S` -/
def parenText : Text :=
  ['S', 'E', 'L', 'E', 'C', 'T', ' ', '(', 'S']

/-- The tree of `SELECT (S`. -/
def parenTree : Green :=
  .node 184 [.node 185 [.node 187 [.node 198 [.tok 8 ['S', 'E', 'L', 'E', 'C', 'T'], .tok 2 [' '], .tok 11 ['('],
  .node 204 [.node 320 [.node 321 [.node 322 [.node 323 [.node 324 [.node 325 [.node 326 [.node 329 [.node 1 [.tok 1
  ['S']]]]]]]]]]]]]]]

theorem parenTree_parse : parseSource (fun _ => 1) parenText = some (parenTree, [{ start := 8, stop := 9, expected := [73, 72, 93, 5, 7, 177, 178, 11, 166, 88, 76, 77, 92, 94, 95, 96, 164, 97, 98, 99, 100, 101, 102, 103, 104, 105, 106, 107, 108, 109, 110, 111, 112, 113, 114, 115, 116, 117, 118, 119, 120, 121, 122, 123, 124, 125, 126, 127, 128, 129, 130, 131, 132, 133, 134, 135, 156, 136, 137, 138, 139, 140, 141, 142, 157, 158, 159, 160, 161, 162, 163, 143, 144, 145, 146, 147, 148, 149, 150, 151, 152, 153, 167, 168, 169, 170, 171, 172, 173, 174, 175, 176, 179, 180, 181] }, { start := 9, stop := 9, expected := [12] }, { start := 9, stop := 9, expected := [13] }, { start := 9, stop := 9, expected := [17] }]) := parse_of_code (by decide +kernel)

/-- `SELECT * {{?s ?p ?o` -/
def cutText : Text :=
  ['S', 'E', 'L', 'E', 'C', 'T', ' ', '*', ' ', '{', '{', '?', 's', ' ', '?', 'p', ' ', '?', 'o']

/-- The tree of `SELECT * {{?s ?p ?o`. -/
def cutTree : Green :=
  .node 184 [.node 185 [.node 187 [.node 198 [.tok 8 ['S', 'E', 'L', 'E', 'C', 'T'], .tok 2 [' '], .tok 14 ['*']],
  .tok 2 [' '], .node 200 [.node 212 [.tok 17 ['{'], .node 250 [.node 260 [.node 262 [.node 212 [.tok 17 ['{'], .node
  250 [.node 251 [.node 261 [.node 279 [.node 203 [.tok 76 ['?', 's']]], .tok 2 [' '], .node 296 [.node 300 [.node 203
  [.tok 76 ['?', 'p']]], .tok 2 [' '], .node 301 [.node 303 [.node 304 [.node 279 [.node 203 [.tok 76 ['?',
  'o']]]]]]]]]]]]]]]]]]]

theorem cutTree_parse : parseSource (fun _ => 1) cutText = some (cutTree, [{ start := 19, stop := 19, expected := [18] }, { start := 19, stop := 19, expected := [18] }]) := parse_of_code (by decide +kernel)

/-- `SELECT * {{?s ?p ?o 5 } ] x` -/
def wrongText : Text :=
  ['S', 'E', 'L', 'E', 'C', 'T', ' ', '*', ' ', '{', '{', '?', 's', ' ', '?', 'p', ' ', '?', 'o', ' ', '5', ' ', '}',
  ' ', ']', ' ', 'x']

/-- The tree of `SELECT * {{?s ?p ?o 5 } ] x`. -/
def wrongTree : Green :=
  .node 184 [.node 185 [.node 187 [.node 198 [.tok 8 ['S', 'E', 'L', 'E', 'C', 'T'], .tok 2 [' '], .tok 14 ['*']],
  .tok 2 [' '], .node 200 [.node 212 [.tok 17 ['{'], .node 250 [.node 260 [.node 262 [.node 212 [.tok 17 ['{'], .node
  250 [.node 251 [.node 261 [.node 279 [.node 203 [.tok 76 ['?', 's']]], .tok 2 [' '], .node 296 [.node 300 [.node 203
  [.tok 76 ['?', 'p']]], .tok 2 [' '], .node 301 [.node 303 [.node 304 [.node 279 [.node 203 [.tok 76 ['?',
  'o']]]]]]]]]], .tok 2 [' '], .node 1 [.tok 166 ['5']], .tok 2 [' '], .tok 18 ['}']]]]], .tok 2 [' '], .node 1 [.tok
  75 [']'], .tok 2 [' '], .tok 1 ['x']]]]]]]

theorem wrongTree_parse : parseSource (fun _ => 1) wrongText = some (wrongTree, [{ start := 20, stop := 21, expected := [18] }, { start := 24, stop := 25, expected := [18] }, { start := 27, stop := 27, expected := [18] }]) := parse_of_code (by decide +kernel)

/-- `SELECT * {?s ` -/
def verbText : Text :=
  ['S', 'E', 'L', 'E', 'C', 'T', ' ', '*', ' ', '{', '?', 's', ' ']

/-- The tree of `SELECT * {?s `. -/
def verbTree : Green :=
  .node 184 [.node 185 [.node 187 [.node 198 [.tok 8 ['S', 'E', 'L', 'E', 'C', 'T'], .tok 2 [' '], .tok 14 ['*']],
  .tok 2 [' '], .node 200 [.node 212 [.tok 17 ['{'], .node 250 [.node 251 [.node 261 [.node 279 [.node 203 [.tok 76
  ['?', 's']]]]]]]]]], .tok 2 [' ']]

theorem verbTree_parse : parseSource (fun _ => 1) verbText = some (verbTree, [{ start := 12, stop := 12, expected := [18] }]) := parse_of_code (by decide +kernel)

/-- `SELECT * {?s #c\n` -/
def noteText : Text :=
  ['S', 'E', 'L', 'E', 'C', 'T', ' ', '*', ' ', '{', '?', 's', ' ', '#', 'c', '\n']

/-- The tree of `SELECT * {?s #c\n`. -/
def noteTree : Green :=
  .node 184 [.node 185 [.node 187 [.node 198 [.tok 8 ['S', 'E', 'L', 'E', 'C', 'T'], .tok 2 [' '], .tok 14 ['*']],
  .tok 2 [' '], .node 200 [.node 212 [.tok 17 ['{'], .node 250 [.node 251 [.node 261 [.node 279 [.node 203 [.tok 76
  ['?', 's']]]]]]]]]], .tok 2 [' '], .tok 3 ['#', 'c'], .tok 2 ['\n']]

theorem noteTree_parse : parseSource (fun _ => 1) noteText = some (noteTree, [{ start := 12, stop := 12, expected := [18] }]) := parse_of_code (by decide +kernel)

/-- `CONSTRUCT {<a> <b> ` -/
def tmplText : Text :=
  ['C', 'O', 'N', 'S', 'T', 'R', 'U', 'C', 'T', ' ', '{', '<', 'a', '>', ' ', '<', 'b', '>', ' ']

/-- The tree of `CONSTRUCT {<a> <b> `. -/
def tmplTree : Green :=
  .node 184 [.node 185 [.node 188 [.tok 15 ['C', 'O', 'N', 'S', 'T', 'R', 'U', 'C', 'T'], .tok 2 [' '], .node 205
  [.tok 17 ['{'], .node 278 [.node 249 [.node 279 [.node 211 [.tok 5 ['<', 'a', '>']]], .tok 2 [' '], .node 289 [.node
  292 [.node 207 [.node 211 [.tok 5 ['<', 'b', '>']]]]]]]]]], .tok 2 [' ']]

theorem tmplTree_parse : parseSource (fun _ => 1) tmplText = some (tmplTree, [{ start := 18, stop := 18, expected := [18] }, { start := 18, stop := 18, expected := [17] }]) := parse_of_code (by decide +kernel)

/-- `SELECT * {VALUES (?x ?y) {(<a> ` -/
def rowText : Text :=
  ['S', 'E', 'L', 'E', 'C', 'T', ' ', '*', ' ', '{', 'V', 'A', 'L', 'U', 'E', 'S', ' ', '(', '?', 'x', ' ', '?', 'y',
  ')', ' ', '{', '(', '<', 'a', '>', ' ']

/-- The tree of `SELECT * {VALUES (?x ?y) {(<a> `. -/
def rowTree : Green :=
  .node 184 [.node 185 [.node 187 [.node 198 [.tok 8 ['S', 'E', 'L', 'E', 'C', 'T'], .tok 2 [' '], .tok 14 ['*']],
  .tok 2 [' '], .node 200 [.node 212 [.tok 17 ['{'], .node 250 [.node 260 [.node 269 [.tok 33 ['V', 'A', 'L', 'U',
  'E', 'S'], .tok 2 [' '], .node 226 [.node 271 [.tok 11 ['('], .node 203 [.tok 76 ['?', 'x']], .tok 2 [' '], .node
  203 [.tok 76 ['?', 'y']], .tok 13 [')'], .tok 2 [' '], .tok 17 ['{'], .tok 11 ['('], .node 272 [.node 211 [.tok 5
  ['<', 'a', '>']]]]]]]]]]]], .tok 2 [' ']]

theorem rowTree_parse : parseSource (fun _ => 1) rowText = some (rowTree, [{ start := 30, stop := 30, expected := [13] }, { start := 30, stop := 30, expected := [18] }, { start := 30, stop := 30, expected := [18] }]) := parse_of_code (by decide +kernel)

/-- `SELECT * {VALUES (?x ?y) {(<a>` -/
def rowEndText : Text :=
  ['S', 'E', 'L', 'E', 'C', 'T', ' ', '*', ' ', '{', 'V', 'A', 'L', 'U', 'E', 'S', ' ', '(', '?', 'x', ' ', '?', 'y',
  ')', ' ', '{', '(', '<', 'a', '>']

/-- The tree of `SELECT * {VALUES (?x ?y) {(<a>`. -/
def rowEndTree : Green :=
  .node 184 [.node 185 [.node 187 [.node 198 [.tok 8 ['S', 'E', 'L', 'E', 'C', 'T'], .tok 2 [' '], .tok 14 ['*']],
  .tok 2 [' '], .node 200 [.node 212 [.tok 17 ['{'], .node 250 [.node 260 [.node 269 [.tok 33 ['V', 'A', 'L', 'U',
  'E', 'S'], .tok 2 [' '], .node 226 [.node 271 [.tok 11 ['('], .node 203 [.tok 76 ['?', 'x']], .tok 2 [' '], .node
  203 [.tok 76 ['?', 'y']], .tok 13 [')'], .tok 2 [' '], .tok 17 ['{'], .tok 11 ['('], .node 272 [.node 211 [.tok 5
  ['<', 'a', '>']]]]]]]]]]]]]

theorem rowEndTree_parse : parseSource (fun _ => 1) rowEndText = some (rowEndTree, [{ start := 30, stop := 30, expected := [13] }, { start := 30, stop := 30, expected := [18] }, { start := 30, stop := 30, expected := [18] }]) := parse_of_code (by decide +kernel)

/-- `SELECT * {} VALUES ?x { ` -/
def afterText : Text :=
  ['S', 'E', 'L', 'E', 'C', 'T', ' ', '*', ' ', '{', '}', ' ', 'V', 'A', 'L', 'U', 'E', 'S', ' ', '?', 'x', ' ', '{',
  ' ']

/-- The tree of `SELECT * {} VALUES ?x { `. -/
def afterTree : Green :=
  .node 184 [.node 185 [.node 187 [.node 198 [.tok 8 ['S', 'E', 'L', 'E', 'C', 'T'], .tok 2 [' '], .tok 14 ['*']],
  .tok 2 [' '], .node 200 [.node 212 [.tok 17 ['{'], .tok 18 ['}']]]], .tok 2 [' '], .node 191 [.tok 33 ['V', 'A',
  'L', 'U', 'E', 'S'], .tok 2 [' '], .node 226 [.node 270 [.node 203 [.tok 76 ['?', 'x']], .tok 2 [' '], .tok 17
  ['{']]]]], .tok 2 [' ']]

theorem afterTree_parse : parseSource (fun _ => 1) afterText = some (afterTree, [{ start := 23, stop := 23, expected := [18] }]) := parse_of_code (by decide +kernel)

/-- `SELECT * {{?s ?p ?o}}` -/
def objFullText : Text :=
  ['S', 'E', 'L', 'E', 'C', 'T', ' ', '*', ' ', '{', '{', '?', 's', ' ', '?', 'p', ' ', '?', 'o', '}', '}']

/-- The tree of `SELECT * {{?s ?p ?o}}`. -/
def objFullTree : Green :=
  .node 184 [.node 185 [.node 187 [.node 198 [.tok 8 ['S', 'E', 'L', 'E', 'C', 'T'], .tok 2 [' '], .tok 14 ['*']],
  .tok 2 [' '], .node 200 [.node 212 [.tok 17 ['{'], .node 250 [.node 260 [.node 262 [.node 212 [.tok 17 ['{'], .node
  250 [.node 251 [.node 261 [.node 279 [.node 203 [.tok 76 ['?', 's']]], .tok 2 [' '], .node 296 [.node 300 [.node 203
  [.tok 76 ['?', 'p']]], .tok 2 [' '], .node 301 [.node 303 [.node 304 [.node 279 [.node 203 [.tok 76 ['?',
  'o']]]]]]]]]], .tok 18 ['}']]]]], .tok 18 ['}']]]]]]

theorem objFullTree_parse : parseSource (fun _ => 1) objFullText = some (objFullTree, []) := parse_of_code (by decide +kernel)

theorem objFull_derives : Derives sparqlRules (.node objFullTree.kind) (kinds (lex (fun _ => 1) objFullText)) :=
  (c42_accept_iff .query _ (by decide +kernel) (by decide +kernel)).mp
    ⟨_, (Option.some_get (x := parseTokens .query (kinds (lex (fun _ => 1) objFullText))) (by decide +kernel)).symm, by
      have : ((parseTokens .query (kinds (lex (fun _ => 1) objFullText))).get (by decide +kernel)).all
        (fun e => match e with | .error _ => false | _ => true) = true := by decide +kernel
      intro x hx
      have := List.all_eq_true.mp this _ hx
      simp at this, by decide +kernel⟩

/-- `SELECT * {{?s ?p ?o .\n    }}` -/
def objDoneText : Text :=
  ['S', 'E', 'L', 'E', 'C', 'T', ' ', '*', ' ', '{', '{', '?', 's', ' ', '?', 'p', ' ', '?', 'o', ' ', '.', '\n', ' ',
  ' ', ' ', ' ', '}', '}']

/-- The tree of `SELECT * {{?s ?p ?o .\n    }}`. -/
def objDoneTree : Green :=
  .node 184 [.node 185 [.node 187 [.node 198 [.tok 8 ['S', 'E', 'L', 'E', 'C', 'T'], .tok 2 [' '], .tok 14 ['*']],
  .tok 2 [' '], .node 200 [.node 212 [.tok 17 ['{'], .node 250 [.node 260 [.node 262 [.node 212 [.tok 17 ['{'], .node
  250 [.node 251 [.node 261 [.node 279 [.node 203 [.tok 76 ['?', 's']]], .tok 2 [' '], .node 296 [.node 300 [.node 203
  [.tok 76 ['?', 'p']]], .tok 2 [' '], .node 301 [.node 303 [.node 304 [.node 279 [.node 203 [.tok 76 ['?',
  'o']]]]]]]], .tok 2 [' '], .tok 56 ['.']]], .tok 2 ['\n', ' ', ' ', ' ', ' '], .tok 18 ['}']]]]], .tok 18 ['}']]]]]]

theorem objDoneTree_parse : parseSource (fun _ => 1) objDoneText = some (objDoneTree, []) := parse_of_code (by decide +kernel)

theorem objDone_derives : Derives sparqlRules (.node objDoneTree.kind) (kinds (lex (fun _ => 1) objDoneText)) :=
  (c42_accept_iff .query _ (by decide +kernel) (by decide +kernel)).mp
    ⟨_, (Option.some_get (x := parseTokens .query (kinds (lex (fun _ => 1) objDoneText))) (by decide +kernel)).symm, by
      have : ((parseTokens .query (kinds (lex (fun _ => 1) objDoneText))).get (by decide +kernel)).all
        (fun e => match e with | .error _ => false | _ => true) = true := by decide +kernel
      intro x hx
      have := List.all_eq_true.mp this _ hx
      simp at this, by decide +kernel⟩

/-- `SELECT * {?s ?p ?o {| <a> ` -/
def annCutText : Text :=
  ['S', 'E', 'L', 'E', 'C', 'T', ' ', '*', ' ', '{', '?', 's', ' ', '?', 'p', ' ', '?', 'o', ' ', '{', '|', ' ', '<',
  'a', '>', ' ']

/-- The tree of `SELECT * {?s ?p ?o {| <a> `. -/
def annCutTree : Green :=
  .node 184 [.node 185 [.node 187 [.node 198 [.tok 8 ['S', 'E', 'L', 'E', 'C', 'T'], .tok 2 [' '], .tok 14 ['*']],
  .tok 2 [' '], .node 200 [.node 212 [.tok 17 ['{'], .node 250 [.node 251 [.node 261 [.node 279 [.node 203 [.tok 76
  ['?', 's']]], .tok 2 [' '], .node 296 [.node 300 [.node 203 [.tok 76 ['?', 'p']]], .tok 2 [' '], .node 301 [.node
  303 [.node 304 [.node 279 [.node 203 [.tok 76 ['?', 'o']]]], .tok 2 [' '], .node 256 [.node 257 [.tok 19 ['{', '|'],
  .tok 2 [' '], .node 296 [.node 299 [.node 302 [.node 305 [.node 306 [.node 307 [.node 308 [.node 309 [.node 211
  [.tok 5 ['<', 'a', '>']]]]]]]]]]]]]]]]]]]]]], .tok 2 [' ']]

theorem annCutTree_parse : parseSource (fun _ => 1) annCutText = some (annCutTree, [{ start := 25, stop := 25, expected := [20] }, { start := 25, stop := 25, expected := [18] }]) := parse_of_code (by decide +kernel)

/-- `SELECT * {?s ?p ?o {| <a> <b> |}}` -/
def annDoneText : Text :=
  ['S', 'E', 'L', 'E', 'C', 'T', ' ', '*', ' ', '{', '?', 's', ' ', '?', 'p', ' ', '?', 'o', ' ', '{', '|', ' ', '<',
  'a', '>', ' ', '<', 'b', '>', ' ', '|', '}', '}']

/-- The tree of `SELECT * {?s ?p ?o {| <a> <b> |}}`. -/
def annDoneTree : Green :=
  .node 184 [.node 185 [.node 187 [.node 198 [.tok 8 ['S', 'E', 'L', 'E', 'C', 'T'], .tok 2 [' '], .tok 14 ['*']],
  .tok 2 [' '], .node 200 [.node 212 [.tok 17 ['{'], .node 250 [.node 251 [.node 261 [.node 279 [.node 203 [.tok 76
  ['?', 's']]], .tok 2 [' '], .node 296 [.node 300 [.node 203 [.tok 76 ['?', 'p']]], .tok 2 [' '], .node 301 [.node
  303 [.node 304 [.node 279 [.node 203 [.tok 76 ['?', 'o']]]], .tok 2 [' '], .node 256 [.node 257 [.tok 19 ['{', '|'],
  .tok 2 [' '], .node 296 [.node 299 [.node 302 [.node 305 [.node 306 [.node 307 [.node 308 [.node 309 [.node 211
  [.tok 5 ['<', 'a', '>']]]]]]]]], .tok 2 [' '], .node 301 [.node 303 [.node 304 [.node 279 [.node 211 [.tok 5 ['<',
  'b', '>']]]]]]], .tok 2 [' '], .tok 20 ['|', '}']]]]]]]]], .tok 18 ['}']]]]]]

theorem annDoneTree_parse : parseSource (fun _ => 1) annDoneText = some (annDoneTree, []) := parse_of_code (by decide +kernel)

theorem annDone_derives : Derives sparqlRules (.node annDoneTree.kind) (kinds (lex (fun _ => 1) annDoneText)) :=
  (c42_accept_iff .query _ (by decide +kernel) (by decide +kernel)).mp
    ⟨_, (Option.some_get (x := parseTokens .query (kinds (lex (fun _ => 1) annDoneText))) (by decide +kernel)).symm, by
      have : ((parseTokens .query (kinds (lex (fun _ => 1) annDoneText))).get (by decide +kernel)).all
        (fun e => match e with | .error _ => false | _ => true) = true := by decide +kernel
      intro x hx
      have := List.all_eq_true.mp this _ hx
      simp at this, by decide +kernel⟩

/-- `SELECT * {?s ?p ?o {| <a> <b> .\n  |}}` -/
def annDotText : Text :=
  ['S', 'E', 'L', 'E', 'C', 'T', ' ', '*', ' ', '{', '?', 's', ' ', '?', 'p', ' ', '?', 'o', ' ', '{', '|', ' ', '<',
  'a', '>', ' ', '<', 'b', '>', ' ', '.', '\n', ' ', ' ', '|', '}', '}']

/-- The tree of `SELECT * {?s ?p ?o {| <a> <b> .\n  |}}`. -/
def annDotTree : Green :=
  .node 184 [.node 185 [.node 187 [.node 198 [.tok 8 ['S', 'E', 'L', 'E', 'C', 'T'], .tok 2 [' '], .tok 14 ['*']],
  .tok 2 [' '], .node 200 [.node 212 [.tok 17 ['{'], .node 250 [.node 251 [.node 261 [.node 279 [.node 203 [.tok 76
  ['?', 's']]], .tok 2 [' '], .node 296 [.node 300 [.node 203 [.tok 76 ['?', 'p']]], .tok 2 [' '], .node 301 [.node
  303 [.node 304 [.node 279 [.node 203 [.tok 76 ['?', 'o']]]], .tok 2 [' '], .node 256 [.node 257 [.tok 19 ['{', '|'],
  .tok 2 [' '], .node 296 [.node 299 [.node 302 [.node 305 [.node 306 [.node 307 [.node 308 [.node 309 [.node 211
  [.tok 5 ['<', 'a', '>']]]]]]]]], .tok 2 [' '], .node 301 [.node 303 [.node 304 [.node 279 [.node 211 [.tok 5 ['<',
  'b', '>']]]]]]]]]]]]], .tok 2 [' '], .tok 56 ['.']]], .tok 2 ['\n', ' ', ' '], .node 1 [.tok 20 ['|', '}']], .tok 18
  ['}']]]]]]

theorem annDotTree_parse : parseSource (fun _ => 1) annDotText = some (annDotTree, [{ start := 30, stop := 31, expected := [20] }, { start := 34, stop := 36, expected := [18] }]) := parse_of_code (by decide +kernel)

/-- `SELECT * {?s ?p <a>,` -/
def commaText : Text :=
  ['S', 'E', 'L', 'E', 'C', 'T', ' ', '*', ' ', '{', '?', 's', ' ', '?', 'p', ' ', '<', 'a', '>', ',']

/-- The tree of `SELECT * {?s ?p <a>,`. -/
def commaTree : Green :=
  .node 184 [.node 185 [.node 187 [.node 198 [.tok 8 ['S', 'E', 'L', 'E', 'C', 'T'], .tok 2 [' '], .tok 14 ['*']],
  .tok 2 [' '], .node 200 [.node 212 [.tok 17 ['{'], .node 250 [.node 251 [.node 261 [.node 279 [.node 203 [.tok 76
  ['?', 's']]], .tok 2 [' '], .node 296 [.node 300 [.node 203 [.tok 76 ['?', 'p']]], .tok 2 [' '], .node 301 [.node
  303 [.node 304 [.node 279 [.node 211 [.tok 5 ['<', 'a', '>']]]]], .tok 66 [',']]]]]]]]]]]

theorem commaTree_parse : parseSource (fun _ => 1) commaText = some (commaTree, [{ start := 20, stop := 20, expected := [18] }]) := parse_of_code (by decide +kernel)

end Verif.Features
