import Verif.Features.Code
import Verif.Props.Lexer
/-!
# Trees of concrete documents (examples only; generated by tools/gen_demo.py)
-/
namespace Verif.Features
open Verif Verif.Grammar Verif.Lexer Verif.Props

theorem parse_of_code {e : Text → Nat} {t : Text} {g errs}
    (h : (parseSource e t).map (fun p => (Green.code p.1, p.2)) = some (Green.code g, errs)) :
    parseSource e t = some (g, errs) := by
  cases hp : parseSource e t with
  | none => rw [hp] at h; cases h
  | some p =>
    rw [hp] at h
    simp only [Option.map_some, Option.some.injEq, Prod.mk.injEq] at h
    rw [← code_inj h.1, ← h.2]

/-- The tree of `SELECT ?x {<a> a ?x}`. -/
def exTree : Green :=
  .node 184 [.node 185 [.node 187 [.node 198 [.tok 8 ['S', 'E', 'L', 'E', 'C', 'T'], .tok 2 [' '], .node 203 [.tok 76
  ['?', 'x']]], .tok 2 [' '], .node 200 [.node 212 [.tok 17 ['{'], .node 250 [.node 251 [.node 261 [.node 279 [.node
  211 [.tok 5 ['<', 'a', '>']]], .tok 2 [' '], .node 296 [.node 299 [.node 302 [.node 305 [.node 306 [.node 307 [.node
  308 [.node 309 [.tok 67 ['a']]]]]]]], .tok 2 [' '], .node 301 [.node 303 [.node 304 [.node 279 [.node 203 [.tok 76
  ['?', 'x']]]]]]]]]], .tok 18 ['}']]]]]]

theorem exTree_parse : parseSource (fun _ => 1) exText = some (exTree, []) := parse_of_code (by decide +kernel)

/-- `SELECT ?x ?y {}` -/
def twoText : Text :=
  ['S', 'E', 'L', 'E', 'C', 'T', ' ', '?', 'x', ' ', '?', 'y', ' ', '{', '}']

/-- The tree of `SELECT ?x ?y {}`. -/
def twoTree : Green :=
  .node 184 [.node 185 [.node 187 [.node 198 [.tok 8 ['S', 'E', 'L', 'E', 'C', 'T'], .tok 2 [' '], .node 203 [.tok 76
  ['?', 'x']], .tok 2 [' '], .node 203 [.tok 76 ['?', 'y']]], .tok 2 [' '], .node 200 [.node 212 [.tok 17 ['{'], .tok
  18 ['}']]]]]]

theorem twoTree_parse : parseSource (fun _ => 1) twoText = some (twoTree, []) := parse_of_code (by decide +kernel)

/-- `SELECT ?x {{SELECT ?y {?x ?p ?y}}}` -/
def subText : Text :=
  ['S', 'E', 'L', 'E', 'C', 'T', ' ', '?', 'x', ' ', '{', '{', 'S', 'E', 'L', 'E', 'C', 'T', ' ', '?', 'y', ' ', '{',
  '?', 'x', ' ', '?', 'p', ' ', '?', 'y', '}', '}', '}']

/-- The tree of `SELECT ?x {{SELECT ?y {?x ?p ?y}}}`. -/
def subTree : Green :=
  .node 184 [.node 185 [.node 187 [.node 198 [.tok 8 ['S', 'E', 'L', 'E', 'C', 'T'], .tok 2 [' '], .node 203 [.tok 76
  ['?', 'x']]], .tok 2 [' '], .node 200 [.node 212 [.tok 17 ['{'], .node 250 [.node 260 [.node 262 [.node 212 [.tok 17
  ['{'], .node 202 [.node 198 [.tok 8 ['S', 'E', 'L', 'E', 'C', 'T'], .tok 2 [' '], .node 203 [.tok 76 ['?', 'y']]],
  .tok 2 [' '], .node 200 [.node 212 [.tok 17 ['{'], .node 250 [.node 251 [.node 261 [.node 279 [.node 203 [.tok 76
  ['?', 'x']]], .tok 2 [' '], .node 296 [.node 300 [.node 203 [.tok 76 ['?', 'p']]], .tok 2 [' '], .node 301 [.node
  303 [.node 304 [.node 279 [.node 203 [.tok 76 ['?', 'y']]]]]]]]]], .tok 18 ['}']]]], .tok 18 ['}']]]]], .tok 18
  ['}']]]]]]

theorem subTree_parse : parseSource (fun _ => 1) subText = some (subTree, []) := parse_of_code (by decide +kernel)

/-- `PREFIX a: <b>\nSELECT * {\n{\n?s ?p ?o\n}\n{}\n}` -/
def foldText : Text :=
  ['P', 'R', 'E', 'F', 'I', 'X', ' ', 'a', ':', ' ', '<', 'b', '>', '\n', 'S', 'E', 'L', 'E', 'C', 'T', ' ', '*', ' ',
  '{', '\n', '{', '\n', '?', 's', ' ', '?', 'p', ' ', '?', 'o', '\n', '}', '\n', '{', '}', '\n', '}']

/-- The tree of `PREFIX a: <b>\nSELECT * {\n{\n?s ?p ?o\n}\n{}\n}`. -/
def foldTree : Green :=
  .node 184 [.node 185 [.node 186 [.node 195 [.tok 6 ['P', 'R', 'E', 'F', 'I', 'X'], .tok 2 [' '], .tok 7 ['a', ':'],
  .tok 2 [' '], .tok 5 ['<', 'b', '>']]], .tok 2 ['\n'], .node 187 [.node 198 [.tok 8 ['S', 'E', 'L', 'E', 'C', 'T'],
  .tok 2 [' '], .tok 14 ['*']], .tok 2 [' '], .node 200 [.node 212 [.tok 17 ['{'], .tok 2 ['\n'], .node 250 [.node 260
  [.node 262 [.node 212 [.tok 17 ['{'], .tok 2 ['\n'], .node 250 [.node 251 [.node 261 [.node 279 [.node 203 [.tok 76
  ['?', 's']]], .tok 2 [' '], .node 296 [.node 300 [.node 203 [.tok 76 ['?', 'p']]], .tok 2 [' '], .node 301 [.node
  303 [.node 304 [.node 279 [.node 203 [.tok 76 ['?', 'o']]]]]]]]]], .tok 2 ['\n'], .tok 18 ['}']]]], .tok 2 ['\n'],
  .node 260 [.node 262 [.node 212 [.tok 17 ['{'], .tok 18 ['}']]]]], .tok 2 ['\n'], .tok 18 ['}']]]]]]

theorem foldTree_parse : parseSource (fun _ => 1) foldText = some (foldTree, []) := parse_of_code (by decide +kernel)

/-- `PREFIX a: <u>\nPREFIX b: <v>\nPREFIX a: <w>\nSELECT ?x {a:k c:l ?x}` -/
def preText : Text :=
  ['P', 'R', 'E', 'F', 'I', 'X', ' ', 'a', ':', ' ', '<', 'u', '>', '\n', 'P', 'R', 'E', 'F', 'I', 'X', ' ', 'b', ':',
  ' ', '<', 'v', '>', '\n', 'P', 'R', 'E', 'F', 'I', 'X', ' ', 'a', ':', ' ', '<', 'w', '>', '\n', 'S', 'E', 'L', 'E',
  'C', 'T', ' ', '?', 'x', ' ', '{', 'a', ':', 'k', ' ', 'c', ':', 'l', ' ', '?', 'x', '}']

/-- The tree of `PREFIX a: <u>\nPREFIX b: <v>\nPREFIX a: <w>\nSELECT ?x {a:k c:l ?x}`. -/
def preTree : Green :=
  .node 184 [.node 185 [.node 186 [.node 195 [.tok 6 ['P', 'R', 'E', 'F', 'I', 'X'], .tok 2 [' '], .tok 7 ['a', ':'],
  .tok 2 [' '], .tok 5 ['<', 'u', '>']], .tok 2 ['\n'], .node 195 [.tok 6 ['P', 'R', 'E', 'F', 'I', 'X'], .tok 2
  [' '], .tok 7 ['b', ':'], .tok 2 [' '], .tok 5 ['<', 'v', '>']], .tok 2 ['\n'], .node 195 [.tok 6 ['P', 'R', 'E',
  'F', 'I', 'X'], .tok 2 [' '], .tok 7 ['a', ':'], .tok 2 [' '], .tok 5 ['<', 'w', '>']]], .tok 2 ['\n'], .node 187
  [.node 198 [.tok 8 ['S', 'E', 'L', 'E', 'C', 'T'], .tok 2 [' '], .node 203 [.tok 76 ['?', 'x']]], .tok 2 [' '],
  .node 200 [.node 212 [.tok 17 ['{'], .node 250 [.node 251 [.node 261 [.node 279 [.node 211 [.node 343 [.tok 181
  ['a', ':', 'k']]]], .tok 2 [' '], .node 296 [.node 299 [.node 302 [.node 305 [.node 306 [.node 307 [.node 308 [.node
  309 [.node 211 [.node 343 [.tok 181 ['c', ':', 'l']]]]]]]]]], .tok 2 [' '], .node 301 [.node 303 [.node 304 [.node
  279 [.node 203 [.tok 76 ['?', 'x']]]]]]]]]], .tok 18 ['}']]]]]]

theorem preTree_parse : parseSource (fun _ => 1) preText = some (preTree, []) := parse_of_code (by decide +kernel)

/-- `ASK {a:k a ?x}` -/
def askText : Text :=
  ['A', 'S', 'K', ' ', '{', 'a', ':', 'k', ' ', 'a', ' ', '?', 'x', '}']

/-- The tree of `ASK {a:k a ?x}`. -/
def askTree : Green :=
  .node 184 [.node 185 [.node 190 [.tok 22 ['A', 'S', 'K'], .tok 2 [' '], .node 200 [.node 212 [.tok 17 ['{'], .node
  250 [.node 251 [.node 261 [.node 279 [.node 211 [.node 343 [.tok 181 ['a', ':', 'k']]]], .tok 2 [' '], .node 296
  [.node 299 [.node 302 [.node 305 [.node 306 [.node 307 [.node 308 [.node 309 [.tok 67 ['a']]]]]]]], .tok 2 [' '],
  .node 301 [.node 303 [.node 304 [.node 279 [.node 203 [.tok 76 ['?', 'x']]]]]]]]]], .tok 18 ['}']]]]]]

theorem askTree_parse : parseSource (fun _ => 1) askText = some (askTree, []) := parse_of_code (by decide +kernel)

/-- `SELECT ?x {?x a` -/
def badText : Text :=
  ['S', 'E', 'L', 'E', 'C', 'T', ' ', '?', 'x', ' ', '{', '?', 'x', ' ', 'a']

/-- The tree of `SELECT ?x {?x a`. -/
def badTree : Green :=
  .node 184 [.node 185 [.node 187 [.node 198 [.tok 8 ['S', 'E', 'L', 'E', 'C', 'T'], .tok 2 [' '], .node 203 [.tok 76
  ['?', 'x']]], .tok 2 [' '], .node 200 [.node 212 [.tok 17 ['{'], .node 250 [.node 251 [.node 261 [.node 279 [.node
  203 [.tok 76 ['?', 'x']]], .tok 2 [' '], .node 296 [.node 299 [.node 302 [.node 305 [.node 306 [.node 307 [.node 308
  [.node 309 [.tok 67 ['a']]]]]]]]]]]]]]]]]

theorem badTree_parse : parseSource (fun _ => 1) badText = some (badTree, [{ start := 15, stop := 15, expected := [18] }]) := parse_of_code (by decide +kernel)

/-- `SELECT * {} VALUES ?x {a:b}` -/
def valsText : Text :=
  ['S', 'E', 'L', 'E', 'C', 'T', ' ', '*', ' ', '{', '}', ' ', 'V', 'A', 'L', 'U', 'E', 'S', ' ', '?', 'x', ' ', '{',
  'a', ':', 'b', '}']

/-- The tree of `SELECT * {} VALUES ?x {a:b}`. -/
def valsTree : Green :=
  .node 184 [.node 185 [.node 187 [.node 198 [.tok 8 ['S', 'E', 'L', 'E', 'C', 'T'], .tok 2 [' '], .tok 14 ['*']],
  .tok 2 [' '], .node 200 [.node 212 [.tok 17 ['{'], .tok 18 ['}']]]], .tok 2 [' '], .node 191 [.tok 33 ['V', 'A',
  'L', 'U', 'E', 'S'], .tok 2 [' '], .node 226 [.node 270 [.node 203 [.tok 76 ['?', 'x']], .tok 2 [' '], .tok 17
  ['{'], .node 272 [.node 211 [.node 343 [.tok 181 ['a', ':', 'b']]]], .tok 18 ['}']]]]]]

theorem valsTree_parse : parseSource (fun _ => 1) valsText = some (valsTree, []) := parse_of_code (by decide +kernel)

/-- `PREFIX a: <u> PREFIX a: <u> PREFIX <v> ASK {}` -/
def nolabText : Text :=
  ['P', 'R', 'E', 'F', 'I', 'X', ' ', 'a', ':', ' ', '<', 'u', '>', ' ', 'P', 'R', 'E', 'F', 'I', 'X', ' ', 'a', ':',
  ' ', '<', 'u', '>', ' ', 'P', 'R', 'E', 'F', 'I', 'X', ' ', '<', 'v', '>', ' ', 'A', 'S', 'K', ' ', '{', '}']

/-- The tree of `PREFIX a: <u> PREFIX a: <u> PREFIX <v> ASK {}`. -/
def nolabTree : Green :=
  .node 184 [.node 185 [.node 186 [.node 195 [.tok 6 ['P', 'R', 'E', 'F', 'I', 'X'], .tok 2 [' '], .tok 7 ['a', ':'],
  .tok 2 [' '], .tok 5 ['<', 'u', '>']], .tok 2 [' '], .node 195 [.tok 6 ['P', 'R', 'E', 'F', 'I', 'X'], .tok 2 [' '],
  .tok 7 ['a', ':'], .tok 2 [' '], .tok 5 ['<', 'u', '>']], .tok 2 [' '], .node 195 [.tok 6 ['P', 'R', 'E', 'F', 'I',
  'X'], .tok 2 [' '], .tok 5 ['<', 'v', '>']]], .tok 2 [' '], .node 190 [.tok 22 ['A', 'S', 'K'], .tok 2 [' '], .node
  200 [.node 212 [.tok 17 ['{'], .tok 18 ['}']]]]]]

theorem nolabTree_parse : parseSource (fun _ => 1) nolabText = some (nolabTree, [{ start := 35, stop := 38, expected := [7] }]) := parse_of_code (by decide +kernel)

/-- `CONSTRUCT WHERE {?s ?p ?o}` -/
def consText : Text :=
  ['C', 'O', 'N', 'S', 'T', 'R', 'U', 'C', 'T', ' ', 'W', 'H', 'E', 'R', 'E', ' ', '{', '?', 's', ' ', '?', 'p', ' ',
  '?', 'o', '}']

/-- The tree of `CONSTRUCT WHERE {?s ?p ?o}`. -/
def consTree : Green :=
  .node 184 [.node 185 [.node 188 [.tok 15 ['C', 'O', 'N', 'S', 'T', 'R', 'U', 'C', 'T'], .tok 2 [' '], .tok 16 ['W',
  'H', 'E', 'R', 'E'], .tok 2 [' '], .tok 17 ['{'], .node 206 [.node 249 [.node 279 [.node 203 [.tok 76 ['?', 's']]],
  .tok 2 [' '], .node 289 [.node 292 [.node 207 [.node 203 [.tok 76 ['?', 'p']]]], .tok 2 [' '], .node 293 [.node 294
  [.node 295 [.node 279 [.node 203 [.tok 76 ['?', 'o']]]]]]]]], .tok 18 ['}']]]]

theorem consTree_parse : parseSource (fun _ => 1) consText = some (consTree, []) := parse_of_code (by decide +kernel)

/-- `SELECT * {{?s ?p ?o} VALUES ?x {<a>}}` -/
def deepText : Text :=
  ['S', 'E', 'L', 'E', 'C', 'T', ' ', '*', ' ', '{', '{', '?', 's', ' ', '?', 'p', ' ', '?', 'o', '}', ' ', 'V', 'A',
  'L', 'U', 'E', 'S', ' ', '?', 'x', ' ', '{', '<', 'a', '>', '}', '}']

/-- The tree of `SELECT * {{?s ?p ?o} VALUES ?x {<a>}}`. -/
def deepTree : Green :=
  .node 184 [.node 185 [.node 187 [.node 198 [.tok 8 ['S', 'E', 'L', 'E', 'C', 'T'], .tok 2 [' '], .tok 14 ['*']],
  .tok 2 [' '], .node 200 [.node 212 [.tok 17 ['{'], .node 250 [.node 260 [.node 262 [.node 212 [.tok 17 ['{'], .node
  250 [.node 251 [.node 261 [.node 279 [.node 203 [.tok 76 ['?', 's']]], .tok 2 [' '], .node 296 [.node 300 [.node 203
  [.tok 76 ['?', 'p']]], .tok 2 [' '], .node 301 [.node 303 [.node 304 [.node 279 [.node 203 [.tok 76 ['?',
  'o']]]]]]]]]], .tok 18 ['}']]]], .tok 2 [' '], .node 260 [.node 269 [.tok 33 ['V', 'A', 'L', 'U', 'E', 'S'], .tok 2
  [' '], .node 226 [.node 270 [.node 203 [.tok 76 ['?', 'x']], .tok 2 [' '], .tok 17 ['{'], .node 272 [.node 211 [.tok
  5 ['<', 'a', '>']]], .tok 18 ['}']]]]]], .tok 18 ['}']]]]]]

theorem deepTree_parse : parseSource (fun _ => 1) deepText = some (deepTree, []) := parse_of_code (by decide +kernel)

/-- `SELECT * {?s ?p ?o; \n}` -/
def ontypeText : Text :=
  ['S', 'E', 'L', 'E', 'C', 'T', ' ', '*', ' ', '{', '?', 's', ' ', '?', 'p', ' ', '?', 'o', ';', ' ', '\n', '}']

/-- The tree of `SELECT * {?s ?p ?o; \n}`. -/
def ontypeTree : Green :=
  .node 184 [.node 185 [.node 187 [.node 198 [.tok 8 ['S', 'E', 'L', 'E', 'C', 'T'], .tok 2 [' '], .tok 14 ['*']],
  .tok 2 [' '], .node 200 [.node 212 [.tok 17 ['{'], .node 250 [.node 251 [.node 261 [.node 279 [.node 203 [.tok 76
  ['?', 's']]], .tok 2 [' '], .node 296 [.node 300 [.node 203 [.tok 76 ['?', 'p']]], .tok 2 [' '], .node 301 [.node
  303 [.node 304 [.node 279 [.node 203 [.tok 76 ['?', 'o']]]]]], .tok 34 [';']]]]], .tok 2 [' ', '\n'], .tok 18
  ['}']]]]]]

theorem ontypeTree_parse : parseSource (fun _ => 1) ontypeText = some (ontypeTree, []) := parse_of_code (by decide +kernel)

/-- `SELECT * {?s ?p [\n], """\n"""}` -/
def onstrText : Text :=
  ['S', 'E', 'L', 'E', 'C', 'T', ' ', '*', ' ', '{', '?', 's', ' ', '?', 'p', ' ', '[', '\n', ']', ',', ' ', '\"',
  '\"', '\"', '\n', '\"', '\"', '\"', '}']

/-- The tree of `SELECT * {?s ?p [\n], """\n"""}`. -/
def onstrTree : Green :=
  .node 184 [.node 185 [.node 187 [.node 198 [.tok 8 ['S', 'E', 'L', 'E', 'C', 'T'], .tok 2 [' '], .tok 14 ['*']],
  .tok 2 [' '], .node 200 [.node 212 [.tok 17 ['{'], .node 250 [.node 251 [.node 261 [.node 279 [.node 203 [.tok 76
  ['?', 's']]], .tok 2 [' '], .node 296 [.node 300 [.node 203 [.tok 76 ['?', 'p']]], .tok 2 [' '], .node 301 [.node
  303 [.node 304 [.node 279 [.node 319 [.tok 183 ['[', '\n', ']']]]]], .tok 66 [','], .tok 2 [' '], .node 303 [.node
  304 [.node 279 [.node 273 [.node 341 [.tok 180 ['\"', '\"', '\"', '\n', '\"', '\"', '\"']]]]]]]]]]], .tok 18
  ['}']]]]]]

theorem onstrTree_parse : parseSource (fun _ => 1) onstrText = some (onstrTree, []) := parse_of_code (by decide +kernel)

/-- `# a\nselect * {?s ?p +1 # b\n}\n# c` -/
def fmtText : Text :=
  ['#', ' ', 'a', '\n', 's', 'e', 'l', 'e', 'c', 't', ' ', '*', ' ', '{', '?', 's', ' ', '?', 'p', ' ', '+', '1', ' ',
  '#', ' ', 'b', '\n', '}', '\n', '#', ' ', 'c']

/-- The tree of `# a\nselect * {?s ?p +1 # b\n}\n# c`. -/
def fmtTree : Green :=
  .node 184 [.tok 3 ['#', ' ', 'a'], .tok 2 ['\n'], .node 185 [.node 187 [.node 198 [.tok 8 ['s', 'e', 'l', 'e', 'c',
  't'], .tok 2 [' '], .tok 14 ['*']], .tok 2 [' '], .node 200 [.node 212 [.tok 17 ['{'], .node 250 [.node 251 [.node
  261 [.node 279 [.node 203 [.tok 76 ['?', 's']]], .tok 2 [' '], .node 296 [.node 300 [.node 203 [.tok 76 ['?',
  'p']]], .tok 2 [' '], .node 301 [.node 303 [.node 304 [.node 279 [.node 274 [.node 327 [.tok 169 ['+',
  '1']]]]]]]]]]], .tok 2 [' '], .tok 3 ['#', ' ', 'b'], .tok 2 ['\n'], .tok 18 ['}']]]]], .tok 2 ['\n'], .tok 3 ['#',
  ' ', 'c']]

theorem fmtTree_parse : parseSource (fun _ => 1) fmtText = some (fmtTree, []) := parse_of_code (by decide +kernel)

/-- `ASK {GRAPH ?g # c\n{}}` -/
def fmtPanicText : Text :=
  ['A', 'S', 'K', ' ', '{', 'G', 'R', 'A', 'P', 'H', ' ', '?', 'g', ' ', '#', ' ', 'c', '\n', '{', '}', '}']

/-- The tree of `ASK {GRAPH ?g # c\n{}}`. -/
def fmtPanicTree : Green :=
  .node 184 [.node 185 [.node 190 [.tok 22 ['A', 'S', 'K'], .tok 2 [' '], .node 200 [.node 212 [.tok 17 ['{'], .node
  250 [.node 260 [.node 265 [.tok 54 ['G', 'R', 'A', 'P', 'H'], .tok 2 [' '], .node 207 [.node 203 [.tok 76 ['?',
  'g']]], .tok 2 [' '], .tok 3 ['#', ' ', 'c'], .tok 2 ['\n'], .node 212 [.tok 17 ['{'], .tok 18 ['}']]]]], .tok 18
  ['}']]]]]]

theorem fmtPanicTree_parse : parseSource (fun _ => 1) fmtPanicText = some (fmtPanicTree, []) := parse_of_code (by decide +kernel)

/-- `CONSTRUCT FROM p:g WHERE {}` -/
def fmtGlueText : Text :=
  ['C', 'O', 'N', 'S', 'T', 'R', 'U', 'C', 'T', ' ', 'F', 'R', 'O', 'M', ' ', 'p', ':', 'g', ' ', 'W', 'H', 'E', 'R',
  'E', ' ', '{', '}']

/-- The tree of `CONSTRUCT FROM p:g WHERE {}`. -/
def fmtGlueTree : Green :=
  .node 184 [.node 185 [.node 188 [.tok 15 ['C', 'O', 'N', 'S', 'T', 'R', 'U', 'C', 'T'], .tok 2 [' '], .node 199
  [.tok 23 ['F', 'R', 'O', 'M'], .tok 2 [' '], .node 208 [.node 210 [.node 211 [.node 343 [.tok 181 ['p', ':',
  'g']]]]]], .tok 2 [' '], .tok 16 ['W', 'H', 'E', 'R', 'E'], .tok 2 [' '], .tok 17 ['{'], .tok 18 ['}']]]]

theorem fmtGlueTree_parse : parseSource (fun _ => 1) fmtGlueText = some (fmtGlueTree, []) := parse_of_code (by decide +kernel)

/-- `# a\nselect ?x{?s ?p 'a'@en,[ ];?q -1 # b\n}limit 5` -/
def fqText : Text :=
  ['#', ' ', 'a', '\n', 's', 'e', 'l', 'e', 'c', 't', ' ', '?', 'x', '{', '?', 's', ' ', '?', 'p', ' ', '\'', 'a',
  '\'', '@', 'e', 'n', ',', '[', ' ', ']', ';', '?', 'q', ' ', '-', '1', ' ', '#', ' ', 'b', '\n', '}', 'l', 'i', 'm',
  'i', 't', ' ', '5']

/-- The tree of `# a\nselect ?x{?s ?p 'a'@en,[ ];?q -1 # b\n}limit 5`. -/
def fqTree : Green :=
  .node 184 [.tok 3 ['#', ' ', 'a'], .tok 2 ['\n'], .node 185 [.node 187 [.node 198 [.tok 8 ['s', 'e', 'l', 'e', 'c',
  't'], .tok 2 [' '], .node 203 [.tok 76 ['?', 'x']]], .node 200 [.node 212 [.tok 17 ['{'], .node 250 [.node 251
  [.node 261 [.node 279 [.node 203 [.tok 76 ['?', 's']]], .tok 2 [' '], .node 296 [.node 300 [.node 203 [.tok 76 ['?',
  'p']]], .tok 2 [' '], .node 301 [.node 303 [.node 304 [.node 279 [.node 273 [.node 341 [.tok 177 ['\'', 'a', '\'']],
  .tok 78 ['@', 'e', 'n']]]]], .tok 66 [','], .node 303 [.node 304 [.node 279 [.node 319 [.tok 183 ['[', ' ',
  ']']]]]]], .tok 34 [';'], .node 300 [.node 203 [.tok 76 ['?', 'q']]], .tok 2 [' '], .node 301 [.node 303 [.node 304
  [.node 279 [.node 274 [.node 328 [.tok 172 ['-', '1']]]]]]]]]]], .tok 2 [' '], .tok 3 ['#', ' ', 'b'], .tok 2
  ['\n'], .tok 18 ['}']]], .node 201 [.node 216 [.node 224 [.tok 31 ['l', 'i', 'm', 'i', 't'], .tok 2 [' '], .tok 166
  ['5']]]]]]]

theorem fqTree_parse : parseSource (fun _ => 1) fqText = some (fqTree, []) := parse_of_code (by decide +kernel)

/-- `ASK {FILTER(1 -5)}` -/
def fqSignText : Text :=
  ['A', 'S', 'K', ' ', '{', 'F', 'I', 'L', 'T', 'E', 'R', '(', '1', ' ', '-', '5', ')', '}']

/-- The tree of `ASK {FILTER(1 -5)}`. -/
def fqSignTree : Green :=
  .node 184 [.node 185 [.node 190 [.tok 22 ['A', 'S', 'K'], .tok 2 [' '], .node 200 [.node 212 [.tok 17 ['{'], .node
  250 [.node 260 [.node 267 [.tok 65 ['F', 'I', 'L', 'T', 'E', 'R'], .node 221 [.node 223 [.tok 11 ['('], .node 204
  [.node 320 [.node 321 [.node 322 [.node 323 [.node 324 [.node 325 [.node 326 [.node 329 [.node 330 [.node 274 [.node
  342 [.tok 166 ['1']]]]]], .tok 2 [' '], .node 328 [.tok 172 ['-', '5']]]]]]]]], .tok 13 [')']]]]]], .tok 18
  ['}']]]]]]

theorem fqSignTree_parse : parseSource (fun _ => 1) fqSignText = some (fqSignTree, []) := parse_of_code (by decide +kernel)

/-- `ASK {FILTER <f>(DISTINCT a:b)}` -/
def fqArgText : Text :=
  ['A', 'S', 'K', ' ', '{', 'F', 'I', 'L', 'T', 'E', 'R', ' ', '<', 'f', '>', '(', 'D', 'I', 'S', 'T', 'I', 'N', 'C',
  'T', ' ', 'a', ':', 'b', ')', '}']

/-- The tree of `ASK {FILTER <f>(DISTINCT a:b)}`. -/
def fqArgTree : Green :=
  .node 184 [.node 185 [.node 190 [.tok 22 ['A', 'S', 'K'], .tok 2 [' '], .node 200 [.node 212 [.tok 17 ['{'], .node
  250 [.node 260 [.node 267 [.tok 65 ['F', 'I', 'L', 'T', 'E', 'R'], .tok 2 [' '], .node 221 [.node 219 [.node 211
  [.tok 5 ['<', 'f', '>']], .node 276 [.tok 11 ['('], .tok 9 ['D', 'I', 'S', 'T', 'I', 'N', 'C', 'T'], .tok 2 [' '],
  .node 204 [.node 320 [.node 321 [.node 322 [.node 323 [.node 324 [.node 325 [.node 326 [.node 329 [.node 330 [.node
  334 [.node 211 [.node 343 [.tok 181 ['a', ':', 'b']]]]]]]]]]]]]], .tok 13 [')']]]]]]], .tok 18 ['}']]]]]]

theorem fqArgTree_parse : parseSource (fun _ => 1) fqArgText = some (fqArgTree, []) := parse_of_code (by decide +kernel)

/-- `ASK {{SELECT * {} ORDER BY ?x VALUES ?y {}}}` -/
def fqValsText : Text :=
  ['A', 'S', 'K', ' ', '{', '{', 'S', 'E', 'L', 'E', 'C', 'T', ' ', '*', ' ', '{', '}', ' ', 'O', 'R', 'D', 'E', 'R',
  ' ', 'B', 'Y', ' ', '?', 'x', ' ', 'V', 'A', 'L', 'U', 'E', 'S', ' ', '?', 'y', ' ', '{', '}', '}', '}']

/-- The tree of `ASK {{SELECT * {} ORDER BY ?x VALUES ?y {}}}`. -/
def fqValsTree : Green :=
  .node 184 [.node 185 [.node 190 [.tok 22 ['A', 'S', 'K'], .tok 2 [' '], .node 200 [.node 212 [.tok 17 ['{'], .node
  250 [.node 260 [.node 262 [.node 212 [.tok 17 ['{'], .node 202 [.node 198 [.tok 8 ['S', 'E', 'L', 'E', 'C', 'T'],
  .tok 2 [' '], .tok 14 ['*']], .tok 2 [' '], .node 200 [.node 212 [.tok 17 ['{'], .tok 18 ['}']]], .tok 2 [' '],
  .node 201 [.node 215 [.tok 28 ['O', 'R', 'D', 'E', 'R'], .tok 2 [' '], .tok 26 ['B', 'Y'], .tok 2 [' '], .node 222
  [.node 203 [.tok 76 ['?', 'x']]]]], .tok 2 [' '], .node 191 [.tok 33 ['V', 'A', 'L', 'U', 'E', 'S'], .tok 2 [' '],
  .node 226 [.node 270 [.node 203 [.tok 76 ['?', 'y']], .tok 2 [' '], .tok 17 ['{'], .tok 18 ['}']]]]], .tok 18
  ['}']]]]], .tok 18 ['}']]]]]]

theorem fqValsTree_parse : parseSource (fun _ => 1) fqValsText = some (fqValsTree, []) := parse_of_code (by decide +kernel)

/-- `SELECT * {{SELECT * {} GROUP BY ?x}{SELECT * {} GROUP BY ?y VALUES ?z {}}} GROUP BY ?a` -/
def starText : Text :=
  ['S', 'E', 'L', 'E', 'C', 'T', ' ', '*', ' ', '{', '{', 'S', 'E', 'L', 'E', 'C', 'T', ' ', '*', ' ', '{', '}', ' ',
  'G', 'R', 'O', 'U', 'P', ' ', 'B', 'Y', ' ', '?', 'x', '}', '{', 'S', 'E', 'L', 'E', 'C', 'T', ' ', '*', ' ', '{',
  '}', ' ', 'G', 'R', 'O', 'U', 'P', ' ', 'B', 'Y', ' ', '?', 'y', ' ', 'V', 'A', 'L', 'U', 'E', 'S', ' ', '?', 'z',
  ' ', '{', '}', '}', '}', ' ', 'G', 'R', 'O', 'U', 'P', ' ', 'B', 'Y', ' ', '?', 'a']

/-- The tree of `SELECT * {{SELECT * {} GROUP BY ?x}{SELECT * {} GROUP BY ?y VALUES ?z {}}} GROUP BY ?a`. -/
def starTree : Green :=
  .node 184 [.node 185 [.node 187 [.node 198 [.tok 8 ['S', 'E', 'L', 'E', 'C', 'T'], .tok 2 [' '], .tok 14 ['*']],
  .tok 2 [' '], .node 200 [.node 212 [.tok 17 ['{'], .node 250 [.node 260 [.node 262 [.node 212 [.tok 17 ['{'], .node
  202 [.node 198 [.tok 8 ['S', 'E', 'L', 'E', 'C', 'T'], .tok 2 [' '], .tok 14 ['*']], .tok 2 [' '], .node 200 [.node
  212 [.tok 17 ['{'], .tok 18 ['}']]], .tok 2 [' '], .node 201 [.node 213 [.tok 25 ['G', 'R', 'O', 'U', 'P'], .tok 2
  [' '], .tok 26 ['B', 'Y'], .tok 2 [' '], .node 217 [.node 203 [.tok 76 ['?', 'x']]]]]], .tok 18 ['}']]]], .node 260
  [.node 262 [.node 212 [.tok 17 ['{'], .node 202 [.node 198 [.tok 8 ['S', 'E', 'L', 'E', 'C', 'T'], .tok 2 [' '],
  .tok 14 ['*']], .tok 2 [' '], .node 200 [.node 212 [.tok 17 ['{'], .tok 18 ['}']]], .tok 2 [' '], .node 201 [.node
  213 [.tok 25 ['G', 'R', 'O', 'U', 'P'], .tok 2 [' '], .tok 26 ['B', 'Y'], .tok 2 [' '], .node 217 [.node 203 [.tok
  76 ['?', 'y']]]]], .tok 2 [' '], .node 191 [.tok 33 ['V', 'A', 'L', 'U', 'E', 'S'], .tok 2 [' '], .node 226 [.node
  270 [.node 203 [.tok 76 ['?', 'z']], .tok 2 [' '], .tok 17 ['{'], .tok 18 ['}']]]]], .tok 18 ['}']]]]], .tok 18
  ['}']]], .tok 2 [' '], .node 201 [.node 213 [.tok 25 ['G', 'R', 'O', 'U', 'P'], .tok 2 [' '], .tok 26 ['B', 'Y'],
  .tok 2 [' '], .node 217 [.node 203 [.tok 76 ['?', 'a']]]]]]]]

theorem starTree_parse : parseSource (fun _ => 1) starText = some (starTree, []) := parse_of_code (by decide +kernel)

/-- `SELECT ?a ?x (?b+COUNT(?d) AS ?c) (?c AS ?e) (?f AS ?f) {?c ?p $x} GROUP BY ?x (?b)` -/
def grpText : Text :=
  ['S', 'E', 'L', 'E', 'C', 'T', ' ', '?', 'a', ' ', '?', 'x', ' ', '(', '?', 'b', '+', 'C', 'O', 'U', 'N', 'T', '(',
  '?', 'd', ')', ' ', 'A', 'S', ' ', '?', 'c', ')', ' ', '(', '?', 'c', ' ', 'A', 'S', ' ', '?', 'e', ')', ' ', '(',
  '?', 'f', ' ', 'A', 'S', ' ', '?', 'f', ')', ' ', '{', '?', 'c', ' ', '?', 'p', ' ', '$', 'x', '}', ' ', 'G', 'R',
  'O', 'U', 'P', ' ', 'B', 'Y', ' ', '?', 'x', ' ', '(', '?', 'b', ')']

/-- The tree of `SELECT ?a ?x (?b+COUNT(?d) AS ?c) (?c AS ?e) (?f AS ?f) {?c ?p $x} GROUP BY ?x (?b)`. -/
def grpTree : Green :=
  .node 184 [.node 185 [.node 187 [.node 198 [.tok 8 ['S', 'E', 'L', 'E', 'C', 'T'], .tok 2 [' '], .node 203 [.tok 76
  ['?', 'a']], .tok 2 [' '], .node 203 [.tok 76 ['?', 'x']], .tok 2 [' '], .tok 11 ['('], .node 204 [.node 320 [.node
  321 [.node 322 [.node 323 [.node 324 [.node 325 [.node 326 [.node 329 [.node 330 [.node 203 [.tok 76 ['?', 'b']]]]],
  .tok 72 ['+'], .node 326 [.node 329 [.node 330 [.node 218 [.node 335 [.tok 147 ['C', 'O', 'U', 'N', 'T'], .tok 11
  ['('], .node 204 [.node 320 [.node 321 [.node 322 [.node 323 [.node 324 [.node 325 [.node 326 [.node 329 [.node 330
  [.node 203 [.tok 76 ['?', 'd']]]]]]]]]]]], .tok 13 [')']]]]]]]]]]]]], .tok 2 [' '], .tok 12 ['A', 'S'], .tok 2
  [' '], .node 203 [.tok 76 ['?', 'c']], .tok 13 [')'], .tok 2 [' '], .tok 11 ['('], .node 204 [.node 320 [.node 321
  [.node 322 [.node 323 [.node 324 [.node 325 [.node 326 [.node 329 [.node 330 [.node 203 [.tok 76 ['?',
  'c']]]]]]]]]]]], .tok 2 [' '], .tok 12 ['A', 'S'], .tok 2 [' '], .node 203 [.tok 76 ['?', 'e']], .tok 13 [')'], .tok
  2 [' '], .tok 11 ['('], .node 204 [.node 320 [.node 321 [.node 322 [.node 323 [.node 324 [.node 325 [.node 326
  [.node 329 [.node 330 [.node 203 [.tok 76 ['?', 'f']]]]]]]]]]]], .tok 2 [' '], .tok 12 ['A', 'S'], .tok 2 [' '],
  .node 203 [.tok 76 ['?', 'f']], .tok 13 [')']], .tok 2 [' '], .node 200 [.node 212 [.tok 17 ['{'], .node 250 [.node
  251 [.node 261 [.node 279 [.node 203 [.tok 76 ['?', 'c']]], .tok 2 [' '], .node 296 [.node 300 [.node 203 [.tok 76
  ['?', 'p']]], .tok 2 [' '], .node 301 [.node 303 [.node 304 [.node 279 [.node 203 [.tok 77 ['$', 'x']]]]]]]]]], .tok
  18 ['}']]], .tok 2 [' '], .node 201 [.node 213 [.tok 25 ['G', 'R', 'O', 'U', 'P'], .tok 2 [' '], .tok 26 ['B', 'Y'],
  .tok 2 [' '], .node 217 [.node 203 [.tok 76 ['?', 'x']]], .tok 2 [' '], .node 217 [.tok 11 ['('], .node 204 [.node
  320 [.node 321 [.node 322 [.node 323 [.node 324 [.node 325 [.node 326 [.node 329 [.node 330 [.node 203 [.tok 76
  ['?', 'b']]]]]]]]]]]], .tok 13 [')']]]]]]]

theorem grpTree_parse : parseSource (fun _ => 1) grpText = some (grpTree, []) := parse_of_code (by decide +kernel)

/-- `SELECT ?x {?x WHERE ?y}` -/
def midText : Text :=
  ['S', 'E', 'L', 'E', 'C', 'T', ' ', '?', 'x', ' ', '{', '?', 'x', ' ', 'W', 'H', 'E', 'R', 'E', ' ', '?', 'y', '}']

/-- The tree of `SELECT ?x {?x WHERE ?y}`. -/
def midTree : Green :=
  .node 184 [.node 185 [.node 187 [.node 198 [.tok 8 ['S', 'E', 'L', 'E', 'C', 'T'], .tok 2 [' '], .node 203 [.tok 76
  ['?', 'x']]], .tok 2 [' '], .node 200 [.node 212 [.tok 17 ['{'], .node 250 [.node 251 [.node 261 [.node 279 [.node
  203 [.tok 76 ['?', 'x']]]]]], .tok 2 [' '], .node 1 [.tok 16 ['W', 'H', 'E', 'R', 'E'], .tok 2 [' '], .tok 76 ['?',
  'y']], .tok 18 ['}']]]]]]

theorem midTree_parse : parseSource (fun _ => 1) midText = some (midTree, [{ start := 14, stop := 19, expected := [5, 7, 11, 67, 70, 73, 181, 76, 77] }, { start := 14, stop := 19, expected := [5, 7, 177, 178, 166, 61, 88, 76, 77, 167, 168, 169, 170, 171, 172, 173, 174, 175, 176, 179, 180, 181, 182, 183, 11, 74, 87] }, { start := 14, stop := 19, expected := [18] }]) := parse_of_code (by decide +kernel)

/-- `ASK {} ASK {}` -/
def tailText : Text :=
  ['A', 'S', 'K', ' ', '{', '}', ' ', 'A', 'S', 'K', ' ', '{', '}']

/-- The tree of `ASK {} ASK {}`. -/
def tailTree : Green :=
  .node 184 [.node 185 [.node 190 [.tok 22 ['A', 'S', 'K'], .tok 2 [' '], .node 200 [.node 212 [.tok 17 ['{'], .tok 18
  ['}']]]]], .tok 2 [' '], .node 1 [.tok 22 ['A', 'S', 'K'], .tok 2 [' '], .tok 17 ['{'], .tok 18 ['}']]]

theorem tailTree_parse : parseSource (fun _ => 1) tailText = some (tailTree, []) := parse_of_code (by decide +kernel)

/-- `ASK { ?s a 1 . ?x a [a] . ?s <b> 3 OPTIONAL { ?s a 4 } ?s <c> 5 . ?x a 2 }` -/
def shareText : Text :=
  ['A', 'S', 'K', ' ', '{', ' ', '?', 's', ' ', 'a', ' ', '1', ' ', '.', ' ', '?', 'x', ' ', 'a', ' ', '[', 'a', ']',
  ' ', '.', ' ', '?', 's', ' ', '<', 'b', '>', ' ', '3', ' ', 'O', 'P', 'T', 'I', 'O', 'N', 'A', 'L', ' ', '{', ' ',
  '?', 's', ' ', 'a', ' ', '4', ' ', '}', ' ', '?', 's', ' ', '<', 'c', '>', ' ', '5', ' ', '.', ' ', '?', 'x', ' ',
  'a', ' ', '2', ' ', '}']

/-- The tree of `ASK { ?s a 1 . ?x a [a] . ?s <b> 3 OPTIONAL { ?s a 4 } ?s <c> 5 . ?x a 2 }`. -/
def shareTree : Green :=
  .node 184 [.node 185 [.node 190 [.tok 22 ['A', 'S', 'K'], .tok 2 [' '], .node 200 [.node 212 [.tok 17 ['{'], .tok 2
  [' '], .node 250 [.node 251 [.node 261 [.node 279 [.node 203 [.tok 76 ['?', 's']]], .tok 2 [' '], .node 296 [.node
  299 [.node 302 [.node 305 [.node 306 [.node 307 [.node 308 [.node 309 [.tok 67 ['a']]]]]]]], .tok 2 [' '], .node 301
  [.node 303 [.node 304 [.node 279 [.node 274 [.node 342 [.tok 166 ['1']]]]]]]]], .tok 2 [' '], .tok 56 ['.'], .tok 2
  [' '], .node 251 [.node 261 [.node 279 [.node 203 [.tok 76 ['?', 'x']]], .tok 2 [' '], .node 296 [.node 299 [.node
  302 [.node 305 [.node 306 [.node 307 [.node 308 [.node 309 [.tok 67 ['a']]]]]]]], .tok 2 [' '], .node 301 [.node 303
  [.node 304 [.node 297 [.node 317 [.tok 74 ['['], .node 296 [.node 299 [.node 302 [.node 305 [.node 306 [.node 307
  [.node 308 [.node 309 [.tok 67 ['a']]]]]]]], .node 301 [.node 303 [.node 304 [.node 1 [.tok 75 [']']]]]]]]]]]]]],
  .tok 2 [' '], .tok 56 ['.'], .tok 2 [' '], .node 251 [.node 261 [.node 279 [.node 203 [.tok 76 ['?', 's']]], .tok 2
  [' '], .node 296 [.node 299 [.node 302 [.node 305 [.node 306 [.node 307 [.node 308 [.node 309 [.node 211 [.tok 5
  ['<', 'b', '>']]]]]]]]], .tok 2 [' '], .node 301 [.node 303 [.node 304 [.node 279 [.node 274 [.node 342 [.tok 166
  ['3']]]]]]]]]]]], .tok 2 [' '], .node 260 [.node 263 [.tok 58 ['O', 'P', 'T', 'I', 'O', 'N', 'A', 'L'], .tok 2
  [' '], .node 212 [.tok 17 ['{'], .tok 2 [' '], .node 250 [.node 251 [.node 261 [.node 279 [.node 203 [.tok 76 ['?',
  's']]], .tok 2 [' '], .node 296 [.node 299 [.node 302 [.node 305 [.node 306 [.node 307 [.node 308 [.node 309 [.tok
  67 ['a']]]]]]]], .tok 2 [' '], .node 301 [.node 303 [.node 304 [.node 279 [.node 274 [.node 342 [.tok 166
  ['4']]]]]]]]]]], .tok 2 [' '], .tok 18 ['}']]]], .tok 2 [' '], .node 251 [.node 261 [.node 279 [.node 203 [.tok 76
  ['?', 's']]], .tok 2 [' '], .node 296 [.node 299 [.node 302 [.node 305 [.node 306 [.node 307 [.node 308 [.node 309
  [.node 211 [.tok 5 ['<', 'c', '>']]]]]]]]], .tok 2 [' '], .node 301 [.node 303 [.node 304 [.node 279 [.node 274
  [.node 342 [.tok 166 ['5']]]]]]]]], .tok 2 [' '], .tok 56 ['.'], .tok 2 [' '], .node 251 [.node 261 [.node 279
  [.node 203 [.tok 76 ['?', 'x']]], .tok 2 [' '], .node 296 [.node 299 [.node 302 [.node 305 [.node 306 [.node 307
  [.node 308 [.node 309 [.tok 67 ['a']]]]]]]], .tok 2 [' '], .node 301 [.node 303 [.node 304 [.node 279 [.node 274
  [.node 342 [.tok 166 ['2']]]]]]]]]]]], .tok 2 [' '], .tok 18 ['}']]]]]]

theorem shareTree_parse : parseSource (fun _ => 1) shareText = some (shareTree, [{ start := 22, stop := 23, expected := [5, 7, 177, 178, 166, 61, 88, 76, 77, 167, 168, 169, 170, 171, 172, 173, 174, 175, 176, 179, 180, 181, 182, 183, 11, 74, 87] }, { start := 24, stop := 25, expected := [75] }]) := parse_of_code (by decide +kernel)

/-- `SELECT * { <e/a> a:b <f> . ?x <e/c }` -/
def uriText : Text :=
  ['S', 'E', 'L', 'E', 'C', 'T', ' ', '*', ' ', '{', ' ', '<', 'e', '/', 'a', '>', ' ', 'a', ':', 'b', ' ', '<', 'f',
  '>', ' ', '.', ' ', '?', 'x', ' ', '<', 'e', '/', 'c', ' ', '}']

/-- The tree of `SELECT * { <e/a> a:b <f> . ?x <e/c }`. -/
def uriTree : Green :=
  .node 184 [.node 185 [.node 187 [.node 198 [.tok 8 ['S', 'E', 'L', 'E', 'C', 'T'], .tok 2 [' '], .tok 14 ['*']],
  .tok 2 [' '], .node 200 [.node 212 [.tok 17 ['{'], .tok 2 [' '], .node 250 [.node 251 [.node 261 [.node 279 [.node
  211 [.tok 5 ['<', 'e', '/', 'a', '>']]], .tok 2 [' '], .node 296 [.node 299 [.node 302 [.node 305 [.node 306 [.node
  307 [.node 308 [.node 309 [.node 211 [.node 343 [.tok 181 ['a', ':', 'b']]]]]]]]]], .tok 2 [' '], .node 301 [.node
  303 [.node 304 [.node 279 [.node 211 [.tok 5 ['<', 'f', '>']]]]]]]], .tok 2 [' '], .tok 56 ['.'], .tok 2 [' '],
  .node 251 [.node 261 [.node 279 [.node 203 [.tok 76 ['?', 'x']]], .tok 2 [' '], .node 296 [.node 1 [.tok 83 ['<']],
  .node 301 [.node 303 [.node 304 [.node 1 [.tok 1 ['e']]]]]]]]]], .node 1 [.tok 69 ['/'], .tok 1 ['c']], .tok 2
  [' '], .tok 18 ['}']]]]]]

theorem uriTree_parse : parseSource (fun _ => 1) uriText = some (uriTree, [{ start := 30, stop := 31, expected := [5, 7, 11, 67, 70, 73, 181, 76, 77] }, { start := 31, stop := 32, expected := [5, 7, 177, 178, 166, 61, 88, 76, 77, 167, 168, 169, 170, 171, 172, 173, 174, 175, 176, 179, 180, 181, 182, 183, 11, 74, 87] }, { start := 32, stop := 33, expected := [18] }]) := parse_of_code (by decide +kernel)

end Verif.Features
