import Verif.Grammar.Sparql
import Verif.Grammar.Tree
/-!
# `parse_text`

Models `crates/sparql-parser/src/parser/mod.rs` L39-48, L339-359 and `crates/sparql-parser/src/lib.rs` (`parse`).

Simplification: the lexer (generated by logos from the regular expressions of `syntax_kind/generated.rs`) is a parameter: a
parse starts from the list of lexed tokens. That the tokens tile the text (the lexer yields the slices between its
successive positions, without skip rules) is a hypothesis where it matters.
-/
namespace Verif.Grammar

/-- `parse_text` (parser/mod.rs L39-48) after `lex`: parse the non-trivia tokens, drop empty nodes, build the tree.
`none` is a panic. -/
def parseText (e : Entry) (tokens : List Tok) : Option (Green × List SyntaxErr) :=
  match parseTokens e ((tokens.filter (fun t => !t.trivia)).map (·.kind)) with
  | none => none
  | some ev =>
    match removeEmptyNodes ev with
    | none => none
    | some ev => buildTree tokens ev

/-- The keywords that make an operation a query (parser/mod.rs L342-344). -/
def queryKeywords : List Kind := [K.SELECT, K.CONSTRUCT, K.ASK, K.DESCRIBE]

/-- The keywords that make an operation an update (parser/mod.rs L345-356). -/
def updateKeywords : List Kind := [K.LOAD, K.CLEAR, K.DROP, K.CREATE, K.ADD, K.MOVE, K.COPY, K.INSERT, K.INSERT_DATA,
  K.DELETE, K.DELETE_DATA, K.DELETE_WHERE]

/-- `guess_operation_type` (parser/mod.rs L339-359). -/
def guessOperationType (tokens : List Tok) : Option Entry :=
  tokens.findSome? (fun t =>
    if t.kind ∈ queryKeywords then some .query
    else if t.kind ∈ updateKeywords then some .update
    else none)

/-- `parse` (crates/sparql-parser/src/lib.rs L25-30): the entry rule is guessed from the tokens. -/
def parseDocument (tokens : List Tok) : Option (Green × List SyntaxErr) :=
  match guessOperationType tokens with
  | some .query | none => parseText .query tokens
  | some .update => parseText .update tokens

end Verif.Grammar
