-- GENERATED by /verif/tools/gen_semtok.py from /repo; do not edit.
import Verif.Grammar.Kinds
/-!
# Which token kinds are highlighted, and as what (`semantic_tokens/mod.rs` L14-23, L85-264)
-/
namespace Verif.Features
open Verif.Grammar

/-- Kinds highlighted as Keyword (semantic_tokens/mod.rs L87-143). -/
def kindsKeyword : List Kind := [
  K.SELECT, K.ASK, K.DESCRIBE, K.CONSTRUCT, K.WHERE, K.PREFIX, K.VERSION, K.BASE, K.ORDER, K.BY, K.AS, K.GROUP,
  K.HAVING, K.DISTINCT, K.REDUCED, K.FROM, K.NAMED, K.LIMIT, K.OFFSET, K.VALUES, K.UNDEF, K.OPTIONAL, K.UNION,
  K.MINUS, K.GRAPH, K.SERVICE, K.SILENT, K.BIND, K.ASC, K.DESC, K.NOT, K.IN, K.EXISTS, K.INSERT, K.DELETE,
  K.DATA, K.LOAD, K.CLEAR, K.DROP, K.CREATE, K.ADD, K.MOVE, K.COPY, K.WITH, K.USING, K.INTO, K.TO, K.DEFAULT,
  K.ALL, K.INSERT_DATA, K.DELETE_DATA, K.DELETE_WHERE, K.SEPARATOR, K.a, K.True, K.False, K.NIL]

/-- Kinds highlighted as Function (semantic_tokens/mod.rs L146-215). -/
def kindsFunction : List Kind := [
  K.FILTER, K.STR, K.LANG, K.LANGMATCHES, K.DATATYPE, K.BOUND, K.IRI, K.URI, K.BNODE, K.RAND, K.ABS, K.CEIL,
  K.FLOOR, K.ROUND, K.CONCAT, K.STRLEN, K.UCASE, K.LCASE, K.ENCODE_FOR_URI, K.CONTAINS, K.STRSTARTS, K.STRENDS,
  K.STRBEFORE, K.STRAFTER, K.YEAR, K.MONTH, K.DAY, K.HOURS, K.MINUTES, K.SECONDS, K.TIMEZONE, K.TZ, K.NOW,
  K.UUID, K.STRUUID, K.MD5, K.SHA1, K.SHA256, K.SHA384, K.SHA512, K.COALESCE, K.IF, K.STRLANG, K.STRDT,
  K.sameTerm, K.isIRI, K.isURI, K.isBLANK, K.isLITERAL, K.isNUMERIC, K.REGEX, K.SUBSTR, K.REPLACE, K.TRIPLE,
  K.SUBJECT, K.PREDICATE, K.OBJECT, K.isTRIPLE, K.LANGDIR, K.STRLANGDIR, K.hasLANG, K.hasLANGDIR, K.COUNT,
  K.SUM, K.MIN, K.MAX, K.AVG, K.SAMPLE, K.GROUP_CONCAT]

/-- Kinds highlighted as String (semantic_tokens/mod.rs L218-221). -/
def kindsString : List Kind := [
  K.STRING_LITERAL1, K.STRING_LITERAL2, K.STRING_LITERAL_LONG1, K.STRING_LITERAL_LONG2]

/-- Kinds highlighted as Variable (semantic_tokens/mod.rs L224-224). -/
def kindsVariable : List Kind := [
  K.VAR1, K.VAR2]

/-- Kinds highlighted as Number (semantic_tokens/mod.rs L227-235). -/
def kindsNumber : List Kind := [
  K.INTEGER, K.DECIMAL, K.DOUBLE, K.INTEGER_POSITIVE, K.DECIMAL_POSITIVE, K.DOUBLE_POSITIVE,
  K.INTEGER_NEGATIVE, K.DECIMAL_NEGATIVE, K.DOUBLE_NEGATIVE]

/-- Kinds highlighted as Comment (semantic_tokens/mod.rs L238-238). -/
def kindsComment : List Kind := [
  K.Comment]

/-- Kinds highlighted as Operator (semantic_tokens/mod.rs L241-256). -/
def kindsOperator : List Kind := [
  K.DoublePipe, K.DoubleAnd, K.Equals, K.ExclamationMarkEquals, K.Less, K.More, K.LessEquals, K.MoreEquals,
  K.Star, K.Plus, K.Minus, K.Slash, K.ExclamationMark, K.Zirkumflex, K.Pipe, K.DoubleZirkumflex]

/-- Kinds highlighted as Namespace (semantic_tokens/mod.rs L259-261). -/
def kindsNamespace : List Kind := [
  K.IRIREF, K.PNAME_LN, K.PNAME_NS]

/-- The `match` (semantic_tokens/mod.rs L85-264): index into `TOKEN_TYPES` (L14-23). -/
def tokenType (k : Kind) : Option Nat :=
  if k ∈ kindsKeyword then some 0
  else if k ∈ kindsFunction then some 1
  else if k ∈ kindsString then some 3
  else if k ∈ kindsVariable then some 2
  else if k ∈ kindsNumber then some 4
  else if k ∈ kindsComment then some 5
  else if k ∈ kindsOperator then some 6
  else if k ∈ kindsNamespace then some 7
  else none

end Verif.Features
