-- GENERATED by /verif/tools/gen_grammar.py from /repo; do not edit.
import Verif.Grammar.Stmt
/-!
# The recursive-descent functions

Models `crates/sparql-parser/src/parser/grammar.rs`, one definition per `parse_X` function. Generated mechanically
by `tools/gen_grammar.py`, whose Rust reader accepts only the statement forms of `Verif.Grammar.Stmt`.
-/
namespace Verif.Grammar

/-- `parse_QueryUnit` (crates/sparql-parser/src/parser/grammar.rs L5-16). -/
def fn_QueryUnit : FnDef where
  guard := none
  kind := K.QueryUnit
  body := (.call K.Query)
  swallow := true

/-- `parse_Query` (crates/sparql-parser/src/parser/grammar.rs L18-51). -/
def fn_Query : FnDef where
  guard := none
  kind := K.Query
  body := (.seq (.call K.Prologue) (.seq (.alt (.arm [K.SELECT] (.call K.SelectQuery) (.arm [K.CONSTRUCT] (.call K.ConstructQuery) (.arm [K.DESCRIBE] (.call K.DescribeQuery) (.arm [K.ASK] (.call K.AskQuery) (.altEnd (some [K.SELECT, K.CONSTRUCT, K.DESCRIBE, K.ASK]))))))) (.call K.ValuesClause)))
  swallow := false

/-- `parse_Prologue` (crates/sparql-parser/src/parser/grammar.rs L53-89). -/
def fn_Prologue : FnDef where
  guard := some [K.BASE, K.PREFIX, K.VERSION]
  kind := K.Prologue
  body := (.rep [K.BASE, K.PREFIX, K.VERSION] (.alt (.arm [K.BASE] (.call K.BaseDecl) (.arm [K.PREFIX] (.call K.PrefixDecl) (.arm [K.VERSION] (.call K.VersionDecl) (.altEnd (some [K.BASE, K.PREFIX, K.VERSION])))))))
  swallow := false

/-- `parse_SelectQuery` (crates/sparql-parser/src/parser/grammar.rs L91-110). -/
def fn_SelectQuery : FnDef where
  guard := none
  kind := K.SelectQuery
  body := (.seq (.call K.SelectClause) (.seq (.rep [K.FROM] (.call K.DatasetClause)) (.seq (.sync [K.WHERE, K.LCurly]) (.seq (.call K.WhereClause) (.call K.SolutionModifier)))))
  swallow := false

/-- `parse_ConstructQuery` (crates/sparql-parser/src/parser/grammar.rs L112-208). -/
def fn_ConstructQuery : FnDef where
  guard := none
  kind := K.ConstructQuery
  body := (.seq (.expect K.CONSTRUCT) (.seq (.sync [K.WHERE, K.LCurly, K.FROM]) (.alt (.arm [K.LCurly] (.seq (.call K.ConstructTemplate) (.seq (.rep [K.FROM] (.call K.DatasetClause)) (.seq (.sync [K.WHERE, K.LCurly]) (.seq (.call K.WhereClause) (.call K.SolutionModifier))))) (.arm [K.WHERE, K.FROM] (.seq (.rep [K.FROM] (.call K.DatasetClause)) (.seq (.sync [K.WHERE]) (.seq (.expect K.WHERE) (.seq (.sync [K.LCurly]) (.seq (.expect K.LCurly) (.seq (.opt [K.IRIREF, K.PNAME_NS, K.STRING_LITERAL1, K.STRING_LITERAL2, K.LParen, K.INTEGER, K.NIL, K.LBrack, K.DoubleLess, K.DoubleLessLParen, K.VAR1, K.VAR2, K.DECIMAL, K.DOUBLE, K.INTEGER_POSITIVE, K.DECIMAL_POSITIVE, K.DOUBLE_POSITIVE, K.INTEGER_NEGATIVE, K.DECIMAL_NEGATIVE, K.DOUBLE_NEGATIVE, K.True, K.False, K.STRING_LITERAL_LONG1, K.STRING_LITERAL_LONG2, K.PNAME_LN, K.BLANK_NODE_LABEL, K.ANON] (.call K.TriplesTemplate)) (.seq (.sync [K.RCurly]) (.seq (.expect K.RCurly) (.call K.SolutionModifier))))))))) (.altEnd (some [K.LCurly, K.WHERE, K.FROM])))))))
  swallow := false

/-- `parse_DescribeQuery` (crates/sparql-parser/src/parser/grammar.rs L210-296). -/
def fn_DescribeQuery : FnDef where
  guard := none
  kind := K.DescribeQuery
  body := (.seq (.expect K.DESCRIBE) (.seq (.sync [K.IRIREF, K.PNAME_NS, K.Star, K.VAR1, K.VAR2, K.PNAME_LN]) (.seq (.alt (.arm [K.IRIREF, K.PNAME_NS, K.VAR1, K.VAR2, K.PNAME_LN] (.seq (.call K.VarOrIri) (.rep [K.IRIREF, K.PNAME_NS, K.VAR1, K.VAR2, K.PNAME_LN] (.call K.VarOrIri))) (.arm [K.Star] (.expect K.Star) (.altEnd (some [K.IRIREF, K.PNAME_NS, K.VAR1, K.VAR2, K.PNAME_LN, K.Star]))))) (.seq (.rep [K.FROM] (.call K.DatasetClause)) (.seq (.opt [K.WHERE, K.LCurly] (.call K.WhereClause)) (.call K.SolutionModifier))))))
  swallow := false

/-- `parse_AskQuery` (crates/sparql-parser/src/parser/grammar.rs L298-317). -/
def fn_AskQuery : FnDef where
  guard := none
  kind := K.AskQuery
  body := (.seq (.expect K.ASK) (.seq (.rep [K.FROM] (.call K.DatasetClause)) (.seq (.sync [K.WHERE, K.LCurly]) (.seq (.call K.WhereClause) (.call K.SolutionModifier)))))
  swallow := false

/-- `parse_ValuesClause` (crates/sparql-parser/src/parser/grammar.rs L319-329). -/
def fn_ValuesClause : FnDef where
  guard := some [K.VALUES]
  kind := K.ValuesClause
  body := (.opt [K.VALUES] (.seq (.expect K.VALUES) (.call K.DataBlock)))
  swallow := false

/-- `parse_UpdateUnit` (crates/sparql-parser/src/parser/grammar.rs L331-342). -/
def fn_UpdateUnit : FnDef where
  guard := none
  kind := K.UpdateUnit
  body := (.call K.Update)
  swallow := true

/-- `parse_Update` (crates/sparql-parser/src/parser/grammar.rs L344-389). -/
def fn_Update : FnDef where
  guard := some [K.BASE, K.PREFIX, K.VERSION, K.LOAD, K.CLEAR, K.DROP, K.CREATE, K.ADD, K.MOVE, K.COPY, K.INSERT_DATA, K.DELETE_DATA, K.DELETE_WHERE, K.WITH, K.DELETE, K.INSERT]
  kind := K.Update
  body := (.seq (.call K.Prologue) (.opt [K.LOAD, K.CLEAR, K.DROP, K.CREATE, K.ADD, K.MOVE, K.COPY, K.INSERT_DATA, K.DELETE_DATA, K.DELETE_WHERE, K.WITH, K.DELETE, K.INSERT] (.seq (.call K.UpdateOne) (.opt [K.Semicolon] (.seq (.expect K.Semicolon) (.call K.Update))))))
  swallow := false

/-- `parse_BaseDecl` (crates/sparql-parser/src/parser/grammar.rs L391-396). -/
def fn_BaseDecl : FnDef where
  guard := none
  kind := K.BaseDecl
  body := (.seq (.expect K.BASE) (.expect K.IRIREF))
  swallow := false

/-- `parse_PrefixDecl` (crates/sparql-parser/src/parser/grammar.rs L398-404). -/
def fn_PrefixDecl : FnDef where
  guard := none
  kind := K.PrefixDecl
  body := (.seq (.expect K.PREFIX) (.seq (.expect K.PNAME_NS) (.expect K.IRIREF)))
  swallow := false

/-- `parse_VersionDecl` (crates/sparql-parser/src/parser/grammar.rs L406-411). -/
def fn_VersionDecl : FnDef where
  guard := none
  kind := K.VersionDecl
  body := (.seq (.expect K.VERSION) (.call K.VersionSpecifier))
  swallow := false

/-- `parse_VersionSpecifier` (crates/sparql-parser/src/parser/grammar.rs L413-436). -/
def fn_VersionSpecifier : FnDef where
  guard := none
  kind := K.VersionSpecifier
  body := (.alt (.arm [K.STRING_LITERAL1] (.expect K.STRING_LITERAL1) (.arm [K.STRING_LITERAL2] (.expect K.STRING_LITERAL2) (.altEnd (some [K.STRING_LITERAL1, K.STRING_LITERAL2])))))
  swallow := false

/-- `parse_SelectClause` (crates/sparql-parser/src/parser/grammar.rs L438-538). -/
def fn_SelectClause : FnDef where
  guard := none
  kind := K.SelectClause
  body := (.seq (.expect K.SELECT) (.seq (.opt [K.DISTINCT, K.REDUCED] (.alt (.arm [K.DISTINCT] (.expect K.DISTINCT) (.arm [K.REDUCED] (.expect K.REDUCED) (.altEnd (some [K.DISTINCT, K.REDUCED])))))) (.alt (.arm [K.LParen, K.VAR1, K.VAR2] (.seq (.alt (.arm [K.VAR1, K.VAR2] (.call K.Var) (.arm [K.LParen] (.seq (.expect K.LParen) (.seq (.call K.Expression) (.seq (.expect K.AS) (.seq (.call K.Var) (.expect K.RParen))))) (.altEnd (some [K.VAR1, K.VAR2, K.LParen]))))) (.rep [K.LParen, K.VAR1, K.VAR2] (.alt (.arm [K.VAR1, K.VAR2] (.call K.Var) (.arm [K.LParen] (.seq (.expect K.LParen) (.seq (.call K.Expression) (.seq (.expect K.AS) (.seq (.call K.Var) (.expect K.RParen))))) (.altEnd (some [K.VAR1, K.VAR2, K.LParen]))))))) (.arm [K.Star] (.expect K.Star) (.altEnd (some [K.LParen, K.VAR1, K.VAR2, K.Star])))))))
  swallow := false

/-- `parse_DatasetClause` (crates/sparql-parser/src/parser/grammar.rs L540-566). -/
def fn_DatasetClause : FnDef where
  guard := none
  kind := K.DatasetClause
  body := (.seq (.expect K.FROM) (.alt (.arm [K.IRIREF, K.PNAME_NS, K.PNAME_LN] (.call K.DefaultGraphClause) (.arm [K.NAMED] (.call K.NamedGraphClause) (.altEnd (some [K.IRIREF, K.PNAME_NS, K.PNAME_LN, K.NAMED]))))))
  swallow := false

/-- `parse_WhereClause` (crates/sparql-parser/src/parser/grammar.rs L568-575). -/
def fn_WhereClause : FnDef where
  guard := none
  kind := K.WhereClause
  body := (.seq (.opt [K.WHERE] (.expect K.WHERE)) (.call K.GroupGraphPattern))
  swallow := false

/-- `parse_SolutionModifier` (crates/sparql-parser/src/parser/grammar.rs L577-601). -/
def fn_SolutionModifier : FnDef where
  guard := some [K.GROUP, K.HAVING, K.ORDER, K.LIMIT, K.OFFSET]
  kind := K.SolutionModifier
  body := (.seq (.opt [K.GROUP] (.call K.GroupClause)) (.seq (.opt [K.HAVING] (.call K.HavingClause)) (.seq (.opt [K.ORDER] (.call K.OrderClause)) (.opt [K.LIMIT, K.OFFSET] (.call K.LimitOffsetClauses)))))
  swallow := false

/-- `parse_SubSelect` (crates/sparql-parser/src/parser/grammar.rs L603-610). -/
def fn_SubSelect : FnDef where
  guard := none
  kind := K.SubSelect
  body := (.seq (.call K.SelectClause) (.seq (.call K.WhereClause) (.seq (.call K.SolutionModifier) (.call K.ValuesClause))))
  swallow := false

/-- `parse_Var` (crates/sparql-parser/src/parser/grammar.rs L612-632). -/
def fn_Var : FnDef where
  guard := none
  kind := K.Var
  body := (.alt (.arm [K.VAR1] (.expect K.VAR1) (.arm [K.VAR2] (.expect K.VAR2) (.altEnd (some [K.VAR1, K.VAR2])))))
  swallow := false

/-- `parse_Expression` (crates/sparql-parser/src/parser/grammar.rs L634-638). -/
def fn_Expression : FnDef where
  guard := none
  kind := K.Expression
  body := (.call K.ConditionalOrExpression)
  swallow := false

/-- `parse_ConstructTemplate` (crates/sparql-parser/src/parser/grammar.rs L640-676). -/
def fn_ConstructTemplate : FnDef where
  guard := none
  kind := K.ConstructTemplate
  body := (.seq (.expect K.LCurly) (.seq (.opt [K.IRIREF, K.PNAME_NS, K.STRING_LITERAL1, K.STRING_LITERAL2, K.LParen, K.INTEGER, K.NIL, K.LBrack, K.DoubleLess, K.DoubleLessLParen, K.VAR1, K.VAR2, K.DECIMAL, K.DOUBLE, K.INTEGER_POSITIVE, K.DECIMAL_POSITIVE, K.DOUBLE_POSITIVE, K.INTEGER_NEGATIVE, K.DECIMAL_NEGATIVE, K.DOUBLE_NEGATIVE, K.True, K.False, K.STRING_LITERAL_LONG1, K.STRING_LITERAL_LONG2, K.PNAME_LN, K.BLANK_NODE_LABEL, K.ANON] (.call K.ConstructTriples)) (.expect K.RCurly)))
  swallow := false

/-- `parse_TriplesTemplate` (crates/sparql-parser/src/parser/grammar.rs L678-716). -/
def fn_TriplesTemplate : FnDef where
  guard := none
  kind := K.TriplesTemplate
  body := (.seq (.call K.TriplesSameSubject) (.opt [K.Dot] (.seq (.expect K.Dot) (.opt [K.IRIREF, K.PNAME_NS, K.STRING_LITERAL1, K.STRING_LITERAL2, K.LParen, K.INTEGER, K.NIL, K.LBrack, K.DoubleLess, K.DoubleLessLParen, K.VAR1, K.VAR2, K.DECIMAL, K.DOUBLE, K.INTEGER_POSITIVE, K.DECIMAL_POSITIVE, K.DOUBLE_POSITIVE, K.INTEGER_NEGATIVE, K.DECIMAL_NEGATIVE, K.DOUBLE_NEGATIVE, K.True, K.False, K.STRING_LITERAL_LONG1, K.STRING_LITERAL_LONG2, K.PNAME_LN, K.BLANK_NODE_LABEL, K.ANON] (.call K.TriplesTemplate)))))
  swallow := false

/-- `parse_VarOrIri` (crates/sparql-parser/src/parser/grammar.rs L718-744). -/
def fn_VarOrIri : FnDef where
  guard := none
  kind := K.VarOrIri
  body := (.alt (.arm [K.VAR1, K.VAR2] (.call K.Var) (.arm [K.IRIREF, K.PNAME_NS, K.PNAME_LN] (.call K.iri) (.altEnd (some [K.VAR1, K.VAR2, K.IRIREF, K.PNAME_NS, K.PNAME_LN])))))
  swallow := false

/-- `parse_DefaultGraphClause` (crates/sparql-parser/src/parser/grammar.rs L746-750). -/
def fn_DefaultGraphClause : FnDef where
  guard := none
  kind := K.DefaultGraphClause
  body := (.call K.SourceSelector)
  swallow := false

/-- `parse_NamedGraphClause` (crates/sparql-parser/src/parser/grammar.rs L752-757). -/
def fn_NamedGraphClause : FnDef where
  guard := none
  kind := K.NamedGraphClause
  body := (.seq (.expect K.NAMED) (.call K.SourceSelector))
  swallow := false

/-- `parse_SourceSelector` (crates/sparql-parser/src/parser/grammar.rs L759-763). -/
def fn_SourceSelector : FnDef where
  guard := none
  kind := K.SourceSelector
  body := (.call K.iri)
  swallow := false

/-- `parse_iri` (crates/sparql-parser/src/parser/grammar.rs L765-789). -/
def fn_iri : FnDef where
  guard := none
  kind := K.iri
  body := (.alt (.arm [K.IRIREF] (.expect K.IRIREF) (.arm [K.PNAME_NS, K.PNAME_LN] (.call K.PrefixedName) (.altEnd (some [K.IRIREF, K.PNAME_NS, K.PNAME_LN])))))
  swallow := false

/-- `parse_GroupGraphPattern` (crates/sparql-parser/src/parser/grammar.rs L791-848). -/
def fn_GroupGraphPattern : FnDef where
  guard := none
  kind := K.GroupGraphPattern
  body := (.seq (.expect K.LCurly) (.seq (.alt (.arm [K.SELECT] (.call K.SubSelect) (.arm [K.IRIREF, K.PNAME_NS, K.STRING_LITERAL1, K.STRING_LITERAL2, K.LParen, K.LCurly, K.INTEGER, K.VALUES, K.GRAPH, K.OPTIONAL, K.SERVICE, K.BIND, K.NIL, K.MINUS, K.FILTER, K.LBrack, K.DoubleLess, K.DoubleLessLParen, K.VAR1, K.VAR2, K.DECIMAL, K.DOUBLE, K.INTEGER_POSITIVE, K.DECIMAL_POSITIVE, K.DOUBLE_POSITIVE, K.INTEGER_NEGATIVE, K.DECIMAL_NEGATIVE, K.DOUBLE_NEGATIVE, K.True, K.False, K.STRING_LITERAL_LONG1, K.STRING_LITERAL_LONG2, K.PNAME_LN, K.BLANK_NODE_LABEL, K.ANON] (.call K.GroupGraphPatternSub) (.altEnd none)))) (.seq (.sync [K.RCurly]) (.expect K.RCurly))))
  swallow := false

/-- `parse_GroupClause` (crates/sparql-parser/src/parser/grammar.rs L850-942). -/
def fn_GroupClause : FnDef where
  guard := none
  kind := K.GroupClause
  body := (.seq (.expect K.GROUP) (.seq (.expect K.BY) (.seq (.call K.GroupCondition) (.rep [K.IRIREF, K.PNAME_NS, K.LParen, K.VAR1, K.VAR2, K.NOT, K.STR, K.LANG, K.LANGMATCHES, K.LANGDIR, K.DATATYPE, K.BOUND, K.IRI, K.URI, K.BNODE, K.RAND, K.ABS, K.CEIL, K.FLOOR, K.ROUND, K.CONCAT, K.STRLEN, K.UCASE, K.LCASE, K.ENCODE_FOR_URI, K.CONTAINS, K.STRSTARTS, K.STRENDS, K.STRBEFORE, K.STRAFTER, K.YEAR, K.MONTH, K.DAY, K.HOURS, K.MINUTES, K.SECONDS, K.TIMEZONE, K.TZ, K.NOW, K.UUID, K.STRUUID, K.MD5, K.SHA1, K.SHA256, K.SHA384, K.SHA512, K.COALESCE, K.IF, K.STRLANG, K.STRLANGDIR, K.STRDT, K.sameTerm, K.isIRI, K.isURI, K.isBLANK, K.isLITERAL, K.isNUMERIC, K.hasLANG, K.hasLANGDIR, K.isTRIPLE, K.TRIPLE, K.SUBJECT, K.PREDICATE, K.OBJECT, K.REGEX, K.SUBSTR, K.REPLACE, K.EXISTS, K.COUNT, K.SUM, K.MIN, K.MAX, K.AVG, K.SAMPLE, K.GROUP_CONCAT, K.PNAME_LN] (.call K.GroupCondition)))))
  swallow := false

/-- `parse_HavingClause` (crates/sparql-parser/src/parser/grammar.rs L944-1033). -/
def fn_HavingClause : FnDef where
  guard := none
  kind := K.HavingClause
  body := (.seq (.expect K.HAVING) (.seq (.call K.HavingCondition) (.rep [K.IRIREF, K.PNAME_NS, K.LParen, K.NOT, K.STR, K.LANG, K.LANGMATCHES, K.LANGDIR, K.DATATYPE, K.BOUND, K.IRI, K.URI, K.BNODE, K.RAND, K.ABS, K.CEIL, K.FLOOR, K.ROUND, K.CONCAT, K.STRLEN, K.UCASE, K.LCASE, K.ENCODE_FOR_URI, K.CONTAINS, K.STRSTARTS, K.STRENDS, K.STRBEFORE, K.STRAFTER, K.YEAR, K.MONTH, K.DAY, K.HOURS, K.MINUTES, K.SECONDS, K.TIMEZONE, K.TZ, K.NOW, K.UUID, K.STRUUID, K.MD5, K.SHA1, K.SHA256, K.SHA384, K.SHA512, K.COALESCE, K.IF, K.STRLANG, K.STRLANGDIR, K.STRDT, K.sameTerm, K.isIRI, K.isURI, K.isBLANK, K.isLITERAL, K.isNUMERIC, K.hasLANG, K.hasLANGDIR, K.isTRIPLE, K.TRIPLE, K.SUBJECT, K.PREDICATE, K.OBJECT, K.REGEX, K.SUBSTR, K.REPLACE, K.EXISTS, K.COUNT, K.SUM, K.MIN, K.MAX, K.AVG, K.SAMPLE, K.GROUP_CONCAT, K.PNAME_LN] (.call K.HavingCondition))))
  swallow := false

/-- `parse_OrderClause` (crates/sparql-parser/src/parser/grammar.rs L1035-1129). -/
def fn_OrderClause : FnDef where
  guard := none
  kind := K.OrderClause
  body := (.seq (.expect K.ORDER) (.seq (.expect K.BY) (.seq (.call K.OrderCondition) (.rep [K.IRIREF, K.PNAME_NS, K.LParen, K.ASC, K.DESC, K.VAR1, K.VAR2, K.NOT, K.STR, K.LANG, K.LANGMATCHES, K.LANGDIR, K.DATATYPE, K.BOUND, K.IRI, K.URI, K.BNODE, K.RAND, K.ABS, K.CEIL, K.FLOOR, K.ROUND, K.CONCAT, K.STRLEN, K.UCASE, K.LCASE, K.ENCODE_FOR_URI, K.CONTAINS, K.STRSTARTS, K.STRENDS, K.STRBEFORE, K.STRAFTER, K.YEAR, K.MONTH, K.DAY, K.HOURS, K.MINUTES, K.SECONDS, K.TIMEZONE, K.TZ, K.NOW, K.UUID, K.STRUUID, K.MD5, K.SHA1, K.SHA256, K.SHA384, K.SHA512, K.COALESCE, K.IF, K.STRLANG, K.STRLANGDIR, K.STRDT, K.sameTerm, K.isIRI, K.isURI, K.isBLANK, K.isLITERAL, K.isNUMERIC, K.hasLANG, K.hasLANGDIR, K.isTRIPLE, K.TRIPLE, K.SUBJECT, K.PREDICATE, K.OBJECT, K.REGEX, K.SUBSTR, K.REPLACE, K.EXISTS, K.COUNT, K.SUM, K.MIN, K.MAX, K.AVG, K.SAMPLE, K.GROUP_CONCAT, K.PNAME_LN] (.call K.OrderCondition)))))
  swallow := false

/-- `parse_LimitOffsetClauses` (crates/sparql-parser/src/parser/grammar.rs L1131-1157). -/
def fn_LimitOffsetClauses : FnDef where
  guard := none
  kind := K.LimitOffsetClauses
  body := (.alt (.arm [K.LIMIT] (.seq (.call K.LimitClause) (.opt [K.OFFSET] (.call K.OffsetClause))) (.arm [K.OFFSET] (.seq (.call K.OffsetClause) (.opt [K.LIMIT] (.call K.LimitClause))) (.altEnd (some [K.LIMIT, K.OFFSET])))))
  swallow := false

/-- `parse_GroupCondition` (crates/sparql-parser/src/parser/grammar.rs L1159-1337). -/
def fn_GroupCondition : FnDef where
  guard := none
  kind := K.GroupCondition
  body := (.alt (.arm [K.NOT, K.STR, K.LANG, K.LANGMATCHES, K.LANGDIR, K.DATATYPE, K.BOUND, K.IRI, K.URI, K.BNODE, K.RAND, K.ABS, K.CEIL, K.FLOOR, K.ROUND, K.CONCAT, K.STRLEN, K.UCASE, K.LCASE, K.ENCODE_FOR_URI, K.CONTAINS, K.STRSTARTS, K.STRENDS, K.STRBEFORE, K.STRAFTER, K.YEAR, K.MONTH, K.DAY, K.HOURS, K.MINUTES, K.SECONDS, K.TIMEZONE, K.TZ, K.NOW, K.UUID, K.STRUUID, K.MD5, K.SHA1, K.SHA256, K.SHA384, K.SHA512, K.COALESCE, K.IF, K.STRLANG, K.STRLANGDIR, K.STRDT, K.sameTerm, K.isIRI, K.isURI, K.isBLANK, K.isLITERAL, K.isNUMERIC, K.hasLANG, K.hasLANGDIR, K.isTRIPLE, K.TRIPLE, K.SUBJECT, K.PREDICATE, K.OBJECT, K.REGEX, K.SUBSTR, K.REPLACE, K.EXISTS, K.COUNT, K.SUM, K.MIN, K.MAX, K.AVG, K.SAMPLE, K.GROUP_CONCAT] (.call K.BuiltInCall) (.arm [K.IRIREF, K.PNAME_NS, K.PNAME_LN] (.call K.FunctionCall) (.arm [K.LParen] (.seq (.expect K.LParen) (.seq (.call K.Expression) (.seq (.opt [K.AS] (.seq (.expect K.AS) (.call K.Var))) (.expect K.RParen)))) (.arm [K.VAR1, K.VAR2] (.call K.Var) (.altEnd (some [K.NOT, K.STR, K.LANG, K.LANGMATCHES, K.LANGDIR, K.DATATYPE, K.BOUND, K.IRI, K.URI, K.BNODE, K.RAND, K.ABS, K.CEIL, K.FLOOR, K.ROUND, K.CONCAT, K.STRLEN, K.UCASE, K.LCASE, K.ENCODE_FOR_URI, K.CONTAINS, K.STRSTARTS, K.STRENDS, K.STRBEFORE, K.STRAFTER, K.YEAR, K.MONTH, K.DAY, K.HOURS, K.MINUTES, K.SECONDS, K.TIMEZONE, K.TZ, K.NOW, K.UUID, K.STRUUID, K.MD5, K.SHA1, K.SHA256, K.SHA384, K.SHA512, K.COALESCE, K.IF, K.STRLANG, K.STRLANGDIR, K.STRDT, K.sameTerm, K.isIRI, K.isURI, K.isBLANK, K.isLITERAL, K.isNUMERIC, K.hasLANG, K.hasLANGDIR, K.isTRIPLE, K.TRIPLE, K.SUBJECT, K.PREDICATE, K.OBJECT, K.REGEX, K.SUBSTR, K.REPLACE, K.EXISTS, K.COUNT, K.SUM, K.MIN, K.MAX, K.AVG, K.SAMPLE, K.GROUP_CONCAT, K.IRIREF, K.PNAME_NS, K.PNAME_LN, K.LParen, K.VAR1, K.VAR2])))))))
  swallow := false

/-- `parse_BuiltInCall` (crates/sparql-parser/src/parser/grammar.rs L1339-1830). -/
def fn_BuiltInCall : FnDef where
  guard := none
  kind := K.BuiltInCall
  body := (.alt (.arm [K.COUNT, K.SUM, K.MIN, K.MAX, K.AVG, K.SAMPLE, K.GROUP_CONCAT] (.call K.Aggregate) (.arm [K.STR] (.seq (.expect K.STR) (.seq (.expect K.LParen) (.seq (.call K.Expression) (.expect K.RParen)))) (.arm [K.LANG] (.seq (.expect K.LANG) (.seq (.expect K.LParen) (.seq (.call K.Expression) (.expect K.RParen)))) (.arm [K.LANGMATCHES] (.seq (.expect K.LANGMATCHES) (.seq (.expect K.LParen) (.seq (.call K.Expression) (.seq (.expect K.Comma) (.seq (.call K.Expression) (.expect K.RParen)))))) (.arm [K.LANGDIR] (.seq (.expect K.LANGDIR) (.seq (.expect K.LParen) (.seq (.call K.Expression) (.expect K.RParen)))) (.arm [K.DATATYPE] (.seq (.expect K.DATATYPE) (.seq (.expect K.LParen) (.seq (.call K.Expression) (.expect K.RParen)))) (.arm [K.BOUND] (.seq (.expect K.BOUND) (.seq (.expect K.LParen) (.seq (.call K.Var) (.expect K.RParen)))) (.arm [K.IRI] (.seq (.expect K.IRI) (.seq (.expect K.LParen) (.seq (.call K.Expression) (.expect K.RParen)))) (.arm [K.URI] (.seq (.expect K.URI) (.seq (.expect K.LParen) (.seq (.call K.Expression) (.expect K.RParen)))) (.arm [K.BNODE] (.seq (.expect K.BNODE) (.alt (.arm [K.LParen] (.seq (.expect K.LParen) (.seq (.call K.Expression) (.expect K.RParen))) (.arm [K.NIL] (.expect K.NIL) (.altEnd (some [K.LParen, K.NIL])))))) (.arm [K.RAND] (.seq (.expect K.RAND) (.expect K.NIL)) (.arm [K.ABS] (.seq (.expect K.ABS) (.seq (.expect K.LParen) (.seq (.call K.Expression) (.expect K.RParen)))) (.arm [K.CEIL] (.seq (.expect K.CEIL) (.seq (.expect K.LParen) (.seq (.call K.Expression) (.expect K.RParen)))) (.arm [K.FLOOR] (.seq (.expect K.FLOOR) (.seq (.expect K.LParen) (.seq (.call K.Expression) (.expect K.RParen)))) (.arm [K.ROUND] (.seq (.expect K.ROUND) (.seq (.expect K.LParen) (.seq (.call K.Expression) (.expect K.RParen)))) (.arm [K.CONCAT] (.seq (.expect K.CONCAT) (.call K.ExpressionList)) (.arm [K.SUBSTR] (.call K.SubstringExpression) (.arm [K.STRLEN] (.seq (.expect K.STRLEN) (.seq (.expect K.LParen) (.seq (.call K.Expression) (.expect K.RParen)))) (.arm [K.REPLACE] (.call K.StrReplaceExpression) (.arm [K.UCASE] (.seq (.expect K.UCASE) (.seq (.expect K.LParen) (.seq (.call K.Expression) (.expect K.RParen)))) (.arm [K.LCASE] (.seq (.expect K.LCASE) (.seq (.expect K.LParen) (.seq (.call K.Expression) (.expect K.RParen)))) (.arm [K.ENCODE_FOR_URI] (.seq (.expect K.ENCODE_FOR_URI) (.seq (.expect K.LParen) (.seq (.call K.Expression) (.expect K.RParen)))) (.arm [K.CONTAINS] (.seq (.expect K.CONTAINS) (.seq (.expect K.LParen) (.seq (.call K.Expression) (.seq (.expect K.Comma) (.seq (.call K.Expression) (.expect K.RParen)))))) (.arm [K.STRSTARTS] (.seq (.expect K.STRSTARTS) (.seq (.expect K.LParen) (.seq (.call K.Expression) (.seq (.expect K.Comma) (.seq (.call K.Expression) (.expect K.RParen)))))) (.arm [K.STRENDS] (.seq (.expect K.STRENDS) (.seq (.expect K.LParen) (.seq (.call K.Expression) (.seq (.expect K.Comma) (.seq (.call K.Expression) (.expect K.RParen)))))) (.arm [K.STRBEFORE] (.seq (.expect K.STRBEFORE) (.seq (.expect K.LParen) (.seq (.call K.Expression) (.seq (.expect K.Comma) (.seq (.call K.Expression) (.expect K.RParen)))))) (.arm [K.STRAFTER] (.seq (.expect K.STRAFTER) (.seq (.expect K.LParen) (.seq (.call K.Expression) (.seq (.expect K.Comma) (.seq (.call K.Expression) (.expect K.RParen)))))) (.arm [K.YEAR] (.seq (.expect K.YEAR) (.seq (.expect K.LParen) (.seq (.call K.Expression) (.expect K.RParen)))) (.arm [K.MONTH] (.seq (.expect K.MONTH) (.seq (.expect K.LParen) (.seq (.call K.Expression) (.expect K.RParen)))) (.arm [K.DAY] (.seq (.expect K.DAY) (.seq (.expect K.LParen) (.seq (.call K.Expression) (.expect K.RParen)))) (.arm [K.HOURS] (.seq (.expect K.HOURS) (.seq (.expect K.LParen) (.seq (.call K.Expression) (.expect K.RParen)))) (.arm [K.MINUTES] (.seq (.expect K.MINUTES) (.seq (.expect K.LParen) (.seq (.call K.Expression) (.expect K.RParen)))) (.arm [K.SECONDS] (.seq (.expect K.SECONDS) (.seq (.expect K.LParen) (.seq (.call K.Expression) (.expect K.RParen)))) (.arm [K.TIMEZONE] (.seq (.expect K.TIMEZONE) (.seq (.expect K.LParen) (.seq (.call K.Expression) (.expect K.RParen)))) (.arm [K.TZ] (.seq (.expect K.TZ) (.seq (.expect K.LParen) (.seq (.call K.Expression) (.expect K.RParen)))) (.arm [K.NOW] (.seq (.expect K.NOW) (.expect K.NIL)) (.arm [K.UUID] (.seq (.expect K.UUID) (.expect K.NIL)) (.arm [K.STRUUID] (.seq (.expect K.STRUUID) (.expect K.NIL)) (.arm [K.MD5] (.seq (.expect K.MD5) (.seq (.expect K.LParen) (.seq (.call K.Expression) (.expect K.RParen)))) (.arm [K.SHA1] (.seq (.expect K.SHA1) (.seq (.expect K.LParen) (.seq (.call K.Expression) (.expect K.RParen)))) (.arm [K.SHA256] (.seq (.expect K.SHA256) (.seq (.expect K.LParen) (.seq (.call K.Expression) (.expect K.RParen)))) (.arm [K.SHA384] (.seq (.expect K.SHA384) (.seq (.expect K.LParen) (.seq (.call K.Expression) (.expect K.RParen)))) (.arm [K.SHA512] (.seq (.expect K.SHA512) (.seq (.expect K.LParen) (.seq (.call K.Expression) (.expect K.RParen)))) (.arm [K.COALESCE] (.seq (.expect K.COALESCE) (.call K.ExpressionList)) (.arm [K.IF] (.seq (.expect K.IF) (.seq (.expect K.LParen) (.seq (.call K.Expression) (.seq (.expect K.Comma) (.seq (.call K.Expression) (.seq (.expect K.Comma) (.seq (.call K.Expression) (.expect K.RParen)))))))) (.arm [K.STRLANG] (.seq (.expect K.STRLANG) (.seq (.expect K.LParen) (.seq (.call K.Expression) (.seq (.expect K.Comma) (.seq (.call K.Expression) (.expect K.RParen)))))) (.arm [K.STRLANGDIR] (.seq (.expect K.STRLANGDIR) (.seq (.expect K.LParen) (.seq (.call K.Expression) (.seq (.expect K.Comma) (.seq (.call K.Expression) (.seq (.expect K.Comma) (.seq (.call K.Expression) (.expect K.RParen)))))))) (.arm [K.STRDT] (.seq (.expect K.STRDT) (.seq (.expect K.LParen) (.seq (.call K.Expression) (.seq (.expect K.Comma) (.seq (.call K.Expression) (.expect K.RParen)))))) (.arm [K.sameTerm] (.seq (.expect K.sameTerm) (.seq (.expect K.LParen) (.seq (.call K.Expression) (.seq (.expect K.Comma) (.seq (.call K.Expression) (.expect K.RParen)))))) (.arm [K.isIRI] (.seq (.expect K.isIRI) (.seq (.expect K.LParen) (.seq (.call K.Expression) (.expect K.RParen)))) (.arm [K.isURI] (.seq (.expect K.isURI) (.seq (.expect K.LParen) (.seq (.call K.Expression) (.expect K.RParen)))) (.arm [K.isBLANK] (.seq (.expect K.isBLANK) (.seq (.expect K.LParen) (.seq (.call K.Expression) (.expect K.RParen)))) (.arm [K.isLITERAL] (.seq (.expect K.isLITERAL) (.seq (.expect K.LParen) (.seq (.call K.Expression) (.expect K.RParen)))) (.arm [K.isNUMERIC] (.seq (.expect K.isNUMERIC) (.seq (.expect K.LParen) (.seq (.call K.Expression) (.expect K.RParen)))) (.arm [K.hasLANG] (.seq (.expect K.hasLANG) (.seq (.expect K.LParen) (.seq (.call K.Expression) (.expect K.RParen)))) (.arm [K.hasLANGDIR] (.seq (.expect K.hasLANGDIR) (.seq (.expect K.LParen) (.seq (.call K.Expression) (.expect K.RParen)))) (.arm [K.REGEX] (.call K.RegexExpression) (.arm [K.EXISTS] (.call K.ExistsFunc) (.arm [K.NOT] (.call K.NotExistsFunc) (.arm [K.isTRIPLE] (.seq (.expect K.isTRIPLE) (.seq (.expect K.LParen) (.seq (.call K.Expression) (.expect K.RParen)))) (.arm [K.TRIPLE] (.seq (.expect K.TRIPLE) (.seq (.expect K.LParen) (.seq (.call K.Expression) (.seq (.expect K.Comma) (.seq (.call K.Expression) (.seq (.expect K.Comma) (.seq (.call K.Expression) (.expect K.RParen)))))))) (.arm [K.SUBJECT] (.seq (.expect K.SUBJECT) (.seq (.expect K.LParen) (.seq (.call K.Expression) (.expect K.RParen)))) (.arm [K.PREDICATE] (.seq (.expect K.PREDICATE) (.seq (.expect K.LParen) (.seq (.call K.Expression) (.expect K.RParen)))) (.arm [K.OBJECT] (.seq (.expect K.OBJECT) (.seq (.expect K.LParen) (.seq (.call K.Expression) (.expect K.RParen)))) (.altEnd (some [K.COUNT, K.SUM, K.MIN, K.MAX, K.AVG, K.SAMPLE, K.GROUP_CONCAT, K.STR, K.LANG, K.LANGMATCHES, K.LANGDIR, K.DATATYPE, K.BOUND, K.IRI, K.URI, K.BNODE, K.RAND, K.ABS, K.CEIL, K.FLOOR, K.ROUND, K.CONCAT, K.SUBSTR, K.STRLEN, K.REPLACE, K.UCASE, K.LCASE, K.ENCODE_FOR_URI, K.CONTAINS, K.STRSTARTS, K.STRENDS, K.STRBEFORE, K.STRAFTER, K.YEAR, K.MONTH, K.DAY, K.HOURS, K.MINUTES, K.SECONDS, K.TIMEZONE, K.TZ, K.NOW, K.UUID, K.STRUUID, K.MD5, K.SHA1, K.SHA256, K.SHA384, K.SHA512, K.COALESCE, K.IF, K.STRLANG, K.STRLANGDIR, K.STRDT, K.sameTerm, K.isIRI, K.isURI, K.isBLANK, K.isLITERAL, K.isNUMERIC, K.hasLANG, K.hasLANGDIR, K.REGEX, K.EXISTS, K.NOT, K.isTRIPLE, K.TRIPLE, K.SUBJECT, K.PREDICATE, K.OBJECT])))))))))))))))))))))))))))))))))))))))))))))))))))))))))))))))))))
  swallow := false

/-- `parse_FunctionCall` (crates/sparql-parser/src/parser/grammar.rs L1832-1837). -/
def fn_FunctionCall : FnDef where
  guard := none
  kind := K.FunctionCall
  body := (.seq (.call K.iri) (.call K.ArgList))
  swallow := false

/-- `parse_HavingCondition` (crates/sparql-parser/src/parser/grammar.rs L1839-1843). -/
def fn_HavingCondition : FnDef where
  guard := none
  kind := K.HavingCondition
  body := (.call K.Constraint)
  swallow := false

/-- `parse_Constraint` (crates/sparql-parser/src/parser/grammar.rs L1845-2012). -/
def fn_Constraint : FnDef where
  guard := none
  kind := K.Constraint
  body := (.alt (.arm [K.LParen] (.call K.BrackettedExpression) (.arm [K.NOT, K.STR, K.LANG, K.LANGMATCHES, K.LANGDIR, K.DATATYPE, K.BOUND, K.IRI, K.URI, K.BNODE, K.RAND, K.ABS, K.CEIL, K.FLOOR, K.ROUND, K.CONCAT, K.STRLEN, K.UCASE, K.LCASE, K.ENCODE_FOR_URI, K.CONTAINS, K.STRSTARTS, K.STRENDS, K.STRBEFORE, K.STRAFTER, K.YEAR, K.MONTH, K.DAY, K.HOURS, K.MINUTES, K.SECONDS, K.TIMEZONE, K.TZ, K.NOW, K.UUID, K.STRUUID, K.MD5, K.SHA1, K.SHA256, K.SHA384, K.SHA512, K.COALESCE, K.IF, K.STRLANG, K.STRLANGDIR, K.STRDT, K.sameTerm, K.isIRI, K.isURI, K.isBLANK, K.isLITERAL, K.isNUMERIC, K.hasLANG, K.hasLANGDIR, K.isTRIPLE, K.TRIPLE, K.SUBJECT, K.PREDICATE, K.OBJECT, K.REGEX, K.SUBSTR, K.REPLACE, K.EXISTS, K.COUNT, K.SUM, K.MIN, K.MAX, K.AVG, K.SAMPLE, K.GROUP_CONCAT] (.call K.BuiltInCall) (.arm [K.IRIREF, K.PNAME_NS, K.PNAME_LN] (.call K.FunctionCall) (.altEnd (some [K.LParen, K.NOT, K.STR, K.LANG, K.LANGMATCHES, K.LANGDIR, K.DATATYPE, K.BOUND, K.IRI, K.URI, K.BNODE, K.RAND, K.ABS, K.CEIL, K.FLOOR, K.ROUND, K.CONCAT, K.STRLEN, K.UCASE, K.LCASE, K.ENCODE_FOR_URI, K.CONTAINS, K.STRSTARTS, K.STRENDS, K.STRBEFORE, K.STRAFTER, K.YEAR, K.MONTH, K.DAY, K.HOURS, K.MINUTES, K.SECONDS, K.TIMEZONE, K.TZ, K.NOW, K.UUID, K.STRUUID, K.MD5, K.SHA1, K.SHA256, K.SHA384, K.SHA512, K.COALESCE, K.IF, K.STRLANG, K.STRLANGDIR, K.STRDT, K.sameTerm, K.isIRI, K.isURI, K.isBLANK, K.isLITERAL, K.isNUMERIC, K.hasLANG, K.hasLANGDIR, K.isTRIPLE, K.TRIPLE, K.SUBJECT, K.PREDICATE, K.OBJECT, K.REGEX, K.SUBSTR, K.REPLACE, K.EXISTS, K.COUNT, K.SUM, K.MIN, K.MAX, K.AVG, K.SAMPLE, K.GROUP_CONCAT, K.IRIREF, K.PNAME_NS, K.PNAME_LN]))))))
  swallow := false

/-- `parse_OrderCondition` (crates/sparql-parser/src/parser/grammar.rs L2014-2371). -/
def fn_OrderCondition : FnDef where
  guard := none
  kind := K.OrderCondition
  body := (.alt (.arm [K.ASC, K.DESC] (.seq (.alt (.arm [K.ASC] (.expect K.ASC) (.arm [K.DESC] (.expect K.DESC) (.altEnd (some [K.ASC, K.DESC]))))) (.call K.BrackettedExpression)) (.arm [K.IRIREF, K.PNAME_NS, K.LParen, K.VAR1, K.VAR2, K.NOT, K.STR, K.LANG, K.LANGMATCHES, K.LANGDIR, K.DATATYPE, K.BOUND, K.IRI, K.URI, K.BNODE, K.RAND, K.ABS, K.CEIL, K.FLOOR, K.ROUND, K.CONCAT, K.STRLEN, K.UCASE, K.LCASE, K.ENCODE_FOR_URI, K.CONTAINS, K.STRSTARTS, K.STRENDS, K.STRBEFORE, K.STRAFTER, K.YEAR, K.MONTH, K.DAY, K.HOURS, K.MINUTES, K.SECONDS, K.TIMEZONE, K.TZ, K.NOW, K.UUID, K.STRUUID, K.MD5, K.SHA1, K.SHA256, K.SHA384, K.SHA512, K.COALESCE, K.IF, K.STRLANG, K.STRLANGDIR, K.STRDT, K.sameTerm, K.isIRI, K.isURI, K.isBLANK, K.isLITERAL, K.isNUMERIC, K.hasLANG, K.hasLANGDIR, K.isTRIPLE, K.TRIPLE, K.SUBJECT, K.PREDICATE, K.OBJECT, K.REGEX, K.SUBSTR, K.REPLACE, K.EXISTS, K.COUNT, K.SUM, K.MIN, K.MAX, K.AVG, K.SAMPLE, K.GROUP_CONCAT, K.PNAME_LN] (.alt (.arm [K.IRIREF, K.PNAME_NS, K.LParen, K.NOT, K.STR, K.LANG, K.LANGMATCHES, K.LANGDIR, K.DATATYPE, K.BOUND, K.IRI, K.URI, K.BNODE, K.RAND, K.ABS, K.CEIL, K.FLOOR, K.ROUND, K.CONCAT, K.STRLEN, K.UCASE, K.LCASE, K.ENCODE_FOR_URI, K.CONTAINS, K.STRSTARTS, K.STRENDS, K.STRBEFORE, K.STRAFTER, K.YEAR, K.MONTH, K.DAY, K.HOURS, K.MINUTES, K.SECONDS, K.TIMEZONE, K.TZ, K.NOW, K.UUID, K.STRUUID, K.MD5, K.SHA1, K.SHA256, K.SHA384, K.SHA512, K.COALESCE, K.IF, K.STRLANG, K.STRLANGDIR, K.STRDT, K.sameTerm, K.isIRI, K.isURI, K.isBLANK, K.isLITERAL, K.isNUMERIC, K.hasLANG, K.hasLANGDIR, K.isTRIPLE, K.TRIPLE, K.SUBJECT, K.PREDICATE, K.OBJECT, K.REGEX, K.SUBSTR, K.REPLACE, K.EXISTS, K.COUNT, K.SUM, K.MIN, K.MAX, K.AVG, K.SAMPLE, K.GROUP_CONCAT, K.PNAME_LN] (.call K.Constraint) (.arm [K.VAR1, K.VAR2] (.call K.Var) (.altEnd (some [K.IRIREF, K.PNAME_NS, K.LParen, K.NOT, K.STR, K.LANG, K.LANGMATCHES, K.LANGDIR, K.DATATYPE, K.BOUND, K.IRI, K.URI, K.BNODE, K.RAND, K.ABS, K.CEIL, K.FLOOR, K.ROUND, K.CONCAT, K.STRLEN, K.UCASE, K.LCASE, K.ENCODE_FOR_URI, K.CONTAINS, K.STRSTARTS, K.STRENDS, K.STRBEFORE, K.STRAFTER, K.YEAR, K.MONTH, K.DAY, K.HOURS, K.MINUTES, K.SECONDS, K.TIMEZONE, K.TZ, K.NOW, K.UUID, K.STRUUID, K.MD5, K.SHA1, K.SHA256, K.SHA384, K.SHA512, K.COALESCE, K.IF, K.STRLANG, K.STRLANGDIR, K.STRDT, K.sameTerm, K.isIRI, K.isURI, K.isBLANK, K.isLITERAL, K.isNUMERIC, K.hasLANG, K.hasLANGDIR, K.isTRIPLE, K.TRIPLE, K.SUBJECT, K.PREDICATE, K.OBJECT, K.REGEX, K.SUBSTR, K.REPLACE, K.EXISTS, K.COUNT, K.SUM, K.MIN, K.MAX, K.AVG, K.SAMPLE, K.GROUP_CONCAT, K.PNAME_LN, K.VAR1, K.VAR2]))))) (.altEnd (some [K.ASC, K.DESC, K.IRIREF, K.PNAME_NS, K.LParen, K.VAR1, K.VAR2, K.NOT, K.STR, K.LANG, K.LANGMATCHES, K.LANGDIR, K.DATATYPE, K.BOUND, K.IRI, K.URI, K.BNODE, K.RAND, K.ABS, K.CEIL, K.FLOOR, K.ROUND, K.CONCAT, K.STRLEN, K.UCASE, K.LCASE, K.ENCODE_FOR_URI, K.CONTAINS, K.STRSTARTS, K.STRENDS, K.STRBEFORE, K.STRAFTER, K.YEAR, K.MONTH, K.DAY, K.HOURS, K.MINUTES, K.SECONDS, K.TIMEZONE, K.TZ, K.NOW, K.UUID, K.STRUUID, K.MD5, K.SHA1, K.SHA256, K.SHA384, K.SHA512, K.COALESCE, K.IF, K.STRLANG, K.STRLANGDIR, K.STRDT, K.sameTerm, K.isIRI, K.isURI, K.isBLANK, K.isLITERAL, K.isNUMERIC, K.hasLANG, K.hasLANGDIR, K.isTRIPLE, K.TRIPLE, K.SUBJECT, K.PREDICATE, K.OBJECT, K.REGEX, K.SUBSTR, K.REPLACE, K.EXISTS, K.COUNT, K.SUM, K.MIN, K.MAX, K.AVG, K.SAMPLE, K.GROUP_CONCAT, K.PNAME_LN])))))
  swallow := false

/-- `parse_BrackettedExpression` (crates/sparql-parser/src/parser/grammar.rs L2373-2379). -/
def fn_BrackettedExpression : FnDef where
  guard := none
  kind := K.BrackettedExpression
  body := (.seq (.expect K.LParen) (.seq (.call K.Expression) (.expect K.RParen)))
  swallow := false

/-- `parse_LimitClause` (crates/sparql-parser/src/parser/grammar.rs L2381-2386). -/
def fn_LimitClause : FnDef where
  guard := none
  kind := K.LimitClause
  body := (.seq (.expect K.LIMIT) (.expect K.INTEGER))
  swallow := false

/-- `parse_OffsetClause` (crates/sparql-parser/src/parser/grammar.rs L2388-2393). -/
def fn_OffsetClause : FnDef where
  guard := none
  kind := K.OffsetClause
  body := (.seq (.expect K.OFFSET) (.expect K.INTEGER))
  swallow := false

/-- `parse_DataBlock` (crates/sparql-parser/src/parser/grammar.rs L2395-2420). -/
def fn_DataBlock : FnDef where
  guard := none
  kind := K.DataBlock
  body := (.alt (.arm [K.VAR1, K.VAR2] (.call K.InlineDataOneVar) (.arm [K.LParen, K.NIL] (.call K.InlineDataFull) (.altEnd (some [K.VAR1, K.VAR2, K.LParen, K.NIL])))))
  swallow := false

/-- `parse_UpdateOne` (crates/sparql-parser/src/parser/grammar.rs L2422-2483). -/
def fn_UpdateOne : FnDef where
  guard := none
  kind := K.UpdateOne
  body := (.alt (.arm [K.LOAD] (.call K.Load) (.arm [K.CLEAR] (.call K.Clear) (.arm [K.DROP] (.call K.Drop) (.arm [K.ADD] (.call K.Add) (.arm [K.MOVE] (.call K.Move) (.arm [K.COPY] (.call K.Copy) (.arm [K.CREATE] (.call K.Create) (.arm [K.DELETE_WHERE] (.call K.DeleteWhere) (.arm [K.WITH, K.DELETE, K.INSERT] (.call K.Modify) (.arm [K.INSERT_DATA] (.call K.InsertData) (.arm [K.DELETE_DATA] (.call K.DeleteData) (.altEnd (some [K.LOAD, K.CLEAR, K.DROP, K.ADD, K.MOVE, K.COPY, K.CREATE, K.DELETE_WHERE, K.WITH, K.DELETE, K.INSERT, K.INSERT_DATA, K.DELETE_DATA]))))))))))))))
  swallow := false

/-- `parse_Load` (crates/sparql-parser/src/parser/grammar.rs L2485-2497). -/
def fn_Load : FnDef where
  guard := none
  kind := K.Load
  body := (.seq (.expect K.LOAD) (.seq (.opt [K.SILENT] (.expect K.SILENT)) (.seq (.call K.iri) (.opt [K.INTO] (.seq (.expect K.INTO) (.call K.GraphRef))))))
  swallow := false

/-- `parse_Clear` (crates/sparql-parser/src/parser/grammar.rs L2499-2507). -/
def fn_Clear : FnDef where
  guard := none
  kind := K.Clear
  body := (.seq (.expect K.CLEAR) (.seq (.opt [K.SILENT] (.expect K.SILENT)) (.call K.GraphRefAll)))
  swallow := false

/-- `parse_Drop` (crates/sparql-parser/src/parser/grammar.rs L2509-2517). -/
def fn_Drop : FnDef where
  guard := none
  kind := K.Drop
  body := (.seq (.expect K.DROP) (.seq (.opt [K.SILENT] (.expect K.SILENT)) (.call K.GraphRefAll)))
  swallow := false

/-- `parse_Add` (crates/sparql-parser/src/parser/grammar.rs L2519-2529). -/
def fn_Add : FnDef where
  guard := none
  kind := K.Add
  body := (.seq (.expect K.ADD) (.seq (.opt [K.SILENT] (.expect K.SILENT)) (.seq (.call K.GraphOrDefault) (.seq (.expect K.TO) (.call K.GraphOrDefault)))))
  swallow := false

/-- `parse_Move` (crates/sparql-parser/src/parser/grammar.rs L2531-2541). -/
def fn_Move : FnDef where
  guard := none
  kind := K.Move
  body := (.seq (.expect K.MOVE) (.seq (.opt [K.SILENT] (.expect K.SILENT)) (.seq (.call K.GraphOrDefault) (.seq (.expect K.TO) (.call K.GraphOrDefault)))))
  swallow := false

/-- `parse_Copy` (crates/sparql-parser/src/parser/grammar.rs L2543-2553). -/
def fn_Copy : FnDef where
  guard := none
  kind := K.Copy
  body := (.seq (.expect K.COPY) (.seq (.opt [K.SILENT] (.expect K.SILENT)) (.seq (.call K.GraphOrDefault) (.seq (.expect K.TO) (.call K.GraphOrDefault)))))
  swallow := false

/-- `parse_Create` (crates/sparql-parser/src/parser/grammar.rs L2555-2563). -/
def fn_Create : FnDef where
  guard := none
  kind := K.Create
  body := (.seq (.expect K.CREATE) (.seq (.opt [K.SILENT] (.expect K.SILENT)) (.call K.GraphRef)))
  swallow := false

/-- `parse_DeleteWhere` (crates/sparql-parser/src/parser/grammar.rs L2565-2570). -/
def fn_DeleteWhere : FnDef where
  guard := none
  kind := K.DeleteWhere
  body := (.seq (.expect K.DELETE_WHERE) (.call K.QuadPattern))
  swallow := false

/-- `parse_Modify` (crates/sparql-parser/src/parser/grammar.rs L2572-2608). -/
def fn_Modify : FnDef where
  guard := none
  kind := K.Modify
  body := (.seq (.opt [K.WITH] (.seq (.expect K.WITH) (.call K.iri))) (.seq (.alt (.arm [K.DELETE] (.seq (.call K.DeleteClause) (.opt [K.INSERT] (.call K.InsertClause))) (.arm [K.INSERT] (.call K.InsertClause) (.altEnd (some [K.DELETE, K.INSERT]))))) (.seq (.rep [K.USING] (.call K.UsingClause)) (.seq (.expect K.WHERE) (.call K.GroupGraphPattern)))))
  swallow := false

/-- `parse_InsertData` (crates/sparql-parser/src/parser/grammar.rs L2610-2615). -/
def fn_InsertData : FnDef where
  guard := none
  kind := K.InsertData
  body := (.seq (.expect K.INSERT_DATA) (.call K.QuadData))
  swallow := false

/-- `parse_DeleteData` (crates/sparql-parser/src/parser/grammar.rs L2617-2622). -/
def fn_DeleteData : FnDef where
  guard := none
  kind := K.DeleteData
  body := (.seq (.expect K.DELETE_DATA) (.call K.QuadData))
  swallow := false

/-- `parse_GraphRef` (crates/sparql-parser/src/parser/grammar.rs L2624-2629). -/
def fn_GraphRef : FnDef where
  guard := none
  kind := K.GraphRef
  body := (.seq (.expect K.GRAPH) (.call K.iri))
  swallow := false

/-- `parse_GraphRefAll` (crates/sparql-parser/src/parser/grammar.rs L2631-2662). -/
def fn_GraphRefAll : FnDef where
  guard := none
  kind := K.GraphRefAll
  body := (.alt (.arm [K.GRAPH] (.call K.GraphRef) (.arm [K.DEFAULT] (.expect K.DEFAULT) (.arm [K.NAMED] (.expect K.NAMED) (.arm [K.ALL] (.expect K.ALL) (.altEnd (some [K.GRAPH, K.DEFAULT, K.NAMED, K.ALL])))))))
  swallow := false

/-- `parse_GraphOrDefault` (crates/sparql-parser/src/parser/grammar.rs L2664-2693). -/
def fn_GraphOrDefault : FnDef where
  guard := none
  kind := K.GraphOrDefault
  body := (.alt (.arm [K.DEFAULT] (.expect K.DEFAULT) (.arm [K.IRIREF, K.PNAME_NS, K.GRAPH, K.PNAME_LN] (.seq (.opt [K.GRAPH] (.expect K.GRAPH)) (.call K.iri)) (.altEnd (some [K.DEFAULT, K.IRIREF, K.PNAME_NS, K.GRAPH, K.PNAME_LN])))))
  swallow := false

/-- `parse_QuadData` (crates/sparql-parser/src/parser/grammar.rs L2695-2701). -/
def fn_QuadData : FnDef where
  guard := none
  kind := K.QuadData
  body := (.seq (.expect K.LCurly) (.seq (.call K.Quads) (.expect K.RCurly)))
  swallow := false

/-- `parse_QuadPattern` (crates/sparql-parser/src/parser/grammar.rs L2703-2709). -/
def fn_QuadPattern : FnDef where
  guard := none
  kind := K.QuadPattern
  body := (.seq (.expect K.LCurly) (.seq (.call K.Quads) (.expect K.RCurly)))
  swallow := false

/-- `parse_DeleteClause` (crates/sparql-parser/src/parser/grammar.rs L2711-2716). -/
def fn_DeleteClause : FnDef where
  guard := none
  kind := K.DeleteClause
  body := (.seq (.expect K.DELETE) (.call K.QuadPattern))
  swallow := false

/-- `parse_InsertClause` (crates/sparql-parser/src/parser/grammar.rs L2718-2723). -/
def fn_InsertClause : FnDef where
  guard := none
  kind := K.InsertClause
  body := (.seq (.expect K.INSERT) (.call K.QuadPattern))
  swallow := false

/-- `parse_UsingClause` (crates/sparql-parser/src/parser/grammar.rs L2725-2752). -/
def fn_UsingClause : FnDef where
  guard := none
  kind := K.UsingClause
  body := (.seq (.expect K.USING) (.alt (.arm [K.IRIREF, K.PNAME_NS, K.PNAME_LN] (.call K.iri) (.arm [K.NAMED] (.seq (.expect K.NAMED) (.call K.iri)) (.altEnd (some [K.IRIREF, K.PNAME_NS, K.PNAME_LN, K.NAMED]))))))
  swallow := false

/-- `parse_Quads` (crates/sparql-parser/src/parser/grammar.rs L2754-2861). -/
def fn_Quads : FnDef where
  guard := some [K.IRIREF, K.PNAME_NS, K.STRING_LITERAL1, K.STRING_LITERAL2, K.LParen, K.INTEGER, K.GRAPH, K.NIL, K.LBrack, K.DoubleLess, K.DoubleLessLParen, K.VAR1, K.VAR2, K.DECIMAL, K.DOUBLE, K.INTEGER_POSITIVE, K.DECIMAL_POSITIVE, K.DOUBLE_POSITIVE, K.INTEGER_NEGATIVE, K.DECIMAL_NEGATIVE, K.DOUBLE_NEGATIVE, K.True, K.False, K.STRING_LITERAL_LONG1, K.STRING_LITERAL_LONG2, K.PNAME_LN, K.BLANK_NODE_LABEL, K.ANON]
  kind := K.Quads
  body := (.seq (.opt [K.IRIREF, K.PNAME_NS, K.STRING_LITERAL1, K.STRING_LITERAL2, K.LParen, K.INTEGER, K.NIL, K.LBrack, K.DoubleLess, K.DoubleLessLParen, K.VAR1, K.VAR2, K.DECIMAL, K.DOUBLE, K.INTEGER_POSITIVE, K.DECIMAL_POSITIVE, K.DOUBLE_POSITIVE, K.INTEGER_NEGATIVE, K.DECIMAL_NEGATIVE, K.DOUBLE_NEGATIVE, K.True, K.False, K.STRING_LITERAL_LONG1, K.STRING_LITERAL_LONG2, K.PNAME_LN, K.BLANK_NODE_LABEL, K.ANON] (.call K.TriplesTemplate)) (.rep [K.GRAPH] (.seq (.call K.QuadsNotTriples) (.seq (.opt [K.Dot] (.expect K.Dot)) (.opt [K.IRIREF, K.PNAME_NS, K.STRING_LITERAL1, K.STRING_LITERAL2, K.LParen, K.INTEGER, K.NIL, K.LBrack, K.DoubleLess, K.DoubleLessLParen, K.VAR1, K.VAR2, K.DECIMAL, K.DOUBLE, K.INTEGER_POSITIVE, K.DECIMAL_POSITIVE, K.DOUBLE_POSITIVE, K.INTEGER_NEGATIVE, K.DECIMAL_NEGATIVE, K.DOUBLE_NEGATIVE, K.True, K.False, K.STRING_LITERAL_LONG1, K.STRING_LITERAL_LONG2, K.PNAME_LN, K.BLANK_NODE_LABEL, K.ANON] (.call K.TriplesTemplate))))))
  swallow := false

/-- `parse_QuadsNotTriples` (crates/sparql-parser/src/parser/grammar.rs L2863-2901). -/
def fn_QuadsNotTriples : FnDef where
  guard := none
  kind := K.QuadsNotTriples
  body := (.seq (.expect K.GRAPH) (.seq (.call K.VarOrIri) (.seq (.expect K.LCurly) (.seq (.opt [K.IRIREF, K.PNAME_NS, K.STRING_LITERAL1, K.STRING_LITERAL2, K.LParen, K.INTEGER, K.NIL, K.LBrack, K.DoubleLess, K.DoubleLessLParen, K.VAR1, K.VAR2, K.DECIMAL, K.DOUBLE, K.INTEGER_POSITIVE, K.DECIMAL_POSITIVE, K.DOUBLE_POSITIVE, K.INTEGER_NEGATIVE, K.DECIMAL_NEGATIVE, K.DOUBLE_NEGATIVE, K.True, K.False, K.STRING_LITERAL_LONG1, K.STRING_LITERAL_LONG2, K.PNAME_LN, K.BLANK_NODE_LABEL, K.ANON] (.call K.TriplesTemplate)) (.expect K.RCurly)))))
  swallow := false

/-- `parse_TriplesSameSubject` (crates/sparql-parser/src/parser/grammar.rs L2903-2979). -/
def fn_TriplesSameSubject : FnDef where
  guard := none
  kind := K.TriplesSameSubject
  body := (.alt (.arm [K.IRIREF, K.PNAME_NS, K.STRING_LITERAL1, K.STRING_LITERAL2, K.INTEGER, K.NIL, K.DoubleLessLParen, K.VAR1, K.VAR2, K.DECIMAL, K.DOUBLE, K.INTEGER_POSITIVE, K.DECIMAL_POSITIVE, K.DOUBLE_POSITIVE, K.INTEGER_NEGATIVE, K.DECIMAL_NEGATIVE, K.DOUBLE_NEGATIVE, K.True, K.False, K.STRING_LITERAL_LONG1, K.STRING_LITERAL_LONG2, K.PNAME_LN, K.BLANK_NODE_LABEL, K.ANON] (.seq (.call K.VarOrTerm) (.call K.PropertyListNotEmpty)) (.arm [K.LParen, K.LBrack] (.seq (.call K.TriplesNode) (.call K.PropertyList)) (.arm [K.DoubleLess] (.call K.ReifiedTripleBlock) (.altEnd (some [K.IRIREF, K.PNAME_NS, K.STRING_LITERAL1, K.STRING_LITERAL2, K.INTEGER, K.NIL, K.DoubleLessLParen, K.VAR1, K.VAR2, K.DECIMAL, K.DOUBLE, K.INTEGER_POSITIVE, K.DECIMAL_POSITIVE, K.DOUBLE_POSITIVE, K.INTEGER_NEGATIVE, K.DECIMAL_NEGATIVE, K.DOUBLE_NEGATIVE, K.True, K.False, K.STRING_LITERAL_LONG1, K.STRING_LITERAL_LONG2, K.PNAME_LN, K.BLANK_NODE_LABEL, K.ANON, K.LParen, K.LBrack, K.DoubleLess]))))))
  swallow := false

/-- `parse_GroupGraphPatternSub` (crates/sparql-parser/src/parser/grammar.rs L2981-3106). -/
def fn_GroupGraphPatternSub : FnDef where
  guard := some [K.IRIREF, K.PNAME_NS, K.STRING_LITERAL1, K.STRING_LITERAL2, K.LParen, K.LCurly, K.INTEGER, K.VALUES, K.GRAPH, K.OPTIONAL, K.SERVICE, K.BIND, K.NIL, K.MINUS, K.FILTER, K.LBrack, K.DoubleLess, K.DoubleLessLParen, K.VAR1, K.VAR2, K.DECIMAL, K.DOUBLE, K.INTEGER_POSITIVE, K.DECIMAL_POSITIVE, K.DOUBLE_POSITIVE, K.INTEGER_NEGATIVE, K.DECIMAL_NEGATIVE, K.DOUBLE_NEGATIVE, K.True, K.False, K.STRING_LITERAL_LONG1, K.STRING_LITERAL_LONG2, K.PNAME_LN, K.BLANK_NODE_LABEL, K.ANON]
  kind := K.GroupGraphPatternSub
  body := (.seq (.opt [K.IRIREF, K.PNAME_NS, K.STRING_LITERAL1, K.STRING_LITERAL2, K.LParen, K.INTEGER, K.NIL, K.LBrack, K.DoubleLess, K.DoubleLessLParen, K.VAR1, K.VAR2, K.DECIMAL, K.DOUBLE, K.INTEGER_POSITIVE, K.DECIMAL_POSITIVE, K.DOUBLE_POSITIVE, K.INTEGER_NEGATIVE, K.DECIMAL_NEGATIVE, K.DOUBLE_NEGATIVE, K.True, K.False, K.STRING_LITERAL_LONG1, K.STRING_LITERAL_LONG2, K.PNAME_LN, K.BLANK_NODE_LABEL, K.ANON] (.call K.TriplesBlock)) (.rep [K.LCurly, K.VALUES, K.GRAPH, K.OPTIONAL, K.SERVICE, K.BIND, K.MINUS, K.FILTER] (.seq (.call K.GraphPatternNotTriples) (.seq (.opt [K.Dot] (.expect K.Dot)) (.opt [K.IRIREF, K.PNAME_NS, K.STRING_LITERAL1, K.STRING_LITERAL2, K.LParen, K.INTEGER, K.NIL, K.LBrack, K.DoubleLess, K.DoubleLessLParen, K.VAR1, K.VAR2, K.DECIMAL, K.DOUBLE, K.INTEGER_POSITIVE, K.DECIMAL_POSITIVE, K.DOUBLE_POSITIVE, K.INTEGER_NEGATIVE, K.DECIMAL_NEGATIVE, K.DOUBLE_NEGATIVE, K.True, K.False, K.STRING_LITERAL_LONG1, K.STRING_LITERAL_LONG2, K.PNAME_LN, K.BLANK_NODE_LABEL, K.ANON] (.call K.TriplesBlock))))))
  swallow := false

/-- `parse_TriplesBlock` (crates/sparql-parser/src/parser/grammar.rs L3108-3146). -/
def fn_TriplesBlock : FnDef where
  guard := none
  kind := K.TriplesBlock
  body := (.seq (.call K.TriplesSameSubjectPath) (.opt [K.Dot] (.seq (.expect K.Dot) (.opt [K.IRIREF, K.PNAME_NS, K.STRING_LITERAL1, K.STRING_LITERAL2, K.LParen, K.INTEGER, K.NIL, K.LBrack, K.DoubleLess, K.DoubleLessLParen, K.VAR1, K.VAR2, K.DECIMAL, K.DOUBLE, K.INTEGER_POSITIVE, K.DECIMAL_POSITIVE, K.DOUBLE_POSITIVE, K.INTEGER_NEGATIVE, K.DECIMAL_NEGATIVE, K.DOUBLE_NEGATIVE, K.True, K.False, K.STRING_LITERAL_LONG1, K.STRING_LITERAL_LONG2, K.PNAME_LN, K.BLANK_NODE_LABEL, K.ANON] (.call K.TriplesBlock)))))
  swallow := false

/-- `parse_GraphPatternNotTriples` (crates/sparql-parser/src/parser/grammar.rs L3148-3195). -/
def fn_GraphPatternNotTriples : FnDef where
  guard := none
  kind := K.GraphPatternNotTriples
  body := (.alt (.arm [K.LCurly] (.call K.GroupOrUnionGraphPattern) (.arm [K.OPTIONAL] (.call K.OptionalGraphPattern) (.arm [K.MINUS] (.call K.MinusGraphPattern) (.arm [K.GRAPH] (.call K.GraphGraphPattern) (.arm [K.SERVICE] (.call K.ServiceGraphPattern) (.arm [K.FILTER] (.call K.Filter) (.arm [K.BIND] (.call K.Bind) (.arm [K.VALUES] (.call K.InlineData) (.altEnd (some [K.LCurly, K.OPTIONAL, K.MINUS, K.GRAPH, K.SERVICE, K.FILTER, K.BIND, K.VALUES])))))))))))
  swallow := false

/-- `parse_TriplesSameSubjectPath` (crates/sparql-parser/src/parser/grammar.rs L3197-3273). -/
def fn_TriplesSameSubjectPath : FnDef where
  guard := none
  kind := K.TriplesSameSubjectPath
  body := (.alt (.arm [K.IRIREF, K.PNAME_NS, K.STRING_LITERAL1, K.STRING_LITERAL2, K.INTEGER, K.NIL, K.DoubleLessLParen, K.VAR1, K.VAR2, K.DECIMAL, K.DOUBLE, K.INTEGER_POSITIVE, K.DECIMAL_POSITIVE, K.DOUBLE_POSITIVE, K.INTEGER_NEGATIVE, K.DECIMAL_NEGATIVE, K.DOUBLE_NEGATIVE, K.True, K.False, K.STRING_LITERAL_LONG1, K.STRING_LITERAL_LONG2, K.PNAME_LN, K.BLANK_NODE_LABEL, K.ANON] (.seq (.call K.VarOrTerm) (.call K.PropertyListPathNotEmpty)) (.arm [K.LParen, K.LBrack] (.seq (.call K.TriplesNodePath) (.call K.PropertyListPath)) (.arm [K.DoubleLess] (.call K.ReifiedTripleBlockPath) (.altEnd (some [K.IRIREF, K.PNAME_NS, K.STRING_LITERAL1, K.STRING_LITERAL2, K.INTEGER, K.NIL, K.DoubleLessLParen, K.VAR1, K.VAR2, K.DECIMAL, K.DOUBLE, K.INTEGER_POSITIVE, K.DECIMAL_POSITIVE, K.DOUBLE_POSITIVE, K.INTEGER_NEGATIVE, K.DECIMAL_NEGATIVE, K.DOUBLE_NEGATIVE, K.True, K.False, K.STRING_LITERAL_LONG1, K.STRING_LITERAL_LONG2, K.PNAME_LN, K.BLANK_NODE_LABEL, K.ANON, K.LParen, K.LBrack, K.DoubleLess]))))))
  swallow := false

/-- `parse_ReifiedTripleBlock` (crates/sparql-parser/src/parser/grammar.rs L3275-3280). -/
def fn_ReifiedTripleBlock : FnDef where
  guard := none
  kind := K.ReifiedTripleBlock
  body := (.seq (.call K.ReifiedTriple) (.call K.PropertyList))
  swallow := false

/-- `parse_ReifiedTriple` (crates/sparql-parser/src/parser/grammar.rs L3282-3293). -/
def fn_ReifiedTriple : FnDef where
  guard := none
  kind := K.ReifiedTriple
  body := (.seq (.expect K.DoubleLess) (.seq (.call K.ReifiedTripleSubject) (.seq (.call K.Verb) (.seq (.call K.ReifiedTripleObject) (.seq (.opt [K.Tilde] (.call K.Reifier)) (.expect K.DoubleMore))))))
  swallow := false

/-- `parse_PropertyList` (crates/sparql-parser/src/parser/grammar.rs L3295-3318). -/
def fn_PropertyList : FnDef where
  guard := some [K.IRIREF, K.PNAME_NS, K.a, K.VAR1, K.VAR2, K.PNAME_LN]
  kind := K.PropertyList
  body := (.opt [K.IRIREF, K.PNAME_NS, K.a, K.VAR1, K.VAR2, K.PNAME_LN] (.call K.PropertyListNotEmpty))
  swallow := false

/-- `parse_ReifiedTripleBlockPath` (crates/sparql-parser/src/parser/grammar.rs L3320-3325). -/
def fn_ReifiedTripleBlockPath : FnDef where
  guard := none
  kind := K.ReifiedTripleBlockPath
  body := (.seq (.call K.ReifiedTriple) (.call K.PropertyListPath))
  swallow := false

/-- `parse_PropertyListPath` (crates/sparql-parser/src/parser/grammar.rs L3327-3356). -/
def fn_PropertyListPath : FnDef where
  guard := some [K.IRIREF, K.PNAME_NS, K.LParen, K.a, K.Zirkumflex, K.ExclamationMark, K.VAR1, K.VAR2, K.PNAME_LN]
  kind := K.PropertyListPath
  body := (.opt [K.IRIREF, K.PNAME_NS, K.LParen, K.a, K.Zirkumflex, K.ExclamationMark, K.VAR1, K.VAR2, K.PNAME_LN] (.call K.PropertyListPathNotEmpty))
  swallow := false

/-- `parse_GroupOrUnionGraphPattern` (crates/sparql-parser/src/parser/grammar.rs L3358-3370). -/
def fn_GroupOrUnionGraphPattern : FnDef where
  guard := none
  kind := K.GroupOrUnionGraphPattern
  body := (.seq (.call K.GroupGraphPattern) (.rep [K.UNION] (.seq (.expect K.UNION) (.call K.GroupGraphPattern))))
  swallow := false

/-- `parse_OptionalGraphPattern` (crates/sparql-parser/src/parser/grammar.rs L3372-3377). -/
def fn_OptionalGraphPattern : FnDef where
  guard := none
  kind := K.OptionalGraphPattern
  body := (.seq (.expect K.OPTIONAL) (.call K.GroupGraphPattern))
  swallow := false

/-- `parse_MinusGraphPattern` (crates/sparql-parser/src/parser/grammar.rs L3379-3384). -/
def fn_MinusGraphPattern : FnDef where
  guard := none
  kind := K.MinusGraphPattern
  body := (.seq (.expect K.MINUS) (.call K.GroupGraphPattern))
  swallow := false

/-- `parse_GraphGraphPattern` (crates/sparql-parser/src/parser/grammar.rs L3386-3392). -/
def fn_GraphGraphPattern : FnDef where
  guard := none
  kind := K.GraphGraphPattern
  body := (.seq (.expect K.GRAPH) (.seq (.call K.VarOrIri) (.call K.GroupGraphPattern)))
  swallow := false

/-- `parse_ServiceGraphPattern` (crates/sparql-parser/src/parser/grammar.rs L3394-3403). -/
def fn_ServiceGraphPattern : FnDef where
  guard := none
  kind := K.ServiceGraphPattern
  body := (.seq (.expect K.SERVICE) (.seq (.opt [K.SILENT] (.expect K.SILENT)) (.seq (.call K.VarOrIri) (.call K.GroupGraphPattern))))
  swallow := false

/-- `parse_Filter` (crates/sparql-parser/src/parser/grammar.rs L3405-3410). -/
def fn_Filter : FnDef where
  guard := none
  kind := K.Filter
  body := (.seq (.expect K.FILTER) (.call K.Constraint))
  swallow := false

/-- `parse_Bind` (crates/sparql-parser/src/parser/grammar.rs L3412-3421). -/
def fn_Bind : FnDef where
  guard := none
  kind := K.Bind
  body := (.seq (.expect K.BIND) (.seq (.expect K.LParen) (.seq (.call K.Expression) (.seq (.expect K.AS) (.seq (.call K.Var) (.expect K.RParen))))))
  swallow := false

/-- `parse_InlineData` (crates/sparql-parser/src/parser/grammar.rs L3423-3428). -/
def fn_InlineData : FnDef where
  guard := none
  kind := K.InlineData
  body := (.seq (.expect K.VALUES) (.call K.DataBlock))
  swallow := false

/-- `parse_InlineDataOneVar` (crates/sparql-parser/src/parser/grammar.rs L3430-3466). -/
def fn_InlineDataOneVar : FnDef where
  guard := none
  kind := K.InlineDataOneVar
  body := (.seq (.call K.Var) (.seq (.expect K.LCurly) (.seq (.rep [K.IRIREF, K.PNAME_NS, K.STRING_LITERAL1, K.STRING_LITERAL2, K.INTEGER, K.UNDEF, K.DoubleLessLParen, K.DECIMAL, K.DOUBLE, K.INTEGER_POSITIVE, K.DECIMAL_POSITIVE, K.DOUBLE_POSITIVE, K.INTEGER_NEGATIVE, K.DECIMAL_NEGATIVE, K.DOUBLE_NEGATIVE, K.True, K.False, K.STRING_LITERAL_LONG1, K.STRING_LITERAL_LONG2, K.PNAME_LN] (.call K.DataBlockValue)) (.expect K.RCurly))))
  swallow := false

/-- `parse_InlineDataFull` (crates/sparql-parser/src/parser/grammar.rs L3468-3552). -/
def fn_InlineDataFull : FnDef where
  guard := none
  kind := K.InlineDataFull
  body := (.seq (.alt (.arm [K.NIL] (.expect K.NIL) (.arm [K.LParen] (.seq (.expect K.LParen) (.seq (.rep [K.VAR1, K.VAR2] (.call K.Var)) (.expect K.RParen))) (.altEnd (some [K.NIL, K.LParen]))))) (.seq (.expect K.LCurly) (.seq (.rep [K.LParen, K.NIL] (.alt (.arm [K.LParen] (.seq (.expect K.LParen) (.seq (.rep [K.IRIREF, K.PNAME_NS, K.STRING_LITERAL1, K.STRING_LITERAL2, K.INTEGER, K.UNDEF, K.DoubleLessLParen, K.DECIMAL, K.DOUBLE, K.INTEGER_POSITIVE, K.DECIMAL_POSITIVE, K.DOUBLE_POSITIVE, K.INTEGER_NEGATIVE, K.DECIMAL_NEGATIVE, K.DOUBLE_NEGATIVE, K.True, K.False, K.STRING_LITERAL_LONG1, K.STRING_LITERAL_LONG2, K.PNAME_LN] (.call K.DataBlockValue)) (.expect K.RParen))) (.arm [K.NIL] (.expect K.NIL) (.altEnd (some [K.LParen, K.NIL])))))) (.expect K.RCurly))))
  swallow := false

/-- `parse_DataBlockValue` (crates/sparql-parser/src/parser/grammar.rs L3554-3618). -/
def fn_DataBlockValue : FnDef where
  guard := none
  kind := K.DataBlockValue
  body := (.alt (.arm [K.IRIREF, K.PNAME_NS, K.PNAME_LN] (.call K.iri) (.arm [K.STRING_LITERAL1, K.STRING_LITERAL2, K.STRING_LITERAL_LONG1, K.STRING_LITERAL_LONG2] (.call K.RDFLiteral) (.arm [K.INTEGER, K.DECIMAL, K.DOUBLE, K.INTEGER_POSITIVE, K.DECIMAL_POSITIVE, K.DOUBLE_POSITIVE, K.INTEGER_NEGATIVE, K.DECIMAL_NEGATIVE, K.DOUBLE_NEGATIVE] (.call K.NumericLiteral) (.arm [K.True, K.False] (.call K.BooleanLiteral) (.arm [K.UNDEF] (.expect K.UNDEF) (.arm [K.DoubleLessLParen] (.call K.TripleTermData) (.altEnd (some [K.IRIREF, K.PNAME_NS, K.PNAME_LN, K.STRING_LITERAL1, K.STRING_LITERAL2, K.STRING_LITERAL_LONG1, K.STRING_LITERAL_LONG2, K.INTEGER, K.DECIMAL, K.DOUBLE, K.INTEGER_POSITIVE, K.DECIMAL_POSITIVE, K.DOUBLE_POSITIVE, K.INTEGER_NEGATIVE, K.DECIMAL_NEGATIVE, K.DOUBLE_NEGATIVE, K.True, K.False, K.UNDEF, K.DoubleLessLParen])))))))))
  swallow := false

/-- `parse_RDFLiteral` (crates/sparql-parser/src/parser/grammar.rs L3620-3644). -/
def fn_RDFLiteral : FnDef where
  guard := none
  kind := K.RDFLiteral
  body := (.seq (.call K.String) (.opt [K.LANG_DIR, K.DoubleZirkumflex] (.alt (.arm [K.LANG_DIR] (.expect K.LANG_DIR) (.arm [K.DoubleZirkumflex] (.seq (.expect K.DoubleZirkumflex) (.call K.iri)) (.altEnd (some [K.LANG_DIR, K.DoubleZirkumflex])))))))
  swallow := false

/-- `parse_NumericLiteral` (crates/sparql-parser/src/parser/grammar.rs L3646-3683). -/
def fn_NumericLiteral : FnDef where
  guard := none
  kind := K.NumericLiteral
  body := (.alt (.arm [K.INTEGER, K.DECIMAL, K.DOUBLE] (.call K.NumericLiteralUnsigned) (.arm [K.INTEGER_POSITIVE, K.DECIMAL_POSITIVE, K.DOUBLE_POSITIVE] (.call K.NumericLiteralPositive) (.arm [K.INTEGER_NEGATIVE, K.DECIMAL_NEGATIVE, K.DOUBLE_NEGATIVE] (.call K.NumericLiteralNegative) (.altEnd (some [K.INTEGER, K.DECIMAL, K.DOUBLE, K.INTEGER_POSITIVE, K.DECIMAL_POSITIVE, K.DOUBLE_POSITIVE, K.INTEGER_NEGATIVE, K.DECIMAL_NEGATIVE, K.DOUBLE_NEGATIVE]))))))
  swallow := false

/-- `parse_BooleanLiteral` (crates/sparql-parser/src/parser/grammar.rs L3685-3705). -/
def fn_BooleanLiteral : FnDef where
  guard := none
  kind := K.BooleanLiteral
  body := (.alt (.arm [K.True] (.expect K.True) (.arm [K.False] (.expect K.False) (.altEnd (some [K.True, K.False])))))
  swallow := false

/-- `parse_TripleTermData` (crates/sparql-parser/src/parser/grammar.rs L3707-3736). -/
def fn_TripleTermData : FnDef where
  guard := none
  kind := K.TripleTermData
  body := (.seq (.expect K.DoubleLessLParen) (.seq (.call K.TripleTermDataSubject) (.seq (.alt (.arm [K.IRIREF, K.PNAME_NS, K.PNAME_LN] (.call K.iri) (.arm [K.a] (.expect K.a) (.altEnd (some [K.IRIREF, K.PNAME_NS, K.PNAME_LN, K.a]))))) (.seq (.call K.TripleTermDataObject) (.expect K.RParenDoubleMore)))))
  swallow := false

/-- `parse_Reifier` (crates/sparql-parser/src/parser/grammar.rs L3738-3753). -/
def fn_Reifier : FnDef where
  guard := none
  kind := K.Reifier
  body := (.seq (.expect K.Tilde) (.opt [K.IRIREF, K.PNAME_NS, K.VAR1, K.VAR2, K.PNAME_LN, K.BLANK_NODE_LABEL, K.ANON] (.call K.VarOrReifierId)))
  swallow := false

/-- `parse_VarOrReifierId` (crates/sparql-parser/src/parser/grammar.rs L3755-3786). -/
def fn_VarOrReifierId : FnDef where
  guard := none
  kind := K.VarOrReifierId
  body := (.alt (.arm [K.VAR1, K.VAR2] (.call K.Var) (.arm [K.IRIREF, K.PNAME_NS, K.PNAME_LN] (.call K.iri) (.arm [K.BLANK_NODE_LABEL, K.ANON] (.call K.BlankNode) (.altEnd (some [K.VAR1, K.VAR2, K.IRIREF, K.PNAME_NS, K.PNAME_LN, K.BLANK_NODE_LABEL, K.ANON]))))))
  swallow := false

/-- `parse_BlankNode` (crates/sparql-parser/src/parser/grammar.rs L3788-3808). -/
def fn_BlankNode : FnDef where
  guard := none
  kind := K.BlankNode
  body := (.alt (.arm [K.BLANK_NODE_LABEL] (.expect K.BLANK_NODE_LABEL) (.arm [K.ANON] (.expect K.ANON) (.altEnd (some [K.BLANK_NODE_LABEL, K.ANON])))))
  swallow := false

/-- `parse_ArgList` (crates/sparql-parser/src/parser/grammar.rs L3810-3843). -/
def fn_ArgList : FnDef where
  guard := none
  kind := K.ArgList
  body := (.alt (.arm [K.NIL] (.expect K.NIL) (.arm [K.LParen] (.seq (.expect K.LParen) (.seq (.opt [K.DISTINCT] (.expect K.DISTINCT)) (.seq (.call K.Expression) (.seq (.rep [K.Comma] (.seq (.expect K.Comma) (.call K.Expression))) (.expect K.RParen))))) (.altEnd (some [K.NIL, K.LParen])))))
  swallow := false

/-- `parse_ExpressionList` (crates/sparql-parser/src/parser/grammar.rs L3845-3875). -/
def fn_ExpressionList : FnDef where
  guard := none
  kind := K.ExpressionList
  body := (.alt (.arm [K.NIL] (.expect K.NIL) (.arm [K.LParen] (.seq (.expect K.LParen) (.seq (.call K.Expression) (.seq (.rep [K.Comma] (.seq (.expect K.Comma) (.call K.Expression))) (.expect K.RParen)))) (.altEnd (some [K.NIL, K.LParen])))))
  swallow := false

/-- `parse_ConstructTriples` (crates/sparql-parser/src/parser/grammar.rs L3877-3915). -/
def fn_ConstructTriples : FnDef where
  guard := none
  kind := K.ConstructTriples
  body := (.seq (.call K.TriplesSameSubject) (.opt [K.Dot] (.seq (.expect K.Dot) (.opt [K.IRIREF, K.PNAME_NS, K.STRING_LITERAL1, K.STRING_LITERAL2, K.LParen, K.INTEGER, K.NIL, K.LBrack, K.DoubleLess, K.DoubleLessLParen, K.VAR1, K.VAR2, K.DECIMAL, K.DOUBLE, K.INTEGER_POSITIVE, K.DECIMAL_POSITIVE, K.DOUBLE_POSITIVE, K.INTEGER_NEGATIVE, K.DECIMAL_NEGATIVE, K.DOUBLE_NEGATIVE, K.True, K.False, K.STRING_LITERAL_LONG1, K.STRING_LITERAL_LONG2, K.PNAME_LN, K.BLANK_NODE_LABEL, K.ANON] (.call K.ConstructTriples)))))
  swallow := false

/-- `parse_VarOrTerm` (crates/sparql-parser/src/parser/grammar.rs L3917-3991). -/
def fn_VarOrTerm : FnDef where
  guard := none
  kind := K.VarOrTerm
  body := (.alt (.arm [K.VAR1, K.VAR2] (.call K.Var) (.arm [K.IRIREF, K.PNAME_NS, K.PNAME_LN] (.call K.iri) (.arm [K.STRING_LITERAL1, K.STRING_LITERAL2, K.STRING_LITERAL_LONG1, K.STRING_LITERAL_LONG2] (.call K.RDFLiteral) (.arm [K.INTEGER, K.DECIMAL, K.DOUBLE, K.INTEGER_POSITIVE, K.DECIMAL_POSITIVE, K.DOUBLE_POSITIVE, K.INTEGER_NEGATIVE, K.DECIMAL_NEGATIVE, K.DOUBLE_NEGATIVE] (.call K.NumericLiteral) (.arm [K.True, K.False] (.call K.BooleanLiteral) (.arm [K.BLANK_NODE_LABEL, K.ANON] (.call K.BlankNode) (.arm [K.NIL] (.expect K.NIL) (.arm [K.DoubleLessLParen] (.call K.TripleTerm) (.altEnd (some [K.VAR1, K.VAR2, K.IRIREF, K.PNAME_NS, K.PNAME_LN, K.STRING_LITERAL1, K.STRING_LITERAL2, K.STRING_LITERAL_LONG1, K.STRING_LITERAL_LONG2, K.INTEGER, K.DECIMAL, K.DOUBLE, K.INTEGER_POSITIVE, K.DECIMAL_POSITIVE, K.DOUBLE_POSITIVE, K.INTEGER_NEGATIVE, K.DECIMAL_NEGATIVE, K.DOUBLE_NEGATIVE, K.True, K.False, K.BLANK_NODE_LABEL, K.ANON, K.NIL, K.DoubleLessLParen])))))))))))
  swallow := false

/-- `parse_PropertyListNotEmpty` (crates/sparql-parser/src/parser/grammar.rs L3993-4016). -/
def fn_PropertyListNotEmpty : FnDef where
  guard := none
  kind := K.PropertyListNotEmpty
  body := (.seq (.call K.Verb) (.seq (.call K.ObjectList) (.rep [K.Semicolon] (.seq (.expect K.Semicolon) (.opt [K.IRIREF, K.PNAME_NS, K.a, K.VAR1, K.VAR2, K.PNAME_LN] (.seq (.call K.Verb) (.call K.ObjectList)))))))
  swallow := false

/-- `parse_TriplesNode` (crates/sparql-parser/src/parser/grammar.rs L4018-4038). -/
def fn_TriplesNode : FnDef where
  guard := none
  kind := K.TriplesNode
  body := (.alt (.arm [K.LParen] (.call K.Collection) (.arm [K.LBrack] (.call K.BlankNodePropertyList) (.altEnd (some [K.LParen, K.LBrack])))))
  swallow := false

/-- `parse_Verb` (crates/sparql-parser/src/parser/grammar.rs L4040-4071). -/
def fn_Verb : FnDef where
  guard := none
  kind := K.Verb
  body := (.alt (.arm [K.IRIREF, K.PNAME_NS, K.VAR1, K.VAR2, K.PNAME_LN] (.call K.VarOrIri) (.arm [K.a] (.expect K.a) (.altEnd (some [K.IRIREF, K.PNAME_NS, K.VAR1, K.VAR2, K.PNAME_LN, K.a])))))
  swallow := false

/-- `parse_ObjectList` (crates/sparql-parser/src/parser/grammar.rs L4073-4085). -/
def fn_ObjectList : FnDef where
  guard := none
  kind := K.ObjectList
  body := (.seq (.call K.Object) (.rep [K.Comma] (.seq (.expect K.Comma) (.call K.Object))))
  swallow := false

/-- `parse_Object` (crates/sparql-parser/src/parser/grammar.rs L4087-4092). -/
def fn_Object : FnDef where
  guard := none
  kind := K.Object
  body := (.seq (.call K.GraphNode) (.call K.Annotation))
  swallow := false

/-- `parse_GraphNode` (crates/sparql-parser/src/parser/grammar.rs L4094-4168). -/
def fn_GraphNode : FnDef where
  guard := none
  kind := K.GraphNode
  body := (.alt (.arm [K.IRIREF, K.PNAME_NS, K.STRING_LITERAL1, K.STRING_LITERAL2, K.INTEGER, K.NIL, K.DoubleLessLParen, K.VAR1, K.VAR2, K.DECIMAL, K.DOUBLE, K.INTEGER_POSITIVE, K.DECIMAL_POSITIVE, K.DOUBLE_POSITIVE, K.INTEGER_NEGATIVE, K.DECIMAL_NEGATIVE, K.DOUBLE_NEGATIVE, K.True, K.False, K.STRING_LITERAL_LONG1, K.STRING_LITERAL_LONG2, K.PNAME_LN, K.BLANK_NODE_LABEL, K.ANON] (.call K.VarOrTerm) (.arm [K.LParen, K.LBrack] (.call K.TriplesNode) (.arm [K.DoubleLess] (.call K.ReifiedTriple) (.altEnd (some [K.IRIREF, K.PNAME_NS, K.STRING_LITERAL1, K.STRING_LITERAL2, K.INTEGER, K.NIL, K.DoubleLessLParen, K.VAR1, K.VAR2, K.DECIMAL, K.DOUBLE, K.INTEGER_POSITIVE, K.DECIMAL_POSITIVE, K.DOUBLE_POSITIVE, K.INTEGER_NEGATIVE, K.DECIMAL_NEGATIVE, K.DOUBLE_NEGATIVE, K.True, K.False, K.STRING_LITERAL_LONG1, K.STRING_LITERAL_LONG2, K.PNAME_LN, K.BLANK_NODE_LABEL, K.ANON, K.LParen, K.LBrack, K.DoubleLess]))))))
  swallow := false

/-- `parse_Annotation` (crates/sparql-parser/src/parser/grammar.rs L4170-4199). -/
def fn_Annotation : FnDef where
  guard := some [K.Tilde, K.LCurlyPipe]
  kind := K.Annotation
  body := (.rep [K.Tilde, K.LCurlyPipe] (.alt (.arm [K.Tilde] (.call K.Reifier) (.arm [K.LCurlyPipe] (.call K.AnnotationBlock) (.altEnd (some [K.Tilde, K.LCurlyPipe]))))))
  swallow := false

/-- `parse_PropertyListPathNotEmpty` (crates/sparql-parser/src/parser/grammar.rs L4201-4291). -/
def fn_PropertyListPathNotEmpty : FnDef where
  guard := none
  kind := K.PropertyListPathNotEmpty
  body := (.seq (.alt (.arm [K.IRIREF, K.PNAME_NS, K.LParen, K.a, K.Zirkumflex, K.ExclamationMark, K.PNAME_LN] (.call K.VerbPath) (.arm [K.VAR1, K.VAR2] (.call K.VerbSimple) (.altEnd (some [K.IRIREF, K.PNAME_NS, K.LParen, K.a, K.Zirkumflex, K.ExclamationMark, K.PNAME_LN, K.VAR1, K.VAR2]))))) (.seq (.call K.ObjectListPath) (.rep [K.Semicolon] (.seq (.expect K.Semicolon) (.opt [K.IRIREF, K.PNAME_NS, K.LParen, K.a, K.Zirkumflex, K.ExclamationMark, K.VAR1, K.VAR2, K.PNAME_LN] (.seq (.alt (.arm [K.IRIREF, K.PNAME_NS, K.LParen, K.a, K.Zirkumflex, K.ExclamationMark, K.PNAME_LN] (.call K.VerbPath) (.arm [K.VAR1, K.VAR2] (.call K.VerbSimple) (.altEnd (some [K.IRIREF, K.PNAME_NS, K.LParen, K.a, K.Zirkumflex, K.ExclamationMark, K.PNAME_LN, K.VAR1, K.VAR2]))))) (.call K.ObjectListPath)))))))
  swallow := false

/-- `parse_TriplesNodePath` (crates/sparql-parser/src/parser/grammar.rs L4293-4313). -/
def fn_TriplesNodePath : FnDef where
  guard := none
  kind := K.TriplesNodePath
  body := (.alt (.arm [K.LParen] (.call K.CollectionPath) (.arm [K.LBrack] (.call K.BlankNodePropertyListPath) (.altEnd (some [K.LParen, K.LBrack])))))
  swallow := false

/-- `parse_VerbPath` (crates/sparql-parser/src/parser/grammar.rs L4315-4319). -/
def fn_VerbPath : FnDef where
  guard := none
  kind := K.VerbPath
  body := (.call K.Path)
  swallow := false

/-- `parse_VerbSimple` (crates/sparql-parser/src/parser/grammar.rs L4321-4325). -/
def fn_VerbSimple : FnDef where
  guard := none
  kind := K.VerbSimple
  body := (.call K.Var)
  swallow := false

/-- `parse_ObjectListPath` (crates/sparql-parser/src/parser/grammar.rs L4327-4339). -/
def fn_ObjectListPath : FnDef where
  guard := none
  kind := K.ObjectListPath
  body := (.seq (.call K.ObjectPath) (.rep [K.Comma] (.seq (.expect K.Comma) (.call K.ObjectPath))))
  swallow := false

/-- `parse_Path` (crates/sparql-parser/src/parser/grammar.rs L4341-4345). -/
def fn_Path : FnDef where
  guard := none
  kind := K.Path
  body := (.call K.PathAlternative)
  swallow := false

/-- `parse_ObjectPath` (crates/sparql-parser/src/parser/grammar.rs L4347-4352). -/
def fn_ObjectPath : FnDef where
  guard := none
  kind := K.ObjectPath
  body := (.seq (.call K.GraphNodePath) (.call K.AnnotationPath))
  swallow := false

/-- `parse_GraphNodePath` (crates/sparql-parser/src/parser/grammar.rs L4354-4428). -/
def fn_GraphNodePath : FnDef where
  guard := none
  kind := K.GraphNodePath
  body := (.alt (.arm [K.IRIREF, K.PNAME_NS, K.STRING_LITERAL1, K.STRING_LITERAL2, K.INTEGER, K.NIL, K.DoubleLessLParen, K.VAR1, K.VAR2, K.DECIMAL, K.DOUBLE, K.INTEGER_POSITIVE, K.DECIMAL_POSITIVE, K.DOUBLE_POSITIVE, K.INTEGER_NEGATIVE, K.DECIMAL_NEGATIVE, K.DOUBLE_NEGATIVE, K.True, K.False, K.STRING_LITERAL_LONG1, K.STRING_LITERAL_LONG2, K.PNAME_LN, K.BLANK_NODE_LABEL, K.ANON] (.call K.VarOrTerm) (.arm [K.LParen, K.LBrack] (.call K.TriplesNodePath) (.arm [K.DoubleLess] (.call K.ReifiedTriple) (.altEnd (some [K.IRIREF, K.PNAME_NS, K.STRING_LITERAL1, K.STRING_LITERAL2, K.INTEGER, K.NIL, K.DoubleLessLParen, K.VAR1, K.VAR2, K.DECIMAL, K.DOUBLE, K.INTEGER_POSITIVE, K.DECIMAL_POSITIVE, K.DOUBLE_POSITIVE, K.INTEGER_NEGATIVE, K.DECIMAL_NEGATIVE, K.DOUBLE_NEGATIVE, K.True, K.False, K.STRING_LITERAL_LONG1, K.STRING_LITERAL_LONG2, K.PNAME_LN, K.BLANK_NODE_LABEL, K.ANON, K.LParen, K.LBrack, K.DoubleLess]))))))
  swallow := false

/-- `parse_AnnotationPath` (crates/sparql-parser/src/parser/grammar.rs L4430-4459). -/
def fn_AnnotationPath : FnDef where
  guard := some [K.Tilde, K.LCurlyPipe]
  kind := K.AnnotationPath
  body := (.rep [K.Tilde, K.LCurlyPipe] (.alt (.arm [K.Tilde] (.call K.Reifier) (.arm [K.LCurlyPipe] (.call K.AnnotationBlockPath) (.altEnd (some [K.Tilde, K.LCurlyPipe]))))))
  swallow := false

/-- `parse_PathAlternative` (crates/sparql-parser/src/parser/grammar.rs L4461-4473). -/
def fn_PathAlternative : FnDef where
  guard := none
  kind := K.PathAlternative
  body := (.seq (.call K.PathSequence) (.rep [K.Pipe] (.seq (.expect K.Pipe) (.call K.PathSequence))))
  swallow := false

/-- `parse_PathSequence` (crates/sparql-parser/src/parser/grammar.rs L4475-4487). -/
def fn_PathSequence : FnDef where
  guard := none
  kind := K.PathSequence
  body := (.seq (.call K.PathEltOrInverse) (.rep [K.Slash] (.seq (.expect K.Slash) (.call K.PathEltOrInverse))))
  swallow := false

/-- `parse_PathEltOrInverse` (crates/sparql-parser/src/parser/grammar.rs L4489-4523). -/
def fn_PathEltOrInverse : FnDef where
  guard := none
  kind := K.PathEltOrInverse
  body := (.alt (.arm [K.IRIREF, K.PNAME_NS, K.LParen, K.a, K.ExclamationMark, K.PNAME_LN] (.call K.PathElt) (.arm [K.Zirkumflex] (.seq (.expect K.Zirkumflex) (.call K.PathElt)) (.altEnd (some [K.IRIREF, K.PNAME_NS, K.LParen, K.a, K.ExclamationMark, K.PNAME_LN, K.Zirkumflex])))))
  swallow := false

/-- `parse_PathElt` (crates/sparql-parser/src/parser/grammar.rs L4525-4532). -/
def fn_PathElt : FnDef where
  guard := none
  kind := K.PathElt
  body := (.seq (.call K.PathPrimary) (.opt [K.Star, K.QuestionMark, K.Plus] (.call K.PathMod)))
  swallow := false

/-- `parse_PathPrimary` (crates/sparql-parser/src/parser/grammar.rs L4534-4570). -/
def fn_PathPrimary : FnDef where
  guard := none
  kind := K.PathPrimary
  body := (.alt (.arm [K.IRIREF, K.PNAME_NS, K.PNAME_LN] (.call K.iri) (.arm [K.a] (.expect K.a) (.arm [K.ExclamationMark] (.seq (.expect K.ExclamationMark) (.call K.PathNegatedPropertySet)) (.arm [K.LParen] (.seq (.expect K.LParen) (.seq (.call K.Path) (.expect K.RParen))) (.altEnd (some [K.IRIREF, K.PNAME_NS, K.PNAME_LN, K.a, K.ExclamationMark, K.LParen])))))))
  swallow := false

/-- `parse_PathMod` (crates/sparql-parser/src/parser/grammar.rs L4572-4599). -/
def fn_PathMod : FnDef where
  guard := none
  kind := K.PathMod
  body := (.alt (.arm [K.QuestionMark] (.expect K.QuestionMark) (.arm [K.Star] (.expect K.Star) (.arm [K.Plus] (.expect K.Plus) (.altEnd (some [K.QuestionMark, K.Star, K.Plus]))))))
  swallow := false

/-- `parse_PathNegatedPropertySet` (crates/sparql-parser/src/parser/grammar.rs L4601-4650). -/
def fn_PathNegatedPropertySet : FnDef where
  guard := none
  kind := K.PathNegatedPropertySet
  body := (.alt (.arm [K.IRIREF, K.PNAME_NS, K.a, K.Zirkumflex, K.PNAME_LN] (.call K.PathOneInPropertySet) (.arm [K.LParen] (.seq (.expect K.LParen) (.seq (.opt [K.IRIREF, K.PNAME_NS, K.a, K.Zirkumflex, K.PNAME_LN] (.seq (.call K.PathOneInPropertySet) (.rep [K.Pipe] (.seq (.expect K.Pipe) (.call K.PathOneInPropertySet))))) (.expect K.RParen))) (.altEnd (some [K.IRIREF, K.PNAME_NS, K.a, K.Zirkumflex, K.PNAME_LN, K.LParen])))))
  swallow := false

/-- `parse_PathOneInPropertySet` (crates/sparql-parser/src/parser/grammar.rs L4652-4703). -/
def fn_PathOneInPropertySet : FnDef where
  guard := none
  kind := K.PathOneInPropertySet
  body := (.alt (.arm [K.IRIREF, K.PNAME_NS, K.PNAME_LN] (.call K.iri) (.arm [K.a] (.expect K.a) (.arm [K.Zirkumflex] (.seq (.expect K.Zirkumflex) (.alt (.arm [K.IRIREF, K.PNAME_NS, K.PNAME_LN] (.call K.iri) (.arm [K.a] (.expect K.a) (.altEnd (some [K.IRIREF, K.PNAME_NS, K.PNAME_LN, K.a])))))) (.altEnd (some [K.IRIREF, K.PNAME_NS, K.PNAME_LN, K.a, K.Zirkumflex]))))))
  swallow := false

/-- `parse_Collection` (crates/sparql-parser/src/parser/grammar.rs L4705-4748). -/
def fn_Collection : FnDef where
  guard := none
  kind := K.Collection
  body := (.seq (.expect K.LParen) (.seq (.call K.GraphNode) (.seq (.rep [K.IRIREF, K.PNAME_NS, K.STRING_LITERAL1, K.STRING_LITERAL2, K.LParen, K.INTEGER, K.NIL, K.LBrack, K.DoubleLess, K.DoubleLessLParen, K.VAR1, K.VAR2, K.DECIMAL, K.DOUBLE, K.INTEGER_POSITIVE, K.DECIMAL_POSITIVE, K.DOUBLE_POSITIVE, K.INTEGER_NEGATIVE, K.DECIMAL_NEGATIVE, K.DOUBLE_NEGATIVE, K.True, K.False, K.STRING_LITERAL_LONG1, K.STRING_LITERAL_LONG2, K.PNAME_LN, K.BLANK_NODE_LABEL, K.ANON] (.call K.GraphNode)) (.expect K.RParen))))
  swallow := false

/-- `parse_BlankNodePropertyList` (crates/sparql-parser/src/parser/grammar.rs L4750-4756). -/
def fn_BlankNodePropertyList : FnDef where
  guard := none
  kind := K.BlankNodePropertyList
  body := (.seq (.expect K.LBrack) (.seq (.call K.PropertyListNotEmpty) (.expect K.RBrack)))
  swallow := false

/-- `parse_CollectionPath` (crates/sparql-parser/src/parser/grammar.rs L4758-4801). -/
def fn_CollectionPath : FnDef where
  guard := none
  kind := K.CollectionPath
  body := (.seq (.expect K.LParen) (.seq (.call K.GraphNodePath) (.seq (.rep [K.IRIREF, K.PNAME_NS, K.STRING_LITERAL1, K.STRING_LITERAL2, K.LParen, K.INTEGER, K.NIL, K.LBrack, K.DoubleLess, K.DoubleLessLParen, K.VAR1, K.VAR2, K.DECIMAL, K.DOUBLE, K.INTEGER_POSITIVE, K.DECIMAL_POSITIVE, K.DOUBLE_POSITIVE, K.INTEGER_NEGATIVE, K.DECIMAL_NEGATIVE, K.DOUBLE_NEGATIVE, K.True, K.False, K.STRING_LITERAL_LONG1, K.STRING_LITERAL_LONG2, K.PNAME_LN, K.BLANK_NODE_LABEL, K.ANON] (.call K.GraphNodePath)) (.expect K.RParen))))
  swallow := false

/-- `parse_BlankNodePropertyListPath` (crates/sparql-parser/src/parser/grammar.rs L4803-4809). -/
def fn_BlankNodePropertyListPath : FnDef where
  guard := none
  kind := K.BlankNodePropertyListPath
  body := (.seq (.expect K.LBrack) (.seq (.call K.PropertyListPathNotEmpty) (.expect K.RBrack)))
  swallow := false

/-- `parse_AnnotationBlockPath` (crates/sparql-parser/src/parser/grammar.rs L4811-4817). -/
def fn_AnnotationBlockPath : FnDef where
  guard := none
  kind := K.AnnotationBlockPath
  body := (.seq (.expect K.LCurlyPipe) (.seq (.call K.PropertyListPathNotEmpty) (.expect K.PipeRCurly)))
  swallow := false

/-- `parse_AnnotationBlock` (crates/sparql-parser/src/parser/grammar.rs L4819-4825). -/
def fn_AnnotationBlock : FnDef where
  guard := none
  kind := K.AnnotationBlock
  body := (.seq (.expect K.LCurlyPipe) (.seq (.call K.PropertyListNotEmpty) (.expect K.PipeRCurly)))
  swallow := false

/-- `parse_TripleTerm` (crates/sparql-parser/src/parser/grammar.rs L4827-4835). -/
def fn_TripleTerm : FnDef where
  guard := none
  kind := K.TripleTerm
  body := (.seq (.expect K.DoubleLessLParen) (.seq (.call K.TripleTermSubject) (.seq (.call K.Verb) (.seq (.call K.TripleTermObject) (.expect K.RParenDoubleMore)))))
  swallow := false

/-- `parse_ReifiedTripleSubject` (crates/sparql-parser/src/parser/grammar.rs L4837-4911). -/
def fn_ReifiedTripleSubject : FnDef where
  guard := none
  kind := K.ReifiedTripleSubject
  body := (.alt (.arm [K.VAR1, K.VAR2] (.call K.Var) (.arm [K.IRIREF, K.PNAME_NS, K.PNAME_LN] (.call K.iri) (.arm [K.STRING_LITERAL1, K.STRING_LITERAL2, K.STRING_LITERAL_LONG1, K.STRING_LITERAL_LONG2] (.call K.RDFLiteral) (.arm [K.INTEGER, K.DECIMAL, K.DOUBLE, K.INTEGER_POSITIVE, K.DECIMAL_POSITIVE, K.DOUBLE_POSITIVE, K.INTEGER_NEGATIVE, K.DECIMAL_NEGATIVE, K.DOUBLE_NEGATIVE] (.call K.NumericLiteral) (.arm [K.True, K.False] (.call K.BooleanLiteral) (.arm [K.BLANK_NODE_LABEL, K.ANON] (.call K.BlankNode) (.arm [K.DoubleLess] (.call K.ReifiedTriple) (.arm [K.DoubleLessLParen] (.call K.TripleTerm) (.altEnd (some [K.VAR1, K.VAR2, K.IRIREF, K.PNAME_NS, K.PNAME_LN, K.STRING_LITERAL1, K.STRING_LITERAL2, K.STRING_LITERAL_LONG1, K.STRING_LITERAL_LONG2, K.INTEGER, K.DECIMAL, K.DOUBLE, K.INTEGER_POSITIVE, K.DECIMAL_POSITIVE, K.DOUBLE_POSITIVE, K.INTEGER_NEGATIVE, K.DECIMAL_NEGATIVE, K.DOUBLE_NEGATIVE, K.True, K.False, K.BLANK_NODE_LABEL, K.ANON, K.DoubleLess, K.DoubleLessLParen])))))))))))
  swallow := false

/-- `parse_ReifiedTripleObject` (crates/sparql-parser/src/parser/grammar.rs L4913-4987). -/
def fn_ReifiedTripleObject : FnDef where
  guard := none
  kind := K.ReifiedTripleObject
  body := (.alt (.arm [K.VAR1, K.VAR2] (.call K.Var) (.arm [K.IRIREF, K.PNAME_NS, K.PNAME_LN] (.call K.iri) (.arm [K.STRING_LITERAL1, K.STRING_LITERAL2, K.STRING_LITERAL_LONG1, K.STRING_LITERAL_LONG2] (.call K.RDFLiteral) (.arm [K.INTEGER, K.DECIMAL, K.DOUBLE, K.INTEGER_POSITIVE, K.DECIMAL_POSITIVE, K.DOUBLE_POSITIVE, K.INTEGER_NEGATIVE, K.DECIMAL_NEGATIVE, K.DOUBLE_NEGATIVE] (.call K.NumericLiteral) (.arm [K.True, K.False] (.call K.BooleanLiteral) (.arm [K.BLANK_NODE_LABEL, K.ANON] (.call K.BlankNode) (.arm [K.DoubleLess] (.call K.ReifiedTriple) (.arm [K.DoubleLessLParen] (.call K.TripleTerm) (.altEnd (some [K.VAR1, K.VAR2, K.IRIREF, K.PNAME_NS, K.PNAME_LN, K.STRING_LITERAL1, K.STRING_LITERAL2, K.STRING_LITERAL_LONG1, K.STRING_LITERAL_LONG2, K.INTEGER, K.DECIMAL, K.DOUBLE, K.INTEGER_POSITIVE, K.DECIMAL_POSITIVE, K.DOUBLE_POSITIVE, K.INTEGER_NEGATIVE, K.DECIMAL_NEGATIVE, K.DOUBLE_NEGATIVE, K.True, K.False, K.BLANK_NODE_LABEL, K.ANON, K.DoubleLess, K.DoubleLessLParen])))))))))))
  swallow := false

/-- `parse_TripleTermSubject` (crates/sparql-parser/src/parser/grammar.rs L4989-5059). -/
def fn_TripleTermSubject : FnDef where
  guard := none
  kind := K.TripleTermSubject
  body := (.alt (.arm [K.VAR1, K.VAR2] (.call K.Var) (.arm [K.IRIREF, K.PNAME_NS, K.PNAME_LN] (.call K.iri) (.arm [K.STRING_LITERAL1, K.STRING_LITERAL2, K.STRING_LITERAL_LONG1, K.STRING_LITERAL_LONG2] (.call K.RDFLiteral) (.arm [K.INTEGER, K.DECIMAL, K.DOUBLE, K.INTEGER_POSITIVE, K.DECIMAL_POSITIVE, K.DOUBLE_POSITIVE, K.INTEGER_NEGATIVE, K.DECIMAL_NEGATIVE, K.DOUBLE_NEGATIVE] (.call K.NumericLiteral) (.arm [K.True, K.False] (.call K.BooleanLiteral) (.arm [K.BLANK_NODE_LABEL, K.ANON] (.call K.BlankNode) (.arm [K.DoubleLessLParen] (.call K.TripleTerm) (.altEnd (some [K.VAR1, K.VAR2, K.IRIREF, K.PNAME_NS, K.PNAME_LN, K.STRING_LITERAL1, K.STRING_LITERAL2, K.STRING_LITERAL_LONG1, K.STRING_LITERAL_LONG2, K.INTEGER, K.DECIMAL, K.DOUBLE, K.INTEGER_POSITIVE, K.DECIMAL_POSITIVE, K.DOUBLE_POSITIVE, K.INTEGER_NEGATIVE, K.DECIMAL_NEGATIVE, K.DOUBLE_NEGATIVE, K.True, K.False, K.BLANK_NODE_LABEL, K.ANON, K.DoubleLessLParen]))))))))))
  swallow := false

/-- `parse_TripleTermObject` (crates/sparql-parser/src/parser/grammar.rs L5061-5131). -/
def fn_TripleTermObject : FnDef where
  guard := none
  kind := K.TripleTermObject
  body := (.alt (.arm [K.VAR1, K.VAR2] (.call K.Var) (.arm [K.IRIREF, K.PNAME_NS, K.PNAME_LN] (.call K.iri) (.arm [K.STRING_LITERAL1, K.STRING_LITERAL2, K.STRING_LITERAL_LONG1, K.STRING_LITERAL_LONG2] (.call K.RDFLiteral) (.arm [K.INTEGER, K.DECIMAL, K.DOUBLE, K.INTEGER_POSITIVE, K.DECIMAL_POSITIVE, K.DOUBLE_POSITIVE, K.INTEGER_NEGATIVE, K.DECIMAL_NEGATIVE, K.DOUBLE_NEGATIVE] (.call K.NumericLiteral) (.arm [K.True, K.False] (.call K.BooleanLiteral) (.arm [K.BLANK_NODE_LABEL, K.ANON] (.call K.BlankNode) (.arm [K.DoubleLessLParen] (.call K.TripleTerm) (.altEnd (some [K.VAR1, K.VAR2, K.IRIREF, K.PNAME_NS, K.PNAME_LN, K.STRING_LITERAL1, K.STRING_LITERAL2, K.STRING_LITERAL_LONG1, K.STRING_LITERAL_LONG2, K.INTEGER, K.DECIMAL, K.DOUBLE, K.INTEGER_POSITIVE, K.DECIMAL_POSITIVE, K.DOUBLE_POSITIVE, K.INTEGER_NEGATIVE, K.DECIMAL_NEGATIVE, K.DOUBLE_NEGATIVE, K.True, K.False, K.BLANK_NODE_LABEL, K.ANON, K.DoubleLessLParen]))))))))))
  swallow := false

/-- `parse_TripleTermDataSubject` (crates/sparql-parser/src/parser/grammar.rs L5133-5137). -/
def fn_TripleTermDataSubject : FnDef where
  guard := none
  kind := K.TripleTermDataSubject
  body := (.call K.iri)
  swallow := false

/-- `parse_TripleTermDataObject` (crates/sparql-parser/src/parser/grammar.rs L5139-5199). -/
def fn_TripleTermDataObject : FnDef where
  guard := none
  kind := K.TripleTermDataObject
  body := (.alt (.arm [K.IRIREF, K.PNAME_NS, K.PNAME_LN] (.call K.iri) (.arm [K.STRING_LITERAL1, K.STRING_LITERAL2, K.STRING_LITERAL_LONG1, K.STRING_LITERAL_LONG2] (.call K.RDFLiteral) (.arm [K.INTEGER, K.DECIMAL, K.DOUBLE, K.INTEGER_POSITIVE, K.DECIMAL_POSITIVE, K.DOUBLE_POSITIVE, K.INTEGER_NEGATIVE, K.DECIMAL_NEGATIVE, K.DOUBLE_NEGATIVE] (.call K.NumericLiteral) (.arm [K.True, K.False] (.call K.BooleanLiteral) (.arm [K.DoubleLessLParen] (.call K.TripleTermData) (.altEnd (some [K.IRIREF, K.PNAME_NS, K.PNAME_LN, K.STRING_LITERAL1, K.STRING_LITERAL2, K.STRING_LITERAL_LONG1, K.STRING_LITERAL_LONG2, K.INTEGER, K.DECIMAL, K.DOUBLE, K.INTEGER_POSITIVE, K.DECIMAL_POSITIVE, K.DOUBLE_POSITIVE, K.INTEGER_NEGATIVE, K.DECIMAL_NEGATIVE, K.DOUBLE_NEGATIVE, K.True, K.False, K.DoubleLessLParen]))))))))
  swallow := false

/-- `parse_ConditionalOrExpression` (crates/sparql-parser/src/parser/grammar.rs L5201-5213). -/
def fn_ConditionalOrExpression : FnDef where
  guard := none
  kind := K.ConditionalOrExpression
  body := (.seq (.call K.ConditionalAndExpression) (.rep [K.DoublePipe] (.seq (.expect K.DoublePipe) (.call K.ConditionalAndExpression))))
  swallow := false

/-- `parse_ConditionalAndExpression` (crates/sparql-parser/src/parser/grammar.rs L5215-5227). -/
def fn_ConditionalAndExpression : FnDef where
  guard := none
  kind := K.ConditionalAndExpression
  body := (.seq (.call K.ValueLogical) (.rep [K.DoubleAnd] (.seq (.expect K.DoubleAnd) (.call K.ValueLogical))))
  swallow := false

/-- `parse_ValueLogical` (crates/sparql-parser/src/parser/grammar.rs L5229-5233). -/
def fn_ValueLogical : FnDef where
  guard := none
  kind := K.ValueLogical
  body := (.call K.RelationalExpression)
  swallow := false

/-- `parse_RelationalExpression` (crates/sparql-parser/src/parser/grammar.rs L5235-5303). -/
def fn_RelationalExpression : FnDef where
  guard := none
  kind := K.RelationalExpression
  body := (.seq (.call K.NumericExpression) (.opt [K.Equals, K.ExclamationMarkEquals, K.Less, K.More, K.LessEquals, K.MoreEquals, K.IN, K.NOT] (.alt (.arm [K.Equals] (.seq (.expect K.Equals) (.call K.NumericExpression)) (.arm [K.ExclamationMarkEquals] (.seq (.expect K.ExclamationMarkEquals) (.call K.NumericExpression)) (.arm [K.Less] (.seq (.expect K.Less) (.call K.NumericExpression)) (.arm [K.More] (.seq (.expect K.More) (.call K.NumericExpression)) (.arm [K.LessEquals] (.seq (.expect K.LessEquals) (.call K.NumericExpression)) (.arm [K.MoreEquals] (.seq (.expect K.MoreEquals) (.call K.NumericExpression)) (.arm [K.IN] (.seq (.expect K.IN) (.call K.ExpressionList)) (.arm [K.NOT] (.seq (.expect K.NOT) (.seq (.expect K.IN) (.call K.ExpressionList))) (.altEnd (some [K.Equals, K.ExclamationMarkEquals, K.Less, K.More, K.LessEquals, K.MoreEquals, K.IN, K.NOT])))))))))))))
  swallow := false

/-- `parse_NumericExpression` (crates/sparql-parser/src/parser/grammar.rs L5305-5309). -/
def fn_NumericExpression : FnDef where
  guard := none
  kind := K.NumericExpression
  body := (.call K.AdditiveExpression)
  swallow := false

/-- `parse_AdditiveExpression` (crates/sparql-parser/src/parser/grammar.rs L5311-5420). -/
def fn_AdditiveExpression : FnDef where
  guard := none
  kind := K.AdditiveExpression
  body := (.seq (.call K.MultiplicativeExpression) (.rep [K.Plus, K.Minus, K.INTEGER_POSITIVE, K.DECIMAL_POSITIVE, K.DOUBLE_POSITIVE, K.INTEGER_NEGATIVE, K.DECIMAL_NEGATIVE, K.DOUBLE_NEGATIVE] (.alt (.arm [K.Plus] (.seq (.expect K.Plus) (.call K.MultiplicativeExpression)) (.arm [K.Minus] (.seq (.expect K.Minus) (.call K.MultiplicativeExpression)) (.arm [K.INTEGER_POSITIVE, K.DECIMAL_POSITIVE, K.DOUBLE_POSITIVE, K.INTEGER_NEGATIVE, K.DECIMAL_NEGATIVE, K.DOUBLE_NEGATIVE] (.seq (.alt (.arm [K.INTEGER_POSITIVE, K.DECIMAL_POSITIVE, K.DOUBLE_POSITIVE] (.call K.NumericLiteralPositive) (.arm [K.INTEGER_NEGATIVE, K.DECIMAL_NEGATIVE, K.DOUBLE_NEGATIVE] (.call K.NumericLiteralNegative) (.altEnd (some [K.INTEGER_POSITIVE, K.DECIMAL_POSITIVE, K.DOUBLE_POSITIVE, K.INTEGER_NEGATIVE, K.DECIMAL_NEGATIVE, K.DOUBLE_NEGATIVE]))))) (.rep [K.Star, K.Slash] (.alt (.arm [K.Star] (.seq (.expect K.Star) (.call K.UnaryExpression)) (.arm [K.Slash] (.seq (.expect K.Slash) (.call K.UnaryExpression)) (.altEnd (some [K.Star, K.Slash]))))))) (.altEnd (some [K.Plus, K.Minus, K.INTEGER_POSITIVE, K.DECIMAL_POSITIVE, K.DOUBLE_POSITIVE, K.INTEGER_NEGATIVE, K.DECIMAL_NEGATIVE, K.DOUBLE_NEGATIVE]))))))))
  swallow := false

/-- `parse_MultiplicativeExpression` (crates/sparql-parser/src/parser/grammar.rs L5422-5451). -/
def fn_MultiplicativeExpression : FnDef where
  guard := none
  kind := K.MultiplicativeExpression
  body := (.seq (.call K.UnaryExpression) (.rep [K.Star, K.Slash] (.alt (.arm [K.Star] (.seq (.expect K.Star) (.call K.UnaryExpression)) (.arm [K.Slash] (.seq (.expect K.Slash) (.call K.UnaryExpression)) (.altEnd (some [K.Star, K.Slash])))))))
  swallow := false

/-- `parse_NumericLiteralPositive` (crates/sparql-parser/src/parser/grammar.rs L5453-5480). -/
def fn_NumericLiteralPositive : FnDef where
  guard := none
  kind := K.NumericLiteralPositive
  body := (.alt (.arm [K.INTEGER_POSITIVE] (.expect K.INTEGER_POSITIVE) (.arm [K.DECIMAL_POSITIVE] (.expect K.DECIMAL_POSITIVE) (.arm [K.DOUBLE_POSITIVE] (.expect K.DOUBLE_POSITIVE) (.altEnd (some [K.INTEGER_POSITIVE, K.DECIMAL_POSITIVE, K.DOUBLE_POSITIVE]))))))
  swallow := false

/-- `parse_NumericLiteralNegative` (crates/sparql-parser/src/parser/grammar.rs L5482-5509). -/
def fn_NumericLiteralNegative : FnDef where
  guard := none
  kind := K.NumericLiteralNegative
  body := (.alt (.arm [K.INTEGER_NEGATIVE] (.expect K.INTEGER_NEGATIVE) (.arm [K.DECIMAL_NEGATIVE] (.expect K.DECIMAL_NEGATIVE) (.arm [K.DOUBLE_NEGATIVE] (.expect K.DOUBLE_NEGATIVE) (.altEnd (some [K.INTEGER_NEGATIVE, K.DECIMAL_NEGATIVE, K.DOUBLE_NEGATIVE]))))))
  swallow := false

/-- `parse_UnaryExpression` (crates/sparql-parser/src/parser/grammar.rs L5511-5727). -/
def fn_UnaryExpression : FnDef where
  guard := none
  kind := K.UnaryExpression
  body := (.alt (.arm [K.ExclamationMark] (.seq (.expect K.ExclamationMark) (.call K.UnaryExpression)) (.arm [K.Plus] (.seq (.expect K.Plus) (.call K.PrimaryExpression)) (.arm [K.Minus] (.seq (.expect K.Minus) (.call K.PrimaryExpression)) (.arm [K.IRIREF, K.PNAME_NS, K.STRING_LITERAL1, K.STRING_LITERAL2, K.LParen, K.INTEGER, K.DoubleLessLParen, K.VAR1, K.VAR2, K.NOT, K.STR, K.LANG, K.LANGMATCHES, K.LANGDIR, K.DATATYPE, K.BOUND, K.IRI, K.URI, K.BNODE, K.RAND, K.ABS, K.CEIL, K.FLOOR, K.ROUND, K.CONCAT, K.STRLEN, K.UCASE, K.LCASE, K.ENCODE_FOR_URI, K.CONTAINS, K.STRSTARTS, K.STRENDS, K.STRBEFORE, K.STRAFTER, K.YEAR, K.MONTH, K.DAY, K.HOURS, K.MINUTES, K.SECONDS, K.TIMEZONE, K.TZ, K.NOW, K.UUID, K.STRUUID, K.MD5, K.SHA1, K.SHA256, K.SHA384, K.SHA512, K.COALESCE, K.IF, K.STRLANG, K.STRLANGDIR, K.STRDT, K.sameTerm, K.isIRI, K.isURI, K.isBLANK, K.isLITERAL, K.isNUMERIC, K.hasLANG, K.hasLANGDIR, K.isTRIPLE, K.TRIPLE, K.SUBJECT, K.PREDICATE, K.OBJECT, K.REGEX, K.SUBSTR, K.REPLACE, K.EXISTS, K.COUNT, K.SUM, K.MIN, K.MAX, K.AVG, K.SAMPLE, K.GROUP_CONCAT, K.DECIMAL, K.DOUBLE, K.INTEGER_POSITIVE, K.DECIMAL_POSITIVE, K.DOUBLE_POSITIVE, K.INTEGER_NEGATIVE, K.DECIMAL_NEGATIVE, K.DOUBLE_NEGATIVE, K.True, K.False, K.STRING_LITERAL_LONG1, K.STRING_LITERAL_LONG2, K.PNAME_LN] (.call K.PrimaryExpression) (.altEnd (some [K.ExclamationMark, K.Plus, K.Minus, K.IRIREF, K.PNAME_NS, K.STRING_LITERAL1, K.STRING_LITERAL2, K.LParen, K.INTEGER, K.DoubleLessLParen, K.VAR1, K.VAR2, K.NOT, K.STR, K.LANG, K.LANGMATCHES, K.LANGDIR, K.DATATYPE, K.BOUND, K.IRI, K.URI, K.BNODE, K.RAND, K.ABS, K.CEIL, K.FLOOR, K.ROUND, K.CONCAT, K.STRLEN, K.UCASE, K.LCASE, K.ENCODE_FOR_URI, K.CONTAINS, K.STRSTARTS, K.STRENDS, K.STRBEFORE, K.STRAFTER, K.YEAR, K.MONTH, K.DAY, K.HOURS, K.MINUTES, K.SECONDS, K.TIMEZONE, K.TZ, K.NOW, K.UUID, K.STRUUID, K.MD5, K.SHA1, K.SHA256, K.SHA384, K.SHA512, K.COALESCE, K.IF, K.STRLANG, K.STRLANGDIR, K.STRDT, K.sameTerm, K.isIRI, K.isURI, K.isBLANK, K.isLITERAL, K.isNUMERIC, K.hasLANG, K.hasLANGDIR, K.isTRIPLE, K.TRIPLE, K.SUBJECT, K.PREDICATE, K.OBJECT, K.REGEX, K.SUBSTR, K.REPLACE, K.EXISTS, K.COUNT, K.SUM, K.MIN, K.MAX, K.AVG, K.SAMPLE, K.GROUP_CONCAT, K.DECIMAL, K.DOUBLE, K.INTEGER_POSITIVE, K.DECIMAL_POSITIVE, K.DOUBLE_POSITIVE, K.INTEGER_NEGATIVE, K.DECIMAL_NEGATIVE, K.DOUBLE_NEGATIVE, K.True, K.False, K.STRING_LITERAL_LONG1, K.STRING_LITERAL_LONG2, K.PNAME_LN])))))))
  swallow := false

/-- `parse_PrimaryExpression` (crates/sparql-parser/src/parser/grammar.rs L5729-5940). -/
def fn_PrimaryExpression : FnDef where
  guard := none
  kind := K.PrimaryExpression
  body := (.alt (.arm [K.LParen] (.call K.BrackettedExpression) (.arm [K.NOT, K.STR, K.LANG, K.LANGMATCHES, K.LANGDIR, K.DATATYPE, K.BOUND, K.IRI, K.URI, K.BNODE, K.RAND, K.ABS, K.CEIL, K.FLOOR, K.ROUND, K.CONCAT, K.STRLEN, K.UCASE, K.LCASE, K.ENCODE_FOR_URI, K.CONTAINS, K.STRSTARTS, K.STRENDS, K.STRBEFORE, K.STRAFTER, K.YEAR, K.MONTH, K.DAY, K.HOURS, K.MINUTES, K.SECONDS, K.TIMEZONE, K.TZ, K.NOW, K.UUID, K.STRUUID, K.MD5, K.SHA1, K.SHA256, K.SHA384, K.SHA512, K.COALESCE, K.IF, K.STRLANG, K.STRLANGDIR, K.STRDT, K.sameTerm, K.isIRI, K.isURI, K.isBLANK, K.isLITERAL, K.isNUMERIC, K.hasLANG, K.hasLANGDIR, K.isTRIPLE, K.TRIPLE, K.SUBJECT, K.PREDICATE, K.OBJECT, K.REGEX, K.SUBSTR, K.REPLACE, K.EXISTS, K.COUNT, K.SUM, K.MIN, K.MAX, K.AVG, K.SAMPLE, K.GROUP_CONCAT] (.call K.BuiltInCall) (.arm [K.IRIREF, K.PNAME_NS, K.PNAME_LN] (.call K.iriOrFunction) (.arm [K.STRING_LITERAL1, K.STRING_LITERAL2, K.STRING_LITERAL_LONG1, K.STRING_LITERAL_LONG2] (.call K.RDFLiteral) (.arm [K.INTEGER, K.DECIMAL, K.DOUBLE, K.INTEGER_POSITIVE, K.DECIMAL_POSITIVE, K.DOUBLE_POSITIVE, K.INTEGER_NEGATIVE, K.DECIMAL_NEGATIVE, K.DOUBLE_NEGATIVE] (.call K.NumericLiteral) (.arm [K.True, K.False] (.call K.BooleanLiteral) (.arm [K.VAR1, K.VAR2] (.call K.Var) (.arm [K.DoubleLessLParen] (.call K.ExprTripleTerm) (.altEnd (some [K.LParen, K.NOT, K.STR, K.LANG, K.LANGMATCHES, K.LANGDIR, K.DATATYPE, K.BOUND, K.IRI, K.URI, K.BNODE, K.RAND, K.ABS, K.CEIL, K.FLOOR, K.ROUND, K.CONCAT, K.STRLEN, K.UCASE, K.LCASE, K.ENCODE_FOR_URI, K.CONTAINS, K.STRSTARTS, K.STRENDS, K.STRBEFORE, K.STRAFTER, K.YEAR, K.MONTH, K.DAY, K.HOURS, K.MINUTES, K.SECONDS, K.TIMEZONE, K.TZ, K.NOW, K.UUID, K.STRUUID, K.MD5, K.SHA1, K.SHA256, K.SHA384, K.SHA512, K.COALESCE, K.IF, K.STRLANG, K.STRLANGDIR, K.STRDT, K.sameTerm, K.isIRI, K.isURI, K.isBLANK, K.isLITERAL, K.isNUMERIC, K.hasLANG, K.hasLANGDIR, K.isTRIPLE, K.TRIPLE, K.SUBJECT, K.PREDICATE, K.OBJECT, K.REGEX, K.SUBSTR, K.REPLACE, K.EXISTS, K.COUNT, K.SUM, K.MIN, K.MAX, K.AVG, K.SAMPLE, K.GROUP_CONCAT, K.IRIREF, K.PNAME_NS, K.PNAME_LN, K.STRING_LITERAL1, K.STRING_LITERAL2, K.STRING_LITERAL_LONG1, K.STRING_LITERAL_LONG2, K.INTEGER, K.DECIMAL, K.DOUBLE, K.INTEGER_POSITIVE, K.DECIMAL_POSITIVE, K.DOUBLE_POSITIVE, K.INTEGER_NEGATIVE, K.DECIMAL_NEGATIVE, K.DOUBLE_NEGATIVE, K.True, K.False, K.VAR1, K.VAR2, K.DoubleLessLParen])))))))))))
  swallow := false

/-- `parse_iriOrFunction` (crates/sparql-parser/src/parser/grammar.rs L5942-5949). -/
def fn_iriOrFunction : FnDef where
  guard := none
  kind := K.iriOrFunction
  body := (.seq (.call K.iri) (.opt [K.LParen, K.NIL] (.call K.ArgList)))
  swallow := false

/-- `parse_ExprTripleTerm` (crates/sparql-parser/src/parser/grammar.rs L5951-5959). -/
def fn_ExprTripleTerm : FnDef where
  guard := none
  kind := K.ExprTripleTerm
  body := (.seq (.expect K.DoubleLessLParen) (.seq (.call K.ExprTripleTermSubject) (.seq (.call K.Verb) (.seq (.call K.ExprTripleTermObject) (.expect K.RParenDoubleMore)))))
  swallow := false

/-- `parse_ExprTripleTermSubject` (crates/sparql-parser/src/parser/grammar.rs L5961-5987). -/
def fn_ExprTripleTermSubject : FnDef where
  guard := none
  kind := K.ExprTripleTermSubject
  body := (.alt (.arm [K.IRIREF, K.PNAME_NS, K.PNAME_LN] (.call K.iri) (.arm [K.VAR1, K.VAR2] (.call K.Var) (.altEnd (some [K.IRIREF, K.PNAME_NS, K.PNAME_LN, K.VAR1, K.VAR2])))))
  swallow := false

/-- `parse_ExprTripleTermObject` (crates/sparql-parser/src/parser/grammar.rs L5989-6054). -/
def fn_ExprTripleTermObject : FnDef where
  guard := none
  kind := K.ExprTripleTermObject
  body := (.alt (.arm [K.IRIREF, K.PNAME_NS, K.PNAME_LN] (.call K.iri) (.arm [K.STRING_LITERAL1, K.STRING_LITERAL2, K.STRING_LITERAL_LONG1, K.STRING_LITERAL_LONG2] (.call K.RDFLiteral) (.arm [K.INTEGER, K.DECIMAL, K.DOUBLE, K.INTEGER_POSITIVE, K.DECIMAL_POSITIVE, K.DOUBLE_POSITIVE, K.INTEGER_NEGATIVE, K.DECIMAL_NEGATIVE, K.DOUBLE_NEGATIVE] (.call K.NumericLiteral) (.arm [K.True, K.False] (.call K.BooleanLiteral) (.arm [K.VAR1, K.VAR2] (.call K.Var) (.arm [K.DoubleLessLParen] (.call K.ExprTripleTerm) (.altEnd (some [K.IRIREF, K.PNAME_NS, K.PNAME_LN, K.STRING_LITERAL1, K.STRING_LITERAL2, K.STRING_LITERAL_LONG1, K.STRING_LITERAL_LONG2, K.INTEGER, K.DECIMAL, K.DOUBLE, K.INTEGER_POSITIVE, K.DECIMAL_POSITIVE, K.DOUBLE_POSITIVE, K.INTEGER_NEGATIVE, K.DECIMAL_NEGATIVE, K.DOUBLE_NEGATIVE, K.True, K.False, K.VAR1, K.VAR2, K.DoubleLessLParen])))))))))
  swallow := false

/-- `parse_Aggregate` (crates/sparql-parser/src/parser/grammar.rs L6056-6354). -/
def fn_Aggregate : FnDef where
  guard := none
  kind := K.Aggregate
  body := (.alt (.arm [K.COUNT] (.seq (.expect K.COUNT) (.seq (.expect K.LParen) (.seq (.opt [K.DISTINCT] (.expect K.DISTINCT)) (.seq (.alt (.arm [K.Star] (.expect K.Star) (.arm [K.IRIREF, K.PNAME_NS, K.STRING_LITERAL1, K.STRING_LITERAL2, K.LParen, K.INTEGER, K.Plus, K.ExclamationMark, K.DoubleLessLParen, K.VAR1, K.VAR2, K.NOT, K.Minus, K.STR, K.LANG, K.LANGMATCHES, K.LANGDIR, K.DATATYPE, K.BOUND, K.IRI, K.URI, K.BNODE, K.RAND, K.ABS, K.CEIL, K.FLOOR, K.ROUND, K.CONCAT, K.STRLEN, K.UCASE, K.LCASE, K.ENCODE_FOR_URI, K.CONTAINS, K.STRSTARTS, K.STRENDS, K.STRBEFORE, K.STRAFTER, K.YEAR, K.MONTH, K.DAY, K.HOURS, K.MINUTES, K.SECONDS, K.TIMEZONE, K.TZ, K.NOW, K.UUID, K.STRUUID, K.MD5, K.SHA1, K.SHA256, K.SHA384, K.SHA512, K.COALESCE, K.IF, K.STRLANG, K.STRLANGDIR, K.STRDT, K.sameTerm, K.isIRI, K.isURI, K.isBLANK, K.isLITERAL, K.isNUMERIC, K.hasLANG, K.hasLANGDIR, K.isTRIPLE, K.TRIPLE, K.SUBJECT, K.PREDICATE, K.OBJECT, K.REGEX, K.SUBSTR, K.REPLACE, K.EXISTS, K.COUNT, K.SUM, K.MIN, K.MAX, K.AVG, K.SAMPLE, K.GROUP_CONCAT, K.DECIMAL, K.DOUBLE, K.INTEGER_POSITIVE, K.DECIMAL_POSITIVE, K.DOUBLE_POSITIVE, K.INTEGER_NEGATIVE, K.DECIMAL_NEGATIVE, K.DOUBLE_NEGATIVE, K.True, K.False, K.STRING_LITERAL_LONG1, K.STRING_LITERAL_LONG2, K.PNAME_LN] (.call K.Expression) (.altEnd (some [K.Star, K.IRIREF, K.PNAME_NS, K.STRING_LITERAL1, K.STRING_LITERAL2, K.LParen, K.INTEGER, K.Plus, K.ExclamationMark, K.DoubleLessLParen, K.VAR1, K.VAR2, K.NOT, K.Minus, K.STR, K.LANG, K.LANGMATCHES, K.LANGDIR, K.DATATYPE, K.BOUND, K.IRI, K.URI, K.BNODE, K.RAND, K.ABS, K.CEIL, K.FLOOR, K.ROUND, K.CONCAT, K.STRLEN, K.UCASE, K.LCASE, K.ENCODE_FOR_URI, K.CONTAINS, K.STRSTARTS, K.STRENDS, K.STRBEFORE, K.STRAFTER, K.YEAR, K.MONTH, K.DAY, K.HOURS, K.MINUTES, K.SECONDS, K.TIMEZONE, K.TZ, K.NOW, K.UUID, K.STRUUID, K.MD5, K.SHA1, K.SHA256, K.SHA384, K.SHA512, K.COALESCE, K.IF, K.STRLANG, K.STRLANGDIR, K.STRDT, K.sameTerm, K.isIRI, K.isURI, K.isBLANK, K.isLITERAL, K.isNUMERIC, K.hasLANG, K.hasLANGDIR, K.isTRIPLE, K.TRIPLE, K.SUBJECT, K.PREDICATE, K.OBJECT, K.REGEX, K.SUBSTR, K.REPLACE, K.EXISTS, K.COUNT, K.SUM, K.MIN, K.MAX, K.AVG, K.SAMPLE, K.GROUP_CONCAT, K.DECIMAL, K.DOUBLE, K.INTEGER_POSITIVE, K.DECIMAL_POSITIVE, K.DOUBLE_POSITIVE, K.INTEGER_NEGATIVE, K.DECIMAL_NEGATIVE, K.DOUBLE_NEGATIVE, K.True, K.False, K.STRING_LITERAL_LONG1, K.STRING_LITERAL_LONG2, K.PNAME_LN]))))) (.expect K.RParen))))) (.arm [K.SUM] (.seq (.expect K.SUM) (.seq (.expect K.LParen) (.seq (.opt [K.DISTINCT] (.expect K.DISTINCT)) (.seq (.call K.Expression) (.expect K.RParen))))) (.arm [K.MIN] (.seq (.expect K.MIN) (.seq (.expect K.LParen) (.seq (.opt [K.DISTINCT] (.expect K.DISTINCT)) (.seq (.call K.Expression) (.expect K.RParen))))) (.arm [K.MAX] (.seq (.expect K.MAX) (.seq (.expect K.LParen) (.seq (.opt [K.DISTINCT] (.expect K.DISTINCT)) (.seq (.call K.Expression) (.expect K.RParen))))) (.arm [K.AVG] (.seq (.expect K.AVG) (.seq (.expect K.LParen) (.seq (.opt [K.DISTINCT] (.expect K.DISTINCT)) (.seq (.call K.Expression) (.expect K.RParen))))) (.arm [K.SAMPLE] (.seq (.expect K.SAMPLE) (.seq (.expect K.LParen) (.seq (.opt [K.DISTINCT] (.expect K.DISTINCT)) (.seq (.call K.Expression) (.expect K.RParen))))) (.arm [K.GROUP_CONCAT] (.seq (.expect K.GROUP_CONCAT) (.seq (.expect K.LParen) (.seq (.opt [K.DISTINCT] (.expect K.DISTINCT)) (.seq (.call K.Expression) (.seq (.opt [K.Semicolon] (.seq (.expect K.Semicolon) (.seq (.expect K.SEPARATOR) (.seq (.expect K.Equals) (.call K.String))))) (.expect K.RParen)))))) (.altEnd (some [K.COUNT, K.SUM, K.MIN, K.MAX, K.AVG, K.SAMPLE, K.GROUP_CONCAT]))))))))))
  swallow := false

/-- `parse_SubstringExpression` (crates/sparql-parser/src/parser/grammar.rs L6356-6369). -/
def fn_SubstringExpression : FnDef where
  guard := none
  kind := K.SubstringExpression
  body := (.seq (.expect K.SUBSTR) (.seq (.expect K.LParen) (.seq (.call K.Expression) (.seq (.expect K.Comma) (.seq (.call K.Expression) (.seq (.opt [K.Comma] (.seq (.expect K.Comma) (.call K.Expression))) (.expect K.RParen)))))))
  swallow := false

/-- `parse_StrReplaceExpression` (crates/sparql-parser/src/parser/grammar.rs L6371-6386). -/
def fn_StrReplaceExpression : FnDef where
  guard := none
  kind := K.StrReplaceExpression
  body := (.seq (.expect K.REPLACE) (.seq (.expect K.LParen) (.seq (.call K.Expression) (.seq (.expect K.Comma) (.seq (.call K.Expression) (.seq (.expect K.Comma) (.seq (.call K.Expression) (.seq (.opt [K.Comma] (.seq (.expect K.Comma) (.call K.Expression))) (.expect K.RParen)))))))))
  swallow := false

/-- `parse_RegexExpression` (crates/sparql-parser/src/parser/grammar.rs L6388-6401). -/
def fn_RegexExpression : FnDef where
  guard := none
  kind := K.RegexExpression
  body := (.seq (.expect K.REGEX) (.seq (.expect K.LParen) (.seq (.call K.Expression) (.seq (.expect K.Comma) (.seq (.call K.Expression) (.seq (.opt [K.Comma] (.seq (.expect K.Comma) (.call K.Expression))) (.expect K.RParen)))))))
  swallow := false

/-- `parse_ExistsFunc` (crates/sparql-parser/src/parser/grammar.rs L6403-6408). -/
def fn_ExistsFunc : FnDef where
  guard := none
  kind := K.ExistsFunc
  body := (.seq (.expect K.EXISTS) (.call K.GroupGraphPattern))
  swallow := false

/-- `parse_NotExistsFunc` (crates/sparql-parser/src/parser/grammar.rs L6410-6416). -/
def fn_NotExistsFunc : FnDef where
  guard := none
  kind := K.NotExistsFunc
  body := (.seq (.expect K.NOT) (.seq (.expect K.EXISTS) (.call K.GroupGraphPattern)))
  swallow := false

/-- `parse_String` (crates/sparql-parser/src/parser/grammar.rs L6418-6449). -/
def fn_String : FnDef where
  guard := none
  kind := K.String
  body := (.alt (.arm [K.STRING_LITERAL1] (.expect K.STRING_LITERAL1) (.arm [K.STRING_LITERAL2] (.expect K.STRING_LITERAL2) (.arm [K.STRING_LITERAL_LONG1] (.expect K.STRING_LITERAL_LONG1) (.arm [K.STRING_LITERAL_LONG2] (.expect K.STRING_LITERAL_LONG2) (.altEnd (some [K.STRING_LITERAL1, K.STRING_LITERAL2, K.STRING_LITERAL_LONG1, K.STRING_LITERAL_LONG2])))))))
  swallow := false

/-- `parse_NumericLiteralUnsigned` (crates/sparql-parser/src/parser/grammar.rs L6451-6478). -/
def fn_NumericLiteralUnsigned : FnDef where
  guard := none
  kind := K.NumericLiteralUnsigned
  body := (.alt (.arm [K.INTEGER] (.expect K.INTEGER) (.arm [K.DECIMAL] (.expect K.DECIMAL) (.arm [K.DOUBLE] (.expect K.DOUBLE) (.altEnd (some [K.INTEGER, K.DECIMAL, K.DOUBLE]))))))
  swallow := false

/-- `parse_PrefixedName` (crates/sparql-parser/src/parser/grammar.rs L6480-6500). -/
def fn_PrefixedName : FnDef where
  guard := none
  kind := K.PrefixedName
  body := (.alt (.arm [K.PNAME_LN] (.expect K.PNAME_LN) (.arm [K.PNAME_NS] (.expect K.PNAME_NS) (.altEnd (some [K.PNAME_LN, K.PNAME_NS])))))
  swallow := false

/-- The function parsing a node kind, by binary search on the discriminant
(the names `parse_X` of crates/sparql-parser/src/parser/grammar.rs L1-6500). -/
def sparqlTree : KTree FnDef :=
  (.br 263
   (.br 223
    (.br 203
     (.br 193
      (.br 188
       (.br 186
        (.br 185
         (.leaf 184 fn_QueryUnit)
         (.leaf 185 fn_Query))
        (.br 187
         (.leaf 186 fn_Prologue)
         (.leaf 187 fn_SelectQuery)))
       (.br 190
        (.br 189
         (.leaf 188 fn_ConstructQuery)
         (.leaf 189 fn_DescribeQuery))
        (.br 191
         (.leaf 190 fn_AskQuery)
         (.br 192
          (.leaf 191 fn_ValuesClause)
          (.leaf 192 fn_UpdateUnit)))))
      (.br 198
       (.br 195
        (.br 194
         (.leaf 193 fn_Update)
         (.leaf 194 fn_BaseDecl))
        (.br 196
         (.leaf 195 fn_PrefixDecl)
         (.br 197
          (.leaf 196 fn_VersionDecl)
          (.leaf 197 fn_VersionSpecifier))))
       (.br 200
        (.br 199
         (.leaf 198 fn_SelectClause)
         (.leaf 199 fn_DatasetClause))
        (.br 201
         (.leaf 200 fn_WhereClause)
         (.br 202
          (.leaf 201 fn_SolutionModifier)
          (.leaf 202 fn_SubSelect))))))
     (.br 213
      (.br 208
       (.br 205
        (.br 204
         (.leaf 203 fn_Var)
         (.leaf 204 fn_Expression))
        (.br 206
         (.leaf 205 fn_ConstructTemplate)
         (.br 207
          (.leaf 206 fn_TriplesTemplate)
          (.leaf 207 fn_VarOrIri))))
       (.br 210
        (.br 209
         (.leaf 208 fn_DefaultGraphClause)
         (.leaf 209 fn_NamedGraphClause))
        (.br 211
         (.leaf 210 fn_SourceSelector)
         (.br 212
          (.leaf 211 fn_iri)
          (.leaf 212 fn_GroupGraphPattern)))))
      (.br 218
       (.br 215
        (.br 214
         (.leaf 213 fn_GroupClause)
         (.leaf 214 fn_HavingClause))
        (.br 216
         (.leaf 215 fn_OrderClause)
         (.br 217
          (.leaf 216 fn_LimitOffsetClauses)
          (.leaf 217 fn_GroupCondition))))
       (.br 220
        (.br 219
         (.leaf 218 fn_BuiltInCall)
         (.leaf 219 fn_FunctionCall))
        (.br 221
         (.leaf 220 fn_HavingCondition)
         (.br 222
          (.leaf 221 fn_Constraint)
          (.leaf 222 fn_OrderCondition)))))))
    (.br 243
     (.br 233
      (.br 228
       (.br 225
        (.br 224
         (.leaf 223 fn_BrackettedExpression)
         (.leaf 224 fn_LimitClause))
        (.br 226
         (.leaf 225 fn_OffsetClause)
         (.br 227
          (.leaf 226 fn_DataBlock)
          (.leaf 227 fn_UpdateOne))))
       (.br 230
        (.br 229
         (.leaf 228 fn_Load)
         (.leaf 229 fn_Clear))
        (.br 231
         (.leaf 230 fn_Drop)
         (.br 232
          (.leaf 231 fn_Add)
          (.leaf 232 fn_Move)))))
      (.br 238
       (.br 235
        (.br 234
         (.leaf 233 fn_Copy)
         (.leaf 234 fn_Create))
        (.br 236
         (.leaf 235 fn_InsertData)
         (.br 237
          (.leaf 236 fn_DeleteData)
          (.leaf 237 fn_DeleteWhere))))
       (.br 240
        (.br 239
         (.leaf 238 fn_Modify)
         (.leaf 239 fn_GraphRef))
        (.br 241
         (.leaf 240 fn_GraphRefAll)
         (.br 242
          (.leaf 241 fn_GraphOrDefault)
          (.leaf 242 fn_QuadData))))))
     (.br 253
      (.br 248
       (.br 245
        (.br 244
         (.leaf 243 fn_QuadPattern)
         (.leaf 244 fn_DeleteClause))
        (.br 246
         (.leaf 245 fn_InsertClause)
         (.br 247
          (.leaf 246 fn_UsingClause)
          (.leaf 247 fn_Quads))))
       (.br 250
        (.br 249
         (.leaf 248 fn_QuadsNotTriples)
         (.leaf 249 fn_TriplesSameSubject))
        (.br 251
         (.leaf 250 fn_GroupGraphPatternSub)
         (.br 252
          (.leaf 251 fn_TriplesBlock)
          (.leaf 252 fn_ReifiedTripleBlock)))))
      (.br 258
       (.br 255
        (.br 254
         (.leaf 253 fn_ReifiedTripleBlockPath)
         (.leaf 254 fn_Reifier))
        (.br 256
         (.leaf 255 fn_VarOrReifierId)
         (.br 257
          (.leaf 256 fn_AnnotationPath)
          (.leaf 257 fn_AnnotationBlockPath))))
       (.br 260
        (.br 259
         (.leaf 258 fn_Annotation)
         (.leaf 259 fn_AnnotationBlock))
        (.br 261
         (.leaf 260 fn_GraphPatternNotTriples)
         (.br 262
          (.leaf 261 fn_TriplesSameSubjectPath)
          (.leaf 262 fn_GroupOrUnionGraphPattern))))))))
   (.br 302
    (.br 282
     (.br 272
      (.br 267
       (.br 265
        (.br 264
         (.leaf 263 fn_OptionalGraphPattern)
         (.leaf 264 fn_MinusGraphPattern))
        (.br 266
         (.leaf 265 fn_GraphGraphPattern)
         (.leaf 266 fn_ServiceGraphPattern)))
       (.br 269
        (.br 268
         (.leaf 267 fn_Filter)
         (.leaf 268 fn_Bind))
        (.br 270
         (.leaf 269 fn_InlineData)
         (.br 271
          (.leaf 270 fn_InlineDataOneVar)
          (.leaf 271 fn_InlineDataFull)))))
      (.br 277
       (.br 274
        (.br 273
         (.leaf 272 fn_DataBlockValue)
         (.leaf 273 fn_RDFLiteral))
        (.br 275
         (.leaf 274 fn_NumericLiteral)
         (.br 276
          (.leaf 275 fn_BooleanLiteral)
          (.leaf 276 fn_ArgList))))
       (.br 279
        (.br 278
         (.leaf 277 fn_ExpressionList)
         (.leaf 278 fn_ConstructTriples))
        (.br 280
         (.leaf 279 fn_VarOrTerm)
         (.br 281
          (.leaf 280 fn_ReifiedTriple)
          (.leaf 281 fn_ReifiedTripleSubject))))))
     (.br 292
      (.br 287
       (.br 284
        (.br 283
         (.leaf 282 fn_ReifiedTripleObject)
         (.leaf 283 fn_TripleTerm))
        (.br 285
         (.leaf 284 fn_TripleTermSubject)
         (.br 286
          (.leaf 285 fn_TripleTermObject)
          (.leaf 286 fn_TripleTermData))))
       (.br 289
        (.br 288
         (.leaf 287 fn_TripleTermDataSubject)
         (.leaf 288 fn_TripleTermDataObject))
        (.br 290
         (.leaf 289 fn_PropertyListNotEmpty)
         (.br 291
          (.leaf 290 fn_TriplesNode)
          (.leaf 291 fn_PropertyList)))))
      (.br 297
       (.br 294
        (.br 293
         (.leaf 292 fn_Verb)
         (.leaf 293 fn_ObjectList))
        (.br 295
         (.leaf 294 fn_Object)
         (.br 296
          (.leaf 295 fn_GraphNode)
          (.leaf 296 fn_PropertyListPathNotEmpty))))
       (.br 299
        (.br 298
         (.leaf 297 fn_TriplesNodePath)
         (.leaf 298 fn_PropertyListPath))
        (.br 300
         (.leaf 299 fn_VerbPath)
         (.br 301
          (.leaf 300 fn_VerbSimple)
          (.leaf 301 fn_ObjectListPath)))))))
    (.br 324
     (.br 312
      (.br 307
       (.br 304
        (.br 303
         (.leaf 302 fn_Path)
         (.leaf 303 fn_ObjectPath))
        (.br 305
         (.leaf 304 fn_GraphNodePath)
         (.br 306
          (.leaf 305 fn_PathAlternative)
          (.leaf 306 fn_PathSequence))))
       (.br 309
        (.br 308
         (.leaf 307 fn_PathEltOrInverse)
         (.leaf 308 fn_PathElt))
        (.br 310
         (.leaf 309 fn_PathPrimary)
         (.br 311
          (.leaf 310 fn_PathMod)
          (.leaf 311 fn_PathNegatedPropertySet)))))
      (.br 319
       (.br 315
        (.br 314
         (.leaf 312 fn_PathOneInPropertySet)
         (.leaf 314 fn_Collection))
        (.br 316
         (.leaf 315 fn_BlankNodePropertyList)
         (.br 317
          (.leaf 316 fn_CollectionPath)
          (.leaf 317 fn_BlankNodePropertyListPath))))
       (.br 321
        (.br 320
         (.leaf 319 fn_BlankNode)
         (.leaf 320 fn_ConditionalOrExpression))
        (.br 322
         (.leaf 321 fn_ConditionalAndExpression)
         (.br 323
          (.leaf 322 fn_ValueLogical)
          (.leaf 323 fn_RelationalExpression))))))
     (.br 334
      (.br 329
       (.br 326
        (.br 325
         (.leaf 324 fn_NumericExpression)
         (.leaf 325 fn_AdditiveExpression))
        (.br 327
         (.leaf 326 fn_MultiplicativeExpression)
         (.br 328
          (.leaf 327 fn_NumericLiteralPositive)
          (.leaf 328 fn_NumericLiteralNegative))))
       (.br 331
        (.br 330
         (.leaf 329 fn_UnaryExpression)
         (.leaf 330 fn_PrimaryExpression))
        (.br 332
         (.leaf 331 fn_ExprTripleTerm)
         (.br 333
          (.leaf 332 fn_ExprTripleTermSubject)
          (.leaf 333 fn_ExprTripleTermObject)))))
      (.br 339
       (.br 336
        (.br 335
         (.leaf 334 fn_iriOrFunction)
         (.leaf 335 fn_Aggregate))
        (.br 337
         (.leaf 336 fn_SubstringExpression)
         (.br 338
          (.leaf 337 fn_StrReplaceExpression)
          (.leaf 338 fn_RegexExpression))))
       (.br 341
        (.br 340
         (.leaf 339 fn_ExistsFunc)
         (.leaf 340 fn_NotExistsFunc))
        (.br 342
         (.leaf 341 fn_String)
         (.br 343
          (.leaf 342 fn_NumericLiteralUnsigned)
          (.leaf 343 fn_PrefixedName)))))))))

/-- The function parsing a node kind (crates/sparql-parser/src/parser/grammar.rs L1-6500). -/
def sparql : Grammar := sparqlTree.find

end Verif.Grammar
