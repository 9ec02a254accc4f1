-- GENERATED by /verif/tools/gen_starts.py; do not edit.
import Verif.Grammar.Kinds
/-!
# The tokens a node can start with

Specification data, not part of the code: for node kinds whose parse function is only entered on certain tokens, these
tokens. Checked by the kernel in `Verif.Grammar.Starts`.
-/
namespace Verif.Grammar

def nodeStarts : List (Kind × List Kind) := [
  (K.Prologue, [K.BASE, K.PREFIX, K.VERSION]),
  (K.SelectQuery, [K.SELECT]),
  (K.ConstructQuery, [K.CONSTRUCT]),
  (K.DescribeQuery, [K.DESCRIBE]),
  (K.AskQuery, [K.ASK]),
  (K.ValuesClause, [K.VALUES]),
  (K.Update, [K.ADD, K.BASE, K.CLEAR, K.COPY, K.CREATE, K.DELETE, K.DELETE_DATA, K.DELETE_WHERE, K.DROP, K.INSERT, K.INSERT_DATA, K.LOAD, K.MOVE, K.PREFIX, K.VERSION, K.WITH]),
  (K.BaseDecl, [K.BASE]),
  (K.PrefixDecl, [K.PREFIX]),
  (K.VersionDecl, [K.VERSION]),
  (K.SelectClause, [K.SELECT]),
  (K.DatasetClause, [K.FROM]),
  (K.SolutionModifier, [K.GROUP, K.HAVING, K.LIMIT, K.OFFSET, K.ORDER]),
  (K.SubSelect, [K.SELECT]),
  (K.ConstructTemplate, [K.LCurly]),
  (K.TriplesTemplate, [K.ANON, K.BLANK_NODE_LABEL, K.DECIMAL, K.DECIMAL_NEGATIVE, K.DECIMAL_POSITIVE, K.DOUBLE, K.DOUBLE_NEGATIVE, K.DOUBLE_POSITIVE, K.DoubleLess, K.DoubleLessLParen, K.False, K.INTEGER, K.INTEGER_NEGATIVE, K.INTEGER_POSITIVE, K.IRIREF, K.LBrack, K.LParen, K.NIL, K.PNAME_LN, K.PNAME_NS, K.STRING_LITERAL1, K.STRING_LITERAL2, K.STRING_LITERAL_LONG1, K.STRING_LITERAL_LONG2, K.True, K.VAR1, K.VAR2]),
  (K.DefaultGraphClause, [K.IRIREF, K.PNAME_LN, K.PNAME_NS]),
  (K.NamedGraphClause, [K.NAMED]),
  (K.GroupClause, [K.GROUP]),
  (K.HavingClause, [K.HAVING]),
  (K.OrderClause, [K.ORDER]),
  (K.LimitOffsetClauses, [K.LIMIT, K.OFFSET]),
  (K.BuiltInCall, [K.ABS, K.AVG, K.BNODE, K.BOUND, K.CEIL, K.COALESCE, K.CONCAT, K.CONTAINS, K.COUNT, K.DATATYPE, K.DAY, K.ENCODE_FOR_URI, K.EXISTS, K.FLOOR, K.GROUP_CONCAT, K.HOURS, K.IF, K.IRI, K.LANG, K.LANGDIR, K.LANGMATCHES, K.LCASE, K.MAX, K.MD5, K.MIN, K.MINUTES, K.MONTH, K.NOT, K.NOW, K.OBJECT, K.PREDICATE, K.RAND, K.REGEX, K.REPLACE, K.ROUND, K.SAMPLE, K.SECONDS, K.SHA1, K.SHA256, K.SHA384, K.SHA512, K.STR, K.STRAFTER, K.STRBEFORE, K.STRDT, K.STRENDS, K.STRLANG, K.STRLANGDIR, K.STRLEN, K.STRSTARTS, K.STRUUID, K.SUBJECT, K.SUBSTR, K.SUM, K.TIMEZONE, K.TRIPLE, K.TZ, K.UCASE, K.URI, K.UUID, K.YEAR, K.hasLANG, K.hasLANGDIR, K.isBLANK, K.isIRI, K.isLITERAL, K.isNUMERIC, K.isTRIPLE, K.isURI, K.sameTerm]),
  (K.FunctionCall, [K.IRIREF, K.PNAME_LN, K.PNAME_NS]),
  (K.LimitClause, [K.LIMIT]),
  (K.OffsetClause, [K.OFFSET]),
  (K.UpdateOne, [K.ADD, K.CLEAR, K.COPY, K.CREATE, K.DELETE, K.DELETE_DATA, K.DELETE_WHERE, K.DROP, K.INSERT, K.INSERT_DATA, K.LOAD, K.MOVE, K.WITH]),
  (K.Load, [K.LOAD]),
  (K.Clear, [K.CLEAR]),
  (K.Drop, [K.DROP]),
  (K.Add, [K.ADD]),
  (K.Move, [K.MOVE]),
  (K.Copy, [K.COPY]),
  (K.Create, [K.CREATE]),
  (K.DeleteWhere, [K.DELETE_WHERE]),
  (K.Modify, [K.DELETE, K.INSERT, K.WITH]),
  (K.InsertData, [K.INSERT_DATA]),
  (K.DeleteData, [K.DELETE_DATA]),
  (K.DeleteClause, [K.DELETE]),
  (K.InsertClause, [K.INSERT]),
  (K.UsingClause, [K.USING]),
  (K.Quads, [K.ANON, K.BLANK_NODE_LABEL, K.DECIMAL, K.DECIMAL_NEGATIVE, K.DECIMAL_POSITIVE, K.DOUBLE, K.DOUBLE_NEGATIVE, K.DOUBLE_POSITIVE, K.DoubleLess, K.DoubleLessLParen, K.False, K.GRAPH, K.INTEGER, K.INTEGER_NEGATIVE, K.INTEGER_POSITIVE, K.IRIREF, K.LBrack, K.LParen, K.NIL, K.PNAME_LN, K.PNAME_NS, K.STRING_LITERAL1, K.STRING_LITERAL2, K.STRING_LITERAL_LONG1, K.STRING_LITERAL_LONG2, K.True, K.VAR1, K.VAR2]),
  (K.QuadsNotTriples, [K.GRAPH]),
  (K.TriplesSameSubject, [K.ANON, K.BLANK_NODE_LABEL, K.DECIMAL, K.DECIMAL_NEGATIVE, K.DECIMAL_POSITIVE, K.DOUBLE, K.DOUBLE_NEGATIVE, K.DOUBLE_POSITIVE, K.DoubleLess, K.DoubleLessLParen, K.False, K.INTEGER, K.INTEGER_NEGATIVE, K.INTEGER_POSITIVE, K.IRIREF, K.LBrack, K.LParen, K.NIL, K.PNAME_LN, K.PNAME_NS, K.STRING_LITERAL1, K.STRING_LITERAL2, K.STRING_LITERAL_LONG1, K.STRING_LITERAL_LONG2, K.True, K.VAR1, K.VAR2]),
  (K.GroupGraphPatternSub, [K.ANON, K.BIND, K.BLANK_NODE_LABEL, K.DECIMAL, K.DECIMAL_NEGATIVE, K.DECIMAL_POSITIVE, K.DOUBLE, K.DOUBLE_NEGATIVE, K.DOUBLE_POSITIVE, K.DoubleLess, K.DoubleLessLParen, K.FILTER, K.False, K.GRAPH, K.INTEGER, K.INTEGER_NEGATIVE, K.INTEGER_POSITIVE, K.IRIREF, K.LBrack, K.LCurly, K.LParen, K.MINUS, K.NIL, K.OPTIONAL, K.PNAME_LN, K.PNAME_NS, K.SERVICE, K.STRING_LITERAL1, K.STRING_LITERAL2, K.STRING_LITERAL_LONG1, K.STRING_LITERAL_LONG2, K.True, K.VALUES, K.VAR1, K.VAR2]),
  (K.TriplesBlock, [K.ANON, K.BLANK_NODE_LABEL, K.DECIMAL, K.DECIMAL_NEGATIVE, K.DECIMAL_POSITIVE, K.DOUBLE, K.DOUBLE_NEGATIVE, K.DOUBLE_POSITIVE, K.DoubleLess, K.DoubleLessLParen, K.False, K.INTEGER, K.INTEGER_NEGATIVE, K.INTEGER_POSITIVE, K.IRIREF, K.LBrack, K.LParen, K.NIL, K.PNAME_LN, K.PNAME_NS, K.STRING_LITERAL1, K.STRING_LITERAL2, K.STRING_LITERAL_LONG1, K.STRING_LITERAL_LONG2, K.True, K.VAR1, K.VAR2]),
  (K.GraphPatternNotTriples, [K.BIND, K.FILTER, K.GRAPH, K.LCurly, K.MINUS, K.OPTIONAL, K.SERVICE, K.VALUES]),
  (K.TriplesSameSubjectPath, [K.ANON, K.BLANK_NODE_LABEL, K.DECIMAL, K.DECIMAL_NEGATIVE, K.DECIMAL_POSITIVE, K.DOUBLE, K.DOUBLE_NEGATIVE, K.DOUBLE_POSITIVE, K.DoubleLess, K.DoubleLessLParen, K.False, K.INTEGER, K.INTEGER_NEGATIVE, K.INTEGER_POSITIVE, K.IRIREF, K.LBrack, K.LParen, K.NIL, K.PNAME_LN, K.PNAME_NS, K.STRING_LITERAL1, K.STRING_LITERAL2, K.STRING_LITERAL_LONG1, K.STRING_LITERAL_LONG2, K.True, K.VAR1, K.VAR2]),
  (K.ReifiedTripleBlock, [K.DoubleLess]),
  (K.ReifiedTriple, [K.DoubleLess]),
  (K.PropertyList, [K.IRIREF, K.PNAME_LN, K.PNAME_NS, K.VAR1, K.VAR2, K.a]),
  (K.ReifiedTripleBlockPath, [K.DoubleLess]),
  (K.PropertyListPath, [K.ExclamationMark, K.IRIREF, K.LParen, K.PNAME_LN, K.PNAME_NS, K.VAR1, K.VAR2, K.Zirkumflex, K.a]),
  (K.GroupOrUnionGraphPattern, [K.LCurly]),
  (K.OptionalGraphPattern, [K.OPTIONAL]),
  (K.MinusGraphPattern, [K.MINUS]),
  (K.GraphGraphPattern, [K.GRAPH]),
  (K.ServiceGraphPattern, [K.SERVICE]),
  (K.Filter, [K.FILTER]),
  (K.Bind, [K.BIND]),
  (K.InlineData, [K.VALUES]),
  (K.InlineDataOneVar, [K.VAR1, K.VAR2]),
  (K.InlineDataFull, [K.LParen, K.NIL]),
  (K.DataBlockValue, [K.DECIMAL, K.DECIMAL_NEGATIVE, K.DECIMAL_POSITIVE, K.DOUBLE, K.DOUBLE_NEGATIVE, K.DOUBLE_POSITIVE, K.DoubleLessLParen, K.False, K.INTEGER, K.INTEGER_NEGATIVE, K.INTEGER_POSITIVE, K.IRIREF, K.PNAME_LN, K.PNAME_NS, K.STRING_LITERAL1, K.STRING_LITERAL2, K.STRING_LITERAL_LONG1, K.STRING_LITERAL_LONG2, K.True, K.UNDEF]),
  (K.RDFLiteral, [K.STRING_LITERAL1, K.STRING_LITERAL2, K.STRING_LITERAL_LONG1, K.STRING_LITERAL_LONG2]),
  (K.NumericLiteral, [K.DECIMAL, K.DECIMAL_NEGATIVE, K.DECIMAL_POSITIVE, K.DOUBLE, K.DOUBLE_NEGATIVE, K.DOUBLE_POSITIVE, K.INTEGER, K.INTEGER_NEGATIVE, K.INTEGER_POSITIVE]),
  (K.BooleanLiteral, [K.False, K.True]),
  (K.TripleTermData, [K.DoubleLessLParen]),
  (K.Reifier, [K.Tilde]),
  (K.VarOrReifierId, [K.ANON, K.BLANK_NODE_LABEL, K.IRIREF, K.PNAME_LN, K.PNAME_NS, K.VAR1, K.VAR2]),
  (K.BlankNode, [K.ANON, K.BLANK_NODE_LABEL]),
  (K.ConstructTriples, [K.ANON, K.BLANK_NODE_LABEL, K.DECIMAL, K.DECIMAL_NEGATIVE, K.DECIMAL_POSITIVE, K.DOUBLE, K.DOUBLE_NEGATIVE, K.DOUBLE_POSITIVE, K.DoubleLess, K.DoubleLessLParen, K.False, K.INTEGER, K.INTEGER_NEGATIVE, K.INTEGER_POSITIVE, K.IRIREF, K.LBrack, K.LParen, K.NIL, K.PNAME_LN, K.PNAME_NS, K.STRING_LITERAL1, K.STRING_LITERAL2, K.STRING_LITERAL_LONG1, K.STRING_LITERAL_LONG2, K.True, K.VAR1, K.VAR2]),
  (K.VarOrTerm, [K.ANON, K.BLANK_NODE_LABEL, K.DECIMAL, K.DECIMAL_NEGATIVE, K.DECIMAL_POSITIVE, K.DOUBLE, K.DOUBLE_NEGATIVE, K.DOUBLE_POSITIVE, K.DoubleLessLParen, K.False, K.INTEGER, K.INTEGER_NEGATIVE, K.INTEGER_POSITIVE, K.IRIREF, K.NIL, K.PNAME_LN, K.PNAME_NS, K.STRING_LITERAL1, K.STRING_LITERAL2, K.STRING_LITERAL_LONG1, K.STRING_LITERAL_LONG2, K.True, K.VAR1, K.VAR2]),
  (K.TriplesNode, [K.LBrack, K.LParen]),
  (K.Annotation, [K.LCurlyPipe, K.Tilde]),
  (K.TriplesNodePath, [K.LBrack, K.LParen]),
  (K.VerbPath, [K.ExclamationMark, K.IRIREF, K.LParen, K.PNAME_LN, K.PNAME_NS, K.Zirkumflex, K.a]),
  (K.VerbSimple, [K.VAR1, K.VAR2]),
  (K.AnnotationPath, [K.LCurlyPipe, K.Tilde]),
  (K.PathMod, [K.Plus, K.QuestionMark, K.Star]),
  (K.Collection, [K.LParen]),
  (K.BlankNodePropertyList, [K.LBrack]),
  (K.CollectionPath, [K.LParen]),
  (K.BlankNodePropertyListPath, [K.LBrack]),
  (K.AnnotationBlockPath, [K.LCurlyPipe]),
  (K.AnnotationBlock, [K.LCurlyPipe]),
  (K.TripleTerm, [K.DoubleLessLParen]),
  (K.NumericLiteralPositive, [K.DECIMAL_POSITIVE, K.DOUBLE_POSITIVE, K.INTEGER_POSITIVE]),
  (K.NumericLiteralNegative, [K.DECIMAL_NEGATIVE, K.DOUBLE_NEGATIVE, K.INTEGER_NEGATIVE]),
  (K.iriOrFunction, [K.IRIREF, K.PNAME_LN, K.PNAME_NS]),
  (K.ExprTripleTerm, [K.DoubleLessLParen]),
  (K.Aggregate, [K.AVG, K.COUNT, K.GROUP_CONCAT, K.MAX, K.MIN, K.SAMPLE, K.SUM]),
  (K.SubstringExpression, [K.SUBSTR]),
  (K.StrReplaceExpression, [K.REPLACE]),
  (K.RegexExpression, [K.REGEX]),
  (K.ExistsFunc, [K.EXISTS]),
  (K.NotExistsFunc, [K.NOT]),
  (K.NumericLiteralUnsigned, [K.DECIMAL, K.DOUBLE, K.INTEGER]),
  (K.PrefixedName, [K.PNAME_LN, K.PNAME_NS])]

end Verif.Grammar
