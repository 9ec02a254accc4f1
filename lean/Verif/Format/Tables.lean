import Verif.Grammar.Kinds
/-!
# Tables of the formatter (generated by tools/gen_format.py)
-/
namespace Verif.Format
open Verif.Grammar

/-- `KEYWORDS` (formatting/utils.rs L4-114). -/
def keywords : List Kind :=
  [K.BASE, K.PREFIX, K.SELECT, K.DISTINCT, K.REDUCED, K.FROM, K.NAMED, K.WHERE, K.UNION, K.OPTIONAL, K.MINUS,
   K.GRAPH, K.SERVICE, K.SILENT, K.FILTER, K.BIND, K.VALUES, K.AS, K.GROUP, K.BY, K.HAVING, K.ORDER, K.DESC,
   K.ASC, K.LIMIT, K.OFFSET, K.CONSTRUCT, K.DESCRIBE, K.ASK, K.STR, K.LANG, K.STR, K.LANG, K.LANGMATCHES,
   K.DATATYPE, K.BOUND, K.IRI, K.URI, K.BNODE, K.RAND, K.ABS, K.CEIL, K.FLOOR, K.ROUND, K.CONCAT, K.STRLEN,
   K.UCASE, K.LCASE, K.ENCODE_FOR_URI, K.CONTAINS, K.STRSTARTS, K.STRENDS, K.STRBEFORE, K.STRAFTER, K.YEAR,
   K.MONTH, K.DAY, K.HOURS, K.MINUTES, K.SECONDS, K.TIMEZONE, K.TZ, K.NOW, K.UUID, K.STRUUID, K.MD5, K.SHA1,
   K.SHA256, K.SHA384, K.SHA512, K.COALESCE, K.IF, K.STRLANG, K.STRDT, K.sameTerm, K.isIRI, K.isURI,
   K.isBLANK, K.isLITERAL, K.isNUMERIC, K.COUNT, K.SUM, K.MIN, K.MAX, K.AVG, K.SAMPLE, K.GROUP_CONCAT,
   K.SEPARATOR, K.SUBSTR, K.REGEX, K.EXISTS, K.IN, K.NOT, K.LOAD, K.INTO, K.CLEAR, K.ALL, K.NAMED, K.DEFAULT,
   K.DROP, K.ADD, K.TO, K.MOVE, K.COPY, K.INSERT, K.DATA, K.WITH, K.USING, K.CREATE]

/-- The kinds `get_separator` (core.rs L1078-1174) maps to `LineBreak`. -/
def lineBreakKinds : List Kind :=
  [K.Query, K.Prologue, K.SolutionModifier, K.LimitOffsetClauses]

/-- The kinds it maps to `Empty`. -/
def emptyKinds : List Kind :=
  [K.ExpressionList, K.GroupGraphPattern, K.GroupGraphPatternSub, K.GroupOrUnionGraphPattern,
   K.TriplesTemplate, K.BrackettedExpression, K.ConstructTemplate, K.QuadData, K.ObjectList, K.ObjectListPath,
   K.SubstringExpression, K.RegexExpression, K.ArgList, K.OrderCondition, K.Aggregate, K.BuiltInCall,
   K.FunctionCall, K.PathSequence, K.PathEltOrInverse, K.PathElt, K.PathPrimary, K.PNAME_NS,
   K.BlankNodePropertyListPath, K.BlankNodePropertyList, K.TriplesBlock, K.Quads, K.ConstructTriples,
   K.ConstructQuery, K.SelectQuery, K.SubSelect, K.AskQuery, K.DescribeQuery, K.Modify, K.Update, K.UpdateOne,
   K.SelectClause, K.GroupCondition, K.PropertyListPathNotEmpty, K.PropertyListNotEmpty, K.QuadPattern,
   K.QuadsNotTriples, K.Bind]

/-- The kinds it maps to `Space`; all others are `Unknown`. -/
def spaceKinds : List Kind :=
  [K.BaseDecl, K.PrefixDecl, K.WhereClause, K.DatasetClause, K.MinusGraphPattern, K.DefaultGraphClause,
   K.NamedGraphClause, K.TriplesSameSubject, K.OptionalGraphPattern, K.ServiceGraphPattern, K.InlineData,
   K.InlineDataOneVar, K.ValuesClause, K.DataBlock, K.GroupClause, K.HavingClause, K.OrderClause,
   K.LimitClause, K.OffsetClause, K.ExistsFunc, K.Filter, K.Load, K.Clear, K.Drop, K.Add, K.Move, K.Copy,
   K.Create, K.InsertData, K.DeleteData, K.DeleteWhere, K.GraphRef, K.GraphRefAll, K.GraphOrDefault,
   K.DeleteClause, K.InsertClause, K.UsingClause, K.Path, K.TriplesSameSubjectPath, K.PathAlternative,
   K.RelationalExpression, K.ConditionalAndExpression, K.ConditionalOrExpression, K.MultiplicativeExpression,
   K.AdditiveExpression]

end Verif.Format
