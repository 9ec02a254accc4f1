-- GENERATED by /verif/tools/gen_grammar.py from /repo; do not edit.
import Verif.Grammar.Rule
/-!
# The SPARQL grammar as data

Models the table `Rule::from_node_kind` of `crates/sparql-parser/src/rules.rs`. `Seq`/`Alt` vectors are nested to
the right.
-/
namespace Verif.Grammar

/-- `QueryUnit` (crates/sparql-parser/src/rules.rs L43-43). -/
def rule_QueryUnit : Rule := (.node K.Query)

/-- `Query` (crates/sparql-parser/src/rules.rs L44-53). -/
def rule_Query : Rule := (.seq (.node K.Prologue) (.seq (.alt (.node K.SelectQuery) (.alt (.node K.ConstructQuery) (.alt (.node K.DescribeQuery) (.node K.AskQuery)))) (.node K.ValuesClause)))

/-- `Prologue` (crates/sparql-parser/src/rules.rs L54-58). -/
def rule_Prologue : Rule := (.rep (.alt (.node K.BaseDecl) (.alt (.node K.PrefixDecl) (.node K.VersionDecl))))

/-- `SelectQuery` (crates/sparql-parser/src/rules.rs L59-64). -/
def rule_SelectQuery : Rule := (.seq (.node K.SelectClause) (.seq (.rep (.node K.DatasetClause)) (.seq (.node K.WhereClause) (.node K.SolutionModifier))))

/-- `ConstructQuery` (crates/sparql-parser/src/rules.rs L65-83). -/
def rule_ConstructQuery : Rule := (.seq (.tok K.CONSTRUCT) (.alt (.seq (.node K.ConstructTemplate) (.seq (.rep (.node K.DatasetClause)) (.seq (.node K.WhereClause) (.node K.SolutionModifier)))) (.seq (.rep (.node K.DatasetClause)) (.seq (.tok K.WHERE) (.seq (.tok K.LCurly) (.seq (.opt (.node K.TriplesTemplate)) (.seq (.tok K.RCurly) (.node K.SolutionModifier))))))))

/-- `DescribeQuery` (crates/sparql-parser/src/rules.rs L84-96). -/
def rule_DescribeQuery : Rule := (.seq (.tok K.DESCRIBE) (.seq (.alt (.seq (.node K.VarOrIri) (.rep (.node K.VarOrIri))) (.tok K.Star)) (.seq (.rep (.node K.DatasetClause)) (.seq (.opt (.node K.WhereClause)) (.node K.SolutionModifier)))))

/-- `AskQuery` (crates/sparql-parser/src/rules.rs L97-102). -/
def rule_AskQuery : Rule := (.seq (.tok K.ASK) (.seq (.rep (.node K.DatasetClause)) (.seq (.node K.WhereClause) (.node K.SolutionModifier))))

/-- `ValuesClause` (crates/sparql-parser/src/rules.rs L103-106). -/
def rule_ValuesClause : Rule := (.opt (.seq (.tok K.VALUES) (.node K.DataBlock)))

/-- `UpdateUnit` (crates/sparql-parser/src/rules.rs L107-107). -/
def rule_UpdateUnit : Rule := (.node K.Update)

/-- `Update` (crates/sparql-parser/src/rules.rs L108-117). -/
def rule_Update : Rule := (.seq (.node K.Prologue) (.opt (.seq (.node K.UpdateOne) (.opt (.seq (.tok K.Semicolon) (.node K.Update))))))

/-- `BaseDecl` (crates/sparql-parser/src/rules.rs L118-121). -/
def rule_BaseDecl : Rule := (.seq (.tok K.BASE) (.tok K.IRIREF))

/-- `PrefixDecl` (crates/sparql-parser/src/rules.rs L122-126). -/
def rule_PrefixDecl : Rule := (.seq (.tok K.PREFIX) (.seq (.tok K.PNAME_NS) (.tok K.IRIREF)))

/-- `VersionDecl` (crates/sparql-parser/src/rules.rs L127-130). -/
def rule_VersionDecl : Rule := (.seq (.tok K.VERSION) (.node K.VersionSpecifier))

/-- `VersionSpecifier` (crates/sparql-parser/src/rules.rs L131-134). -/
def rule_VersionSpecifier : Rule := (.alt (.tok K.STRING_LITERAL1) (.tok K.STRING_LITERAL2))

/-- `SelectClause` (crates/sparql-parser/src/rules.rs L135-166). -/
def rule_SelectClause : Rule := (.seq (.tok K.SELECT) (.seq (.opt (.alt (.tok K.DISTINCT) (.tok K.REDUCED))) (.alt (.seq (.alt (.node K.Var) (.seq (.tok K.LParen) (.seq (.node K.Expression) (.seq (.tok K.AS) (.seq (.node K.Var) (.tok K.RParen)))))) (.rep (.alt (.node K.Var) (.seq (.tok K.LParen) (.seq (.node K.Expression) (.seq (.tok K.AS) (.seq (.node K.Var) (.tok K.RParen)))))))) (.tok K.Star))))

/-- `DatasetClause` (crates/sparql-parser/src/rules.rs L167-173). -/
def rule_DatasetClause : Rule := (.seq (.tok K.FROM) (.alt (.node K.DefaultGraphClause) (.node K.NamedGraphClause)))

/-- `WhereClause` (crates/sparql-parser/src/rules.rs L174-177). -/
def rule_WhereClause : Rule := (.seq (.opt (.tok K.WHERE)) (.node K.GroupGraphPattern))

/-- `SolutionModifier` (crates/sparql-parser/src/rules.rs L178-183). -/
def rule_SolutionModifier : Rule := (.seq (.opt (.node K.GroupClause)) (.seq (.opt (.node K.HavingClause)) (.seq (.opt (.node K.OrderClause)) (.opt (.node K.LimitOffsetClauses)))))

/-- `SubSelect` (crates/sparql-parser/src/rules.rs L184-189). -/
def rule_SubSelect : Rule := (.seq (.node K.SelectClause) (.seq (.node K.WhereClause) (.seq (.node K.SolutionModifier) (.node K.ValuesClause))))

/-- `Var` (crates/sparql-parser/src/rules.rs L190-193). -/
def rule_Var : Rule := (.alt (.tok K.VAR1) (.tok K.VAR2))

/-- `Expression` (crates/sparql-parser/src/rules.rs L194-194). -/
def rule_Expression : Rule := (.node K.ConditionalOrExpression)

/-- `ConstructTemplate` (crates/sparql-parser/src/rules.rs L195-199). -/
def rule_ConstructTemplate : Rule := (.seq (.tok K.LCurly) (.seq (.opt (.node K.ConstructTriples)) (.tok K.RCurly)))

/-- `TriplesTemplate` (crates/sparql-parser/src/rules.rs L200-206). -/
def rule_TriplesTemplate : Rule := (.seq (.node K.TriplesSameSubject) (.opt (.seq (.tok K.Dot) (.opt (.node K.TriplesTemplate)))))

/-- `VarOrIri` (crates/sparql-parser/src/rules.rs L207-210). -/
def rule_VarOrIri : Rule := (.alt (.node K.Var) (.node K.iri))

/-- `DefaultGraphClause` (crates/sparql-parser/src/rules.rs L211-211). -/
def rule_DefaultGraphClause : Rule := (.node K.SourceSelector)

/-- `NamedGraphClause` (crates/sparql-parser/src/rules.rs L212-215). -/
def rule_NamedGraphClause : Rule := (.seq (.tok K.NAMED) (.node K.SourceSelector))

/-- `SourceSelector` (crates/sparql-parser/src/rules.rs L216-216). -/
def rule_SourceSelector : Rule := (.node K.iri)

/-- `iri` (crates/sparql-parser/src/rules.rs L217-220). -/
def rule_iri : Rule := (.alt (.tok K.IRIREF) (.node K.PrefixedName))

/-- `GroupGraphPattern` (crates/sparql-parser/src/rules.rs L221-228). -/
def rule_GroupGraphPattern : Rule := (.seq (.tok K.LCurly) (.seq (.alt (.node K.SubSelect) (.node K.GroupGraphPatternSub)) (.tok K.RCurly)))

/-- `GroupClause` (crates/sparql-parser/src/rules.rs L229-234). -/
def rule_GroupClause : Rule := (.seq (.tok K.GROUP) (.seq (.tok K.BY) (.seq (.node K.GroupCondition) (.rep (.node K.GroupCondition)))))

/-- `HavingClause` (crates/sparql-parser/src/rules.rs L235-239). -/
def rule_HavingClause : Rule := (.seq (.tok K.HAVING) (.seq (.node K.HavingCondition) (.rep (.node K.HavingCondition))))

/-- `OrderClause` (crates/sparql-parser/src/rules.rs L240-245). -/
def rule_OrderClause : Rule := (.seq (.tok K.ORDER) (.seq (.tok K.BY) (.seq (.node K.OrderCondition) (.rep (.node K.OrderCondition)))))

/-- `LimitOffsetClauses` (crates/sparql-parser/src/rules.rs L246-255). -/
def rule_LimitOffsetClauses : Rule := (.alt (.seq (.node K.LimitClause) (.opt (.node K.OffsetClause))) (.seq (.node K.OffsetClause) (.opt (.node K.LimitClause))))

/-- `GroupCondition` (crates/sparql-parser/src/rules.rs L256-269). -/
def rule_GroupCondition : Rule := (.alt (.node K.BuiltInCall) (.alt (.node K.FunctionCall) (.alt (.seq (.tok K.LParen) (.seq (.node K.Expression) (.seq (.opt (.seq (.tok K.AS) (.node K.Var))) (.tok K.RParen)))) (.node K.Var))))

/-- `BuiltInCall` (crates/sparql-parser/src/rules.rs L270-648). -/
def rule_BuiltInCall : Rule := (.alt (.node K.Aggregate) (.alt (.seq (.tok K.STR) (.seq (.tok K.LParen) (.seq (.node K.Expression) (.tok K.RParen)))) (.alt (.seq (.tok K.LANG) (.seq (.tok K.LParen) (.seq (.node K.Expression) (.tok K.RParen)))) (.alt (.seq (.tok K.LANGMATCHES) (.seq (.tok K.LParen) (.seq (.node K.Expression) (.seq (.tok K.Comma) (.seq (.node K.Expression) (.tok K.RParen)))))) (.alt (.seq (.tok K.LANGDIR) (.seq (.tok K.LParen) (.seq (.node K.Expression) (.tok K.RParen)))) (.alt (.seq (.tok K.DATATYPE) (.seq (.tok K.LParen) (.seq (.node K.Expression) (.tok K.RParen)))) (.alt (.seq (.tok K.BOUND) (.seq (.tok K.LParen) (.seq (.node K.Var) (.tok K.RParen)))) (.alt (.seq (.tok K.IRI) (.seq (.tok K.LParen) (.seq (.node K.Expression) (.tok K.RParen)))) (.alt (.seq (.tok K.URI) (.seq (.tok K.LParen) (.seq (.node K.Expression) (.tok K.RParen)))) (.alt (.seq (.tok K.BNODE) (.alt (.seq (.tok K.LParen) (.seq (.node K.Expression) (.tok K.RParen))) (.tok K.NIL))) (.alt (.seq (.tok K.RAND) (.tok K.NIL)) (.alt (.seq (.tok K.ABS) (.seq (.tok K.LParen) (.seq (.node K.Expression) (.tok K.RParen)))) (.alt (.seq (.tok K.CEIL) (.seq (.tok K.LParen) (.seq (.node K.Expression) (.tok K.RParen)))) (.alt (.seq (.tok K.FLOOR) (.seq (.tok K.LParen) (.seq (.node K.Expression) (.tok K.RParen)))) (.alt (.seq (.tok K.ROUND) (.seq (.tok K.LParen) (.seq (.node K.Expression) (.tok K.RParen)))) (.alt (.seq (.tok K.CONCAT) (.node K.ExpressionList)) (.alt (.node K.SubstringExpression) (.alt (.seq (.tok K.STRLEN) (.seq (.tok K.LParen) (.seq (.node K.Expression) (.tok K.RParen)))) (.alt (.node K.StrReplaceExpression) (.alt (.seq (.tok K.UCASE) (.seq (.tok K.LParen) (.seq (.node K.Expression) (.tok K.RParen)))) (.alt (.seq (.tok K.LCASE) (.seq (.tok K.LParen) (.seq (.node K.Expression) (.tok K.RParen)))) (.alt (.seq (.tok K.ENCODE_FOR_URI) (.seq (.tok K.LParen) (.seq (.node K.Expression) (.tok K.RParen)))) (.alt (.seq (.tok K.CONTAINS) (.seq (.tok K.LParen) (.seq (.node K.Expression) (.seq (.tok K.Comma) (.seq (.node K.Expression) (.tok K.RParen)))))) (.alt (.seq (.tok K.STRSTARTS) (.seq (.tok K.LParen) (.seq (.node K.Expression) (.seq (.tok K.Comma) (.seq (.node K.Expression) (.tok K.RParen)))))) (.alt (.seq (.tok K.STRENDS) (.seq (.tok K.LParen) (.seq (.node K.Expression) (.seq (.tok K.Comma) (.seq (.node K.Expression) (.tok K.RParen)))))) (.alt (.seq (.tok K.STRBEFORE) (.seq (.tok K.LParen) (.seq (.node K.Expression) (.seq (.tok K.Comma) (.seq (.node K.Expression) (.tok K.RParen)))))) (.alt (.seq (.tok K.STRAFTER) (.seq (.tok K.LParen) (.seq (.node K.Expression) (.seq (.tok K.Comma) (.seq (.node K.Expression) (.tok K.RParen)))))) (.alt (.seq (.tok K.YEAR) (.seq (.tok K.LParen) (.seq (.node K.Expression) (.tok K.RParen)))) (.alt (.seq (.tok K.MONTH) (.seq (.tok K.LParen) (.seq (.node K.Expression) (.tok K.RParen)))) (.alt (.seq (.tok K.DAY) (.seq (.tok K.LParen) (.seq (.node K.Expression) (.tok K.RParen)))) (.alt (.seq (.tok K.HOURS) (.seq (.tok K.LParen) (.seq (.node K.Expression) (.tok K.RParen)))) (.alt (.seq (.tok K.MINUTES) (.seq (.tok K.LParen) (.seq (.node K.Expression) (.tok K.RParen)))) (.alt (.seq (.tok K.SECONDS) (.seq (.tok K.LParen) (.seq (.node K.Expression) (.tok K.RParen)))) (.alt (.seq (.tok K.TIMEZONE) (.seq (.tok K.LParen) (.seq (.node K.Expression) (.tok K.RParen)))) (.alt (.seq (.tok K.TZ) (.seq (.tok K.LParen) (.seq (.node K.Expression) (.tok K.RParen)))) (.alt (.seq (.tok K.NOW) (.tok K.NIL)) (.alt (.seq (.tok K.UUID) (.tok K.NIL)) (.alt (.seq (.tok K.STRUUID) (.tok K.NIL)) (.alt (.seq (.tok K.MD5) (.seq (.tok K.LParen) (.seq (.node K.Expression) (.tok K.RParen)))) (.alt (.seq (.tok K.SHA1) (.seq (.tok K.LParen) (.seq (.node K.Expression) (.tok K.RParen)))) (.alt (.seq (.tok K.SHA256) (.seq (.tok K.LParen) (.seq (.node K.Expression) (.tok K.RParen)))) (.alt (.seq (.tok K.SHA384) (.seq (.tok K.LParen) (.seq (.node K.Expression) (.tok K.RParen)))) (.alt (.seq (.tok K.SHA512) (.seq (.tok K.LParen) (.seq (.node K.Expression) (.tok K.RParen)))) (.alt (.seq (.tok K.COALESCE) (.node K.ExpressionList)) (.alt (.seq (.tok K.IF) (.seq (.tok K.LParen) (.seq (.node K.Expression) (.seq (.tok K.Comma) (.seq (.node K.Expression) (.seq (.tok K.Comma) (.seq (.node K.Expression) (.tok K.RParen)))))))) (.alt (.seq (.tok K.STRLANG) (.seq (.tok K.LParen) (.seq (.node K.Expression) (.seq (.tok K.Comma) (.seq (.node K.Expression) (.tok K.RParen)))))) (.alt (.seq (.tok K.STRLANGDIR) (.seq (.tok K.LParen) (.seq (.node K.Expression) (.seq (.tok K.Comma) (.seq (.node K.Expression) (.seq (.tok K.Comma) (.seq (.node K.Expression) (.tok K.RParen)))))))) (.alt (.seq (.tok K.STRDT) (.seq (.tok K.LParen) (.seq (.node K.Expression) (.seq (.tok K.Comma) (.seq (.node K.Expression) (.tok K.RParen)))))) (.alt (.seq (.tok K.sameTerm) (.seq (.tok K.LParen) (.seq (.node K.Expression) (.seq (.tok K.Comma) (.seq (.node K.Expression) (.tok K.RParen)))))) (.alt (.seq (.tok K.isIRI) (.seq (.tok K.LParen) (.seq (.node K.Expression) (.tok K.RParen)))) (.alt (.seq (.tok K.isURI) (.seq (.tok K.LParen) (.seq (.node K.Expression) (.tok K.RParen)))) (.alt (.seq (.tok K.isBLANK) (.seq (.tok K.LParen) (.seq (.node K.Expression) (.tok K.RParen)))) (.alt (.seq (.tok K.isLITERAL) (.seq (.tok K.LParen) (.seq (.node K.Expression) (.tok K.RParen)))) (.alt (.seq (.tok K.isNUMERIC) (.seq (.tok K.LParen) (.seq (.node K.Expression) (.tok K.RParen)))) (.alt (.seq (.tok K.hasLANG) (.seq (.tok K.LParen) (.seq (.node K.Expression) (.tok K.RParen)))) (.alt (.seq (.tok K.hasLANGDIR) (.seq (.tok K.LParen) (.seq (.node K.Expression) (.tok K.RParen)))) (.alt (.node K.RegexExpression) (.alt (.node K.ExistsFunc) (.alt (.node K.NotExistsFunc) (.alt (.seq (.tok K.isTRIPLE) (.seq (.tok K.LParen) (.seq (.node K.Expression) (.tok K.RParen)))) (.alt (.seq (.tok K.TRIPLE) (.seq (.tok K.LParen) (.seq (.node K.Expression) (.seq (.tok K.Comma) (.seq (.node K.Expression) (.seq (.tok K.Comma) (.seq (.node K.Expression) (.tok K.RParen)))))))) (.alt (.seq (.tok K.SUBJECT) (.seq (.tok K.LParen) (.seq (.node K.Expression) (.tok K.RParen)))) (.alt (.seq (.tok K.PREDICATE) (.seq (.tok K.LParen) (.seq (.node K.Expression) (.tok K.RParen)))) (.seq (.tok K.OBJECT) (.seq (.tok K.LParen) (.seq (.node K.Expression) (.tok K.RParen)))))))))))))))))))))))))))))))))))))))))))))))))))))))))))))))))))

/-- `FunctionCall` (crates/sparql-parser/src/rules.rs L649-652). -/
def rule_FunctionCall : Rule := (.seq (.node K.iri) (.node K.ArgList))

/-- `HavingCondition` (crates/sparql-parser/src/rules.rs L653-653). -/
def rule_HavingCondition : Rule := (.node K.Constraint)

/-- `Constraint` (crates/sparql-parser/src/rules.rs L654-658). -/
def rule_Constraint : Rule := (.alt (.node K.BrackettedExpression) (.alt (.node K.BuiltInCall) (.node K.FunctionCall)))

/-- `OrderCondition` (crates/sparql-parser/src/rules.rs L659-671). -/
def rule_OrderCondition : Rule := (.alt (.seq (.alt (.tok K.ASC) (.tok K.DESC)) (.node K.BrackettedExpression)) (.alt (.node K.Constraint) (.node K.Var)))

/-- `BrackettedExpression` (crates/sparql-parser/src/rules.rs L672-676). -/
def rule_BrackettedExpression : Rule := (.seq (.tok K.LParen) (.seq (.node K.Expression) (.tok K.RParen)))

/-- `LimitClause` (crates/sparql-parser/src/rules.rs L677-680). -/
def rule_LimitClause : Rule := (.seq (.tok K.LIMIT) (.tok K.INTEGER))

/-- `OffsetClause` (crates/sparql-parser/src/rules.rs L681-684). -/
def rule_OffsetClause : Rule := (.seq (.tok K.OFFSET) (.tok K.INTEGER))

/-- `DataBlock` (crates/sparql-parser/src/rules.rs L685-688). -/
def rule_DataBlock : Rule := (.alt (.node K.InlineDataOneVar) (.node K.InlineDataFull))

/-- `UpdateOne` (crates/sparql-parser/src/rules.rs L689-701). -/
def rule_UpdateOne : Rule := (.alt (.node K.Load) (.alt (.node K.Clear) (.alt (.node K.Drop) (.alt (.node K.Add) (.alt (.node K.Move) (.alt (.node K.Copy) (.alt (.node K.Create) (.alt (.node K.DeleteWhere) (.alt (.node K.Modify) (.alt (.node K.InsertData) (.node K.DeleteData)))))))))))

/-- `Load` (crates/sparql-parser/src/rules.rs L702-710). -/
def rule_Load : Rule := (.seq (.tok K.LOAD) (.seq (.opt (.tok K.SILENT)) (.seq (.node K.iri) (.opt (.seq (.tok K.INTO) (.node K.GraphRef))))))

/-- `Clear` (crates/sparql-parser/src/rules.rs L711-715). -/
def rule_Clear : Rule := (.seq (.tok K.CLEAR) (.seq (.opt (.tok K.SILENT)) (.node K.GraphRefAll)))

/-- `Drop` (crates/sparql-parser/src/rules.rs L716-720). -/
def rule_Drop : Rule := (.seq (.tok K.DROP) (.seq (.opt (.tok K.SILENT)) (.node K.GraphRefAll)))

/-- `Add` (crates/sparql-parser/src/rules.rs L721-727). -/
def rule_Add : Rule := (.seq (.tok K.ADD) (.seq (.opt (.tok K.SILENT)) (.seq (.node K.GraphOrDefault) (.seq (.tok K.TO) (.node K.GraphOrDefault)))))

/-- `Move` (crates/sparql-parser/src/rules.rs L728-734). -/
def rule_Move : Rule := (.seq (.tok K.MOVE) (.seq (.opt (.tok K.SILENT)) (.seq (.node K.GraphOrDefault) (.seq (.tok K.TO) (.node K.GraphOrDefault)))))

/-- `Copy` (crates/sparql-parser/src/rules.rs L735-741). -/
def rule_Copy : Rule := (.seq (.tok K.COPY) (.seq (.opt (.tok K.SILENT)) (.seq (.node K.GraphOrDefault) (.seq (.tok K.TO) (.node K.GraphOrDefault)))))

/-- `Create` (crates/sparql-parser/src/rules.rs L742-746). -/
def rule_Create : Rule := (.seq (.tok K.CREATE) (.seq (.opt (.tok K.SILENT)) (.node K.GraphRef)))

/-- `DeleteWhere` (crates/sparql-parser/src/rules.rs L747-750). -/
def rule_DeleteWhere : Rule := (.seq (.tok K.DELETE_WHERE) (.node K.QuadPattern))

/-- `Modify` (crates/sparql-parser/src/rules.rs L751-766). -/
def rule_Modify : Rule := (.seq (.opt (.seq (.tok K.WITH) (.node K.iri))) (.seq (.alt (.seq (.node K.DeleteClause) (.opt (.node K.InsertClause))) (.node K.InsertClause)) (.seq (.rep (.node K.UsingClause)) (.seq (.tok K.WHERE) (.node K.GroupGraphPattern)))))

/-- `InsertData` (crates/sparql-parser/src/rules.rs L767-770). -/
def rule_InsertData : Rule := (.seq (.tok K.INSERT_DATA) (.node K.QuadData))

/-- `DeleteData` (crates/sparql-parser/src/rules.rs L771-774). -/
def rule_DeleteData : Rule := (.seq (.tok K.DELETE_DATA) (.node K.QuadData))

/-- `GraphRef` (crates/sparql-parser/src/rules.rs L775-778). -/
def rule_GraphRef : Rule := (.seq (.tok K.GRAPH) (.node K.iri))

/-- `GraphRefAll` (crates/sparql-parser/src/rules.rs L779-784). -/
def rule_GraphRefAll : Rule := (.alt (.node K.GraphRef) (.alt (.tok K.DEFAULT) (.alt (.tok K.NAMED) (.tok K.ALL))))

/-- `GraphOrDefault` (crates/sparql-parser/src/rules.rs L785-791). -/
def rule_GraphOrDefault : Rule := (.alt (.tok K.DEFAULT) (.seq (.opt (.tok K.GRAPH)) (.node K.iri)))

/-- `QuadData` (crates/sparql-parser/src/rules.rs L792-796). -/
def rule_QuadData : Rule := (.seq (.tok K.LCurly) (.seq (.node K.Quads) (.tok K.RCurly)))

/-- `QuadPattern` (crates/sparql-parser/src/rules.rs L797-801). -/
def rule_QuadPattern : Rule := (.seq (.tok K.LCurly) (.seq (.node K.Quads) (.tok K.RCurly)))

/-- `DeleteClause` (crates/sparql-parser/src/rules.rs L802-805). -/
def rule_DeleteClause : Rule := (.seq (.tok K.DELETE) (.node K.QuadPattern))

/-- `InsertClause` (crates/sparql-parser/src/rules.rs L806-809). -/
def rule_InsertClause : Rule := (.seq (.tok K.INSERT) (.node K.QuadPattern))

/-- `UsingClause` (crates/sparql-parser/src/rules.rs L810-819). -/
def rule_UsingClause : Rule := (.seq (.tok K.USING) (.alt (.node K.iri) (.seq (.tok K.NAMED) (.node K.iri))))

/-- `Quads` (crates/sparql-parser/src/rules.rs L820-827). -/
def rule_Quads : Rule := (.seq (.opt (.node K.TriplesTemplate)) (.rep (.seq (.node K.QuadsNotTriples) (.seq (.opt (.tok K.Dot)) (.opt (.node K.TriplesTemplate))))))

/-- `QuadsNotTriples` (crates/sparql-parser/src/rules.rs L828-834). -/
def rule_QuadsNotTriples : Rule := (.seq (.tok K.GRAPH) (.seq (.node K.VarOrIri) (.seq (.tok K.LCurly) (.seq (.opt (.node K.TriplesTemplate)) (.tok K.RCurly)))))

/-- `TriplesSameSubject` (crates/sparql-parser/src/rules.rs L835-845). -/
def rule_TriplesSameSubject : Rule := (.alt (.seq (.node K.VarOrTerm) (.node K.PropertyListNotEmpty)) (.alt (.seq (.node K.TriplesNode) (.node K.PropertyList)) (.node K.ReifiedTripleBlock)))

/-- `GroupGraphPatternSub` (crates/sparql-parser/src/rules.rs L846-853). -/
def rule_GroupGraphPatternSub : Rule := (.seq (.opt (.node K.TriplesBlock)) (.rep (.seq (.node K.GraphPatternNotTriples) (.seq (.opt (.tok K.Dot)) (.opt (.node K.TriplesBlock))))))

/-- `TriplesBlock` (crates/sparql-parser/src/rules.rs L854-860). -/
def rule_TriplesBlock : Rule := (.seq (.node K.TriplesSameSubjectPath) (.opt (.seq (.tok K.Dot) (.opt (.node K.TriplesBlock)))))

/-- `GraphPatternNotTriples` (crates/sparql-parser/src/rules.rs L861-870). -/
def rule_GraphPatternNotTriples : Rule := (.alt (.node K.GroupOrUnionGraphPattern) (.alt (.node K.OptionalGraphPattern) (.alt (.node K.MinusGraphPattern) (.alt (.node K.GraphGraphPattern) (.alt (.node K.ServiceGraphPattern) (.alt (.node K.Filter) (.alt (.node K.Bind) (.node K.InlineData))))))))

/-- `TriplesSameSubjectPath` (crates/sparql-parser/src/rules.rs L871-881). -/
def rule_TriplesSameSubjectPath : Rule := (.alt (.seq (.node K.VarOrTerm) (.node K.PropertyListPathNotEmpty)) (.alt (.seq (.node K.TriplesNodePath) (.node K.PropertyListPath)) (.node K.ReifiedTripleBlockPath)))

/-- `ReifiedTripleBlock` (crates/sparql-parser/src/rules.rs L882-885). -/
def rule_ReifiedTripleBlock : Rule := (.seq (.node K.ReifiedTriple) (.node K.PropertyList))

/-- `ReifiedTriple` (crates/sparql-parser/src/rules.rs L886-893). -/
def rule_ReifiedTriple : Rule := (.seq (.tok K.DoubleLess) (.seq (.node K.ReifiedTripleSubject) (.seq (.node K.Verb) (.seq (.node K.ReifiedTripleObject) (.seq (.opt (.node K.Reifier)) (.tok K.DoubleMore))))))

/-- `PropertyList` (crates/sparql-parser/src/rules.rs L894-896). -/
def rule_PropertyList : Rule := (.opt (.node K.PropertyListNotEmpty))

/-- `ReifiedTripleBlockPath` (crates/sparql-parser/src/rules.rs L897-900). -/
def rule_ReifiedTripleBlockPath : Rule := (.seq (.node K.ReifiedTriple) (.node K.PropertyListPath))

/-- `PropertyListPath` (crates/sparql-parser/src/rules.rs L901-903). -/
def rule_PropertyListPath : Rule := (.opt (.node K.PropertyListPathNotEmpty))

/-- `GroupOrUnionGraphPattern` (crates/sparql-parser/src/rules.rs L904-910). -/
def rule_GroupOrUnionGraphPattern : Rule := (.seq (.node K.GroupGraphPattern) (.rep (.seq (.tok K.UNION) (.node K.GroupGraphPattern))))

/-- `OptionalGraphPattern` (crates/sparql-parser/src/rules.rs L911-914). -/
def rule_OptionalGraphPattern : Rule := (.seq (.tok K.OPTIONAL) (.node K.GroupGraphPattern))

/-- `MinusGraphPattern` (crates/sparql-parser/src/rules.rs L915-918). -/
def rule_MinusGraphPattern : Rule := (.seq (.tok K.MINUS) (.node K.GroupGraphPattern))

/-- `GraphGraphPattern` (crates/sparql-parser/src/rules.rs L919-923). -/
def rule_GraphGraphPattern : Rule := (.seq (.tok K.GRAPH) (.seq (.node K.VarOrIri) (.node K.GroupGraphPattern)))

/-- `ServiceGraphPattern` (crates/sparql-parser/src/rules.rs L924-929). -/
def rule_ServiceGraphPattern : Rule := (.seq (.tok K.SERVICE) (.seq (.opt (.tok K.SILENT)) (.seq (.node K.VarOrIri) (.node K.GroupGraphPattern))))

/-- `Filter` (crates/sparql-parser/src/rules.rs L930-933). -/
def rule_Filter : Rule := (.seq (.tok K.FILTER) (.node K.Constraint))

/-- `Bind` (crates/sparql-parser/src/rules.rs L934-941). -/
def rule_Bind : Rule := (.seq (.tok K.BIND) (.seq (.tok K.LParen) (.seq (.node K.Expression) (.seq (.tok K.AS) (.seq (.node K.Var) (.tok K.RParen))))))

/-- `InlineData` (crates/sparql-parser/src/rules.rs L942-945). -/
def rule_InlineData : Rule := (.seq (.tok K.VALUES) (.node K.DataBlock))

/-- `InlineDataOneVar` (crates/sparql-parser/src/rules.rs L946-951). -/
def rule_InlineDataOneVar : Rule := (.seq (.node K.Var) (.seq (.tok K.LCurly) (.seq (.rep (.node K.DataBlockValue)) (.tok K.RCurly))))

/-- `InlineDataFull` (crates/sparql-parser/src/rules.rs L952-971). -/
def rule_InlineDataFull : Rule := (.seq (.alt (.tok K.NIL) (.seq (.tok K.LParen) (.seq (.rep (.node K.Var)) (.tok K.RParen)))) (.seq (.tok K.LCurly) (.seq (.rep (.alt (.seq (.tok K.LParen) (.seq (.rep (.node K.DataBlockValue)) (.tok K.RParen))) (.tok K.NIL))) (.tok K.RCurly))))

/-- `DataBlockValue` (crates/sparql-parser/src/rules.rs L972-979). -/
def rule_DataBlockValue : Rule := (.alt (.node K.iri) (.alt (.node K.RDFLiteral) (.alt (.node K.NumericLiteral) (.alt (.node K.BooleanLiteral) (.alt (.tok K.UNDEF) (.node K.TripleTermData))))))

/-- `RDFLiteral` (crates/sparql-parser/src/rules.rs L980-989). -/
def rule_RDFLiteral : Rule := (.seq (.node K.String) (.opt (.alt (.tok K.LANG_DIR) (.seq (.tok K.DoubleZirkumflex) (.node K.iri)))))

/-- `NumericLiteral` (crates/sparql-parser/src/rules.rs L990-994). -/
def rule_NumericLiteral : Rule := (.alt (.node K.NumericLiteralUnsigned) (.alt (.node K.NumericLiteralPositive) (.node K.NumericLiteralNegative)))

/-- `BooleanLiteral` (crates/sparql-parser/src/rules.rs L995-998). -/
def rule_BooleanLiteral : Rule := (.alt (.tok K.True) (.tok K.False))

/-- `TripleTermData` (crates/sparql-parser/src/rules.rs L999-1008). -/
def rule_TripleTermData : Rule := (.seq (.tok K.DoubleLessLParen) (.seq (.node K.TripleTermDataSubject) (.seq (.alt (.node K.iri) (.tok K.a)) (.seq (.node K.TripleTermDataObject) (.tok K.RParenDoubleMore)))))

/-- `Reifier` (crates/sparql-parser/src/rules.rs L1009-1012). -/
def rule_Reifier : Rule := (.seq (.tok K.Tilde) (.opt (.node K.VarOrReifierId)))

/-- `VarOrReifierId` (crates/sparql-parser/src/rules.rs L1013-1017). -/
def rule_VarOrReifierId : Rule := (.alt (.node K.Var) (.alt (.node K.iri) (.node K.BlankNode)))

/-- `BlankNode` (crates/sparql-parser/src/rules.rs L1018-1021). -/
def rule_BlankNode : Rule := (.alt (.tok K.BLANK_NODE_LABEL) (.tok K.ANON))

/-- `ArgList` (crates/sparql-parser/src/rules.rs L1022-1034). -/
def rule_ArgList : Rule := (.alt (.tok K.NIL) (.seq (.tok K.LParen) (.seq (.opt (.tok K.DISTINCT)) (.seq (.node K.Expression) (.seq (.rep (.seq (.tok K.Comma) (.node K.Expression))) (.tok K.RParen))))))

/-- `ExpressionList` (crates/sparql-parser/src/rules.rs L1035-1046). -/
def rule_ExpressionList : Rule := (.alt (.tok K.NIL) (.seq (.tok K.LParen) (.seq (.node K.Expression) (.seq (.rep (.seq (.tok K.Comma) (.node K.Expression))) (.tok K.RParen)))))

/-- `ConstructTriples` (crates/sparql-parser/src/rules.rs L1047-1053). -/
def rule_ConstructTriples : Rule := (.seq (.node K.TriplesSameSubject) (.opt (.seq (.tok K.Dot) (.opt (.node K.ConstructTriples)))))

/-- `VarOrTerm` (crates/sparql-parser/src/rules.rs L1054-1063). -/
def rule_VarOrTerm : Rule := (.alt (.node K.Var) (.alt (.node K.iri) (.alt (.node K.RDFLiteral) (.alt (.node K.NumericLiteral) (.alt (.node K.BooleanLiteral) (.alt (.node K.BlankNode) (.alt (.tok K.NIL) (.node K.TripleTerm))))))))

/-- `PropertyListNotEmpty` (crates/sparql-parser/src/rules.rs L1064-1074). -/
def rule_PropertyListNotEmpty : Rule := (.seq (.node K.Verb) (.seq (.node K.ObjectList) (.rep (.seq (.tok K.Semicolon) (.opt (.seq (.node K.Verb) (.node K.ObjectList)))))))

/-- `TriplesNode` (crates/sparql-parser/src/rules.rs L1075-1078). -/
def rule_TriplesNode : Rule := (.alt (.node K.Collection) (.node K.BlankNodePropertyList))

/-- `Verb` (crates/sparql-parser/src/rules.rs L1079-1082). -/
def rule_Verb : Rule := (.alt (.node K.VarOrIri) (.tok K.a))

/-- `ObjectList` (crates/sparql-parser/src/rules.rs L1083-1089). -/
def rule_ObjectList : Rule := (.seq (.node K.Object) (.rep (.seq (.tok K.Comma) (.node K.Object))))

/-- `Object` (crates/sparql-parser/src/rules.rs L1090-1093). -/
def rule_Object : Rule := (.seq (.node K.GraphNode) (.node K.Annotation))

/-- `GraphNode` (crates/sparql-parser/src/rules.rs L1094-1098). -/
def rule_GraphNode : Rule := (.alt (.node K.VarOrTerm) (.alt (.node K.TriplesNode) (.node K.ReifiedTriple)))

/-- `Annotation` (crates/sparql-parser/src/rules.rs L1099-1102). -/
def rule_Annotation : Rule := (.rep (.alt (.node K.Reifier) (.node K.AnnotationBlock)))

/-- `PropertyListPathNotEmpty` (crates/sparql-parser/src/rules.rs L1103-1119). -/
def rule_PropertyListPathNotEmpty : Rule := (.seq (.alt (.node K.VerbPath) (.node K.VerbSimple)) (.seq (.node K.ObjectListPath) (.rep (.seq (.tok K.Semicolon) (.opt (.seq (.alt (.node K.VerbPath) (.node K.VerbSimple)) (.node K.ObjectListPath)))))))

/-- `TriplesNodePath` (crates/sparql-parser/src/rules.rs L1120-1123). -/
def rule_TriplesNodePath : Rule := (.alt (.node K.CollectionPath) (.node K.BlankNodePropertyListPath))

/-- `VerbPath` (crates/sparql-parser/src/rules.rs L1124-1124). -/
def rule_VerbPath : Rule := (.node K.Path)

/-- `VerbSimple` (crates/sparql-parser/src/rules.rs L1125-1125). -/
def rule_VerbSimple : Rule := (.node K.Var)

/-- `ObjectListPath` (crates/sparql-parser/src/rules.rs L1126-1132). -/
def rule_ObjectListPath : Rule := (.seq (.node K.ObjectPath) (.rep (.seq (.tok K.Comma) (.node K.ObjectPath))))

/-- `Path` (crates/sparql-parser/src/rules.rs L1133-1133). -/
def rule_Path : Rule := (.node K.PathAlternative)

/-- `ObjectPath` (crates/sparql-parser/src/rules.rs L1134-1137). -/
def rule_ObjectPath : Rule := (.seq (.node K.GraphNodePath) (.node K.AnnotationPath))

/-- `GraphNodePath` (crates/sparql-parser/src/rules.rs L1138-1142). -/
def rule_GraphNodePath : Rule := (.alt (.node K.VarOrTerm) (.alt (.node K.TriplesNodePath) (.node K.ReifiedTriple)))

/-- `AnnotationPath` (crates/sparql-parser/src/rules.rs L1143-1146). -/
def rule_AnnotationPath : Rule := (.rep (.alt (.node K.Reifier) (.node K.AnnotationBlockPath)))

/-- `PathAlternative` (crates/sparql-parser/src/rules.rs L1147-1153). -/
def rule_PathAlternative : Rule := (.seq (.node K.PathSequence) (.rep (.seq (.tok K.Pipe) (.node K.PathSequence))))

/-- `PathSequence` (crates/sparql-parser/src/rules.rs L1154-1160). -/
def rule_PathSequence : Rule := (.seq (.node K.PathEltOrInverse) (.rep (.seq (.tok K.Slash) (.node K.PathEltOrInverse))))

/-- `PathEltOrInverse` (crates/sparql-parser/src/rules.rs L1161-1167). -/
def rule_PathEltOrInverse : Rule := (.alt (.node K.PathElt) (.seq (.tok K.Zirkumflex) (.node K.PathElt)))

/-- `PathElt` (crates/sparql-parser/src/rules.rs L1168-1171). -/
def rule_PathElt : Rule := (.seq (.node K.PathPrimary) (.opt (.node K.PathMod)))

/-- `PathPrimary` (crates/sparql-parser/src/rules.rs L1172-1184). -/
def rule_PathPrimary : Rule := (.alt (.node K.iri) (.alt (.tok K.a) (.alt (.seq (.tok K.ExclamationMark) (.node K.PathNegatedPropertySet)) (.seq (.tok K.LParen) (.seq (.node K.Path) (.tok K.RParen))))))

/-- `PathMod` (crates/sparql-parser/src/rules.rs L1185-1189). -/
def rule_PathMod : Rule := (.alt (.tok K.QuestionMark) (.alt (.tok K.Star) (.tok K.Plus)))

/-- `PathNegatedPropertySet` (crates/sparql-parser/src/rules.rs L1190-1203). -/
def rule_PathNegatedPropertySet : Rule := (.alt (.node K.PathOneInPropertySet) (.seq (.tok K.LParen) (.seq (.opt (.seq (.node K.PathOneInPropertySet) (.rep (.seq (.tok K.Pipe) (.node K.PathOneInPropertySet))))) (.tok K.RParen))))

/-- `PathOneInPropertySet` (crates/sparql-parser/src/rules.rs L1204-1214). -/
def rule_PathOneInPropertySet : Rule := (.alt (.node K.iri) (.alt (.tok K.a) (.seq (.tok K.Zirkumflex) (.alt (.node K.iri) (.tok K.a)))))

/-- `Collection` (crates/sparql-parser/src/rules.rs L1215-1220). -/
def rule_Collection : Rule := (.seq (.tok K.LParen) (.seq (.node K.GraphNode) (.seq (.rep (.node K.GraphNode)) (.tok K.RParen))))

/-- `BlankNodePropertyList` (crates/sparql-parser/src/rules.rs L1221-1225). -/
def rule_BlankNodePropertyList : Rule := (.seq (.tok K.LBrack) (.seq (.node K.PropertyListNotEmpty) (.tok K.RBrack)))

/-- `CollectionPath` (crates/sparql-parser/src/rules.rs L1226-1231). -/
def rule_CollectionPath : Rule := (.seq (.tok K.LParen) (.seq (.node K.GraphNodePath) (.seq (.rep (.node K.GraphNodePath)) (.tok K.RParen))))

/-- `BlankNodePropertyListPath` (crates/sparql-parser/src/rules.rs L1232-1236). -/
def rule_BlankNodePropertyListPath : Rule := (.seq (.tok K.LBrack) (.seq (.node K.PropertyListPathNotEmpty) (.tok K.RBrack)))

/-- `AnnotationBlockPath` (crates/sparql-parser/src/rules.rs L1237-1241). -/
def rule_AnnotationBlockPath : Rule := (.seq (.tok K.LCurlyPipe) (.seq (.node K.PropertyListPathNotEmpty) (.tok K.PipeRCurly)))

/-- `AnnotationBlock` (crates/sparql-parser/src/rules.rs L1242-1246). -/
def rule_AnnotationBlock : Rule := (.seq (.tok K.LCurlyPipe) (.seq (.node K.PropertyListNotEmpty) (.tok K.PipeRCurly)))

/-- `TripleTerm` (crates/sparql-parser/src/rules.rs L1247-1253). -/
def rule_TripleTerm : Rule := (.seq (.tok K.DoubleLessLParen) (.seq (.node K.TripleTermSubject) (.seq (.node K.Verb) (.seq (.node K.TripleTermObject) (.tok K.RParenDoubleMore)))))

/-- `ReifiedTripleSubject` (crates/sparql-parser/src/rules.rs L1254-1263). -/
def rule_ReifiedTripleSubject : Rule := (.alt (.node K.Var) (.alt (.node K.iri) (.alt (.node K.RDFLiteral) (.alt (.node K.NumericLiteral) (.alt (.node K.BooleanLiteral) (.alt (.node K.BlankNode) (.alt (.node K.ReifiedTriple) (.node K.TripleTerm))))))))

/-- `ReifiedTripleObject` (crates/sparql-parser/src/rules.rs L1264-1273). -/
def rule_ReifiedTripleObject : Rule := (.alt (.node K.Var) (.alt (.node K.iri) (.alt (.node K.RDFLiteral) (.alt (.node K.NumericLiteral) (.alt (.node K.BooleanLiteral) (.alt (.node K.BlankNode) (.alt (.node K.ReifiedTriple) (.node K.TripleTerm))))))))

/-- `TripleTermSubject` (crates/sparql-parser/src/rules.rs L1274-1282). -/
def rule_TripleTermSubject : Rule := (.alt (.node K.Var) (.alt (.node K.iri) (.alt (.node K.RDFLiteral) (.alt (.node K.NumericLiteral) (.alt (.node K.BooleanLiteral) (.alt (.node K.BlankNode) (.node K.TripleTerm)))))))

/-- `TripleTermObject` (crates/sparql-parser/src/rules.rs L1283-1291). -/
def rule_TripleTermObject : Rule := (.alt (.node K.Var) (.alt (.node K.iri) (.alt (.node K.RDFLiteral) (.alt (.node K.NumericLiteral) (.alt (.node K.BooleanLiteral) (.alt (.node K.BlankNode) (.node K.TripleTerm)))))))

/-- `TripleTermDataSubject` (crates/sparql-parser/src/rules.rs L1292-1292). -/
def rule_TripleTermDataSubject : Rule := (.node K.iri)

/-- `TripleTermDataObject` (crates/sparql-parser/src/rules.rs L1293-1299). -/
def rule_TripleTermDataObject : Rule := (.alt (.node K.iri) (.alt (.node K.RDFLiteral) (.alt (.node K.NumericLiteral) (.alt (.node K.BooleanLiteral) (.node K.TripleTermData)))))

/-- `ConditionalOrExpression` (crates/sparql-parser/src/rules.rs L1300-1306). -/
def rule_ConditionalOrExpression : Rule := (.seq (.node K.ConditionalAndExpression) (.rep (.seq (.tok K.DoublePipe) (.node K.ConditionalAndExpression))))

/-- `ConditionalAndExpression` (crates/sparql-parser/src/rules.rs L1307-1313). -/
def rule_ConditionalAndExpression : Rule := (.seq (.node K.ValueLogical) (.rep (.seq (.tok K.DoubleAnd) (.node K.ValueLogical))))

/-- `ValueLogical` (crates/sparql-parser/src/rules.rs L1314-1314). -/
def rule_ValueLogical : Rule := (.node K.RelationalExpression)

/-- `RelationalExpression` (crates/sparql-parser/src/rules.rs L1315-1352). -/
def rule_RelationalExpression : Rule := (.seq (.node K.NumericExpression) (.opt (.alt (.seq (.tok K.Equals) (.node K.NumericExpression)) (.alt (.seq (.tok K.ExclamationMarkEquals) (.node K.NumericExpression)) (.alt (.seq (.tok K.Less) (.node K.NumericExpression)) (.alt (.seq (.tok K.More) (.node K.NumericExpression)) (.alt (.seq (.tok K.LessEquals) (.node K.NumericExpression)) (.alt (.seq (.tok K.MoreEquals) (.node K.NumericExpression)) (.alt (.seq (.tok K.IN) (.node K.ExpressionList)) (.seq (.tok K.NOT) (.seq (.tok K.IN) (.node K.ExpressionList))))))))))))

/-- `NumericExpression` (crates/sparql-parser/src/rules.rs L1353-1353). -/
def rule_NumericExpression : Rule := (.node K.AdditiveExpression)

/-- `AdditiveExpression` (crates/sparql-parser/src/rules.rs L1354-1382). -/
def rule_AdditiveExpression : Rule := (.seq (.node K.MultiplicativeExpression) (.rep (.alt (.seq (.tok K.Plus) (.node K.MultiplicativeExpression)) (.alt (.seq (.tok K.Minus) (.node K.MultiplicativeExpression)) (.seq (.alt (.node K.NumericLiteralPositive) (.node K.NumericLiteralNegative)) (.rep (.alt (.seq (.tok K.Star) (.node K.UnaryExpression)) (.seq (.tok K.Slash) (.node K.UnaryExpression)))))))))

/-- `MultiplicativeExpression` (crates/sparql-parser/src/rules.rs L1383-1395). -/
def rule_MultiplicativeExpression : Rule := (.seq (.node K.UnaryExpression) (.rep (.alt (.seq (.tok K.Star) (.node K.UnaryExpression)) (.seq (.tok K.Slash) (.node K.UnaryExpression)))))

/-- `NumericLiteralPositive` (crates/sparql-parser/src/rules.rs L1396-1400). -/
def rule_NumericLiteralPositive : Rule := (.alt (.tok K.INTEGER_POSITIVE) (.alt (.tok K.DECIMAL_POSITIVE) (.tok K.DOUBLE_POSITIVE)))

/-- `NumericLiteralNegative` (crates/sparql-parser/src/rules.rs L1401-1405). -/
def rule_NumericLiteralNegative : Rule := (.alt (.tok K.INTEGER_NEGATIVE) (.alt (.tok K.DECIMAL_NEGATIVE) (.tok K.DOUBLE_NEGATIVE)))

/-- `UnaryExpression` (crates/sparql-parser/src/rules.rs L1406-1420). -/
def rule_UnaryExpression : Rule := (.alt (.seq (.tok K.ExclamationMark) (.node K.UnaryExpression)) (.alt (.seq (.tok K.Plus) (.node K.PrimaryExpression)) (.alt (.seq (.tok K.Minus) (.node K.PrimaryExpression)) (.node K.PrimaryExpression))))

/-- `PrimaryExpression` (crates/sparql-parser/src/rules.rs L1421-1430). -/
def rule_PrimaryExpression : Rule := (.alt (.node K.BrackettedExpression) (.alt (.node K.BuiltInCall) (.alt (.node K.iriOrFunction) (.alt (.node K.RDFLiteral) (.alt (.node K.NumericLiteral) (.alt (.node K.BooleanLiteral) (.alt (.node K.Var) (.node K.ExprTripleTerm))))))))

/-- `iriOrFunction` (crates/sparql-parser/src/rules.rs L1431-1434). -/
def rule_iriOrFunction : Rule := (.seq (.node K.iri) (.opt (.node K.ArgList)))

/-- `ExprTripleTerm` (crates/sparql-parser/src/rules.rs L1435-1441). -/
def rule_ExprTripleTerm : Rule := (.seq (.tok K.DoubleLessLParen) (.seq (.node K.ExprTripleTermSubject) (.seq (.node K.Verb) (.seq (.node K.ExprTripleTermObject) (.tok K.RParenDoubleMore)))))

/-- `ExprTripleTermSubject` (crates/sparql-parser/src/rules.rs L1442-1445). -/
def rule_ExprTripleTermSubject : Rule := (.alt (.node K.iri) (.node K.Var))

/-- `ExprTripleTermObject` (crates/sparql-parser/src/rules.rs L1446-1453). -/
def rule_ExprTripleTermObject : Rule := (.alt (.node K.iri) (.alt (.node K.RDFLiteral) (.alt (.node K.NumericLiteral) (.alt (.node K.BooleanLiteral) (.alt (.node K.Var) (.node K.ExprTripleTerm))))))

/-- `Aggregate` (crates/sparql-parser/src/rules.rs L1454-1513). -/
def rule_Aggregate : Rule := (.alt (.seq (.tok K.COUNT) (.seq (.tok K.LParen) (.seq (.opt (.tok K.DISTINCT)) (.seq (.alt (.tok K.Star) (.node K.Expression)) (.tok K.RParen))))) (.alt (.seq (.tok K.SUM) (.seq (.tok K.LParen) (.seq (.opt (.tok K.DISTINCT)) (.seq (.node K.Expression) (.tok K.RParen))))) (.alt (.seq (.tok K.MIN) (.seq (.tok K.LParen) (.seq (.opt (.tok K.DISTINCT)) (.seq (.node K.Expression) (.tok K.RParen))))) (.alt (.seq (.tok K.MAX) (.seq (.tok K.LParen) (.seq (.opt (.tok K.DISTINCT)) (.seq (.node K.Expression) (.tok K.RParen))))) (.alt (.seq (.tok K.AVG) (.seq (.tok K.LParen) (.seq (.opt (.tok K.DISTINCT)) (.seq (.node K.Expression) (.tok K.RParen))))) (.alt (.seq (.tok K.SAMPLE) (.seq (.tok K.LParen) (.seq (.opt (.tok K.DISTINCT)) (.seq (.node K.Expression) (.tok K.RParen))))) (.seq (.tok K.GROUP_CONCAT) (.seq (.tok K.LParen) (.seq (.opt (.tok K.DISTINCT)) (.seq (.node K.Expression) (.seq (.opt (.seq (.tok K.Semicolon) (.seq (.tok K.SEPARATOR) (.seq (.tok K.Equals) (.node K.String))))) (.tok K.RParen))))))))))))

/-- `SubstringExpression` (crates/sparql-parser/src/rules.rs L1514-1525). -/
def rule_SubstringExpression : Rule := (.seq (.tok K.SUBSTR) (.seq (.tok K.LParen) (.seq (.node K.Expression) (.seq (.tok K.Comma) (.seq (.node K.Expression) (.seq (.opt (.seq (.tok K.Comma) (.node K.Expression))) (.tok K.RParen)))))))

/-- `StrReplaceExpression` (crates/sparql-parser/src/rules.rs L1526-1539). -/
def rule_StrReplaceExpression : Rule := (.seq (.tok K.REPLACE) (.seq (.tok K.LParen) (.seq (.node K.Expression) (.seq (.tok K.Comma) (.seq (.node K.Expression) (.seq (.tok K.Comma) (.seq (.node K.Expression) (.seq (.opt (.seq (.tok K.Comma) (.node K.Expression))) (.tok K.RParen)))))))))

/-- `RegexExpression` (crates/sparql-parser/src/rules.rs L1540-1551). -/
def rule_RegexExpression : Rule := (.seq (.tok K.REGEX) (.seq (.tok K.LParen) (.seq (.node K.Expression) (.seq (.tok K.Comma) (.seq (.node K.Expression) (.seq (.opt (.seq (.tok K.Comma) (.node K.Expression))) (.tok K.RParen)))))))

/-- `ExistsFunc` (crates/sparql-parser/src/rules.rs L1552-1555). -/
def rule_ExistsFunc : Rule := (.seq (.tok K.EXISTS) (.node K.GroupGraphPattern))

/-- `NotExistsFunc` (crates/sparql-parser/src/rules.rs L1556-1560). -/
def rule_NotExistsFunc : Rule := (.seq (.tok K.NOT) (.seq (.tok K.EXISTS) (.node K.GroupGraphPattern)))

/-- `String` (crates/sparql-parser/src/rules.rs L1561-1566). -/
def rule_String : Rule := (.alt (.tok K.STRING_LITERAL1) (.alt (.tok K.STRING_LITERAL2) (.alt (.tok K.STRING_LITERAL_LONG1) (.tok K.STRING_LITERAL_LONG2))))

/-- `NumericLiteralUnsigned` (crates/sparql-parser/src/rules.rs L1567-1571). -/
def rule_NumericLiteralUnsigned : Rule := (.alt (.tok K.INTEGER) (.alt (.tok K.DECIMAL) (.tok K.DOUBLE)))

/-- `PrefixedName` (crates/sparql-parser/src/rules.rs L1572-1575). -/
def rule_PrefixedName : Rule := (.alt (.tok K.PNAME_LN) (.tok K.PNAME_NS))

/-- `Rule::from_node_kind` (crates/sparql-parser/src/rules.rs L41-1579). -/
def sparqlRulesTree : KTree Rule :=
  (.br 263
   (.br 223
    (.br 203
     (.br 193
      (.br 188
       (.br 186
        (.br 185
         (.leaf 184 rule_QueryUnit)
         (.leaf 185 rule_Query))
        (.br 187
         (.leaf 186 rule_Prologue)
         (.leaf 187 rule_SelectQuery)))
       (.br 190
        (.br 189
         (.leaf 188 rule_ConstructQuery)
         (.leaf 189 rule_DescribeQuery))
        (.br 191
         (.leaf 190 rule_AskQuery)
         (.br 192
          (.leaf 191 rule_ValuesClause)
          (.leaf 192 rule_UpdateUnit)))))
      (.br 198
       (.br 195
        (.br 194
         (.leaf 193 rule_Update)
         (.leaf 194 rule_BaseDecl))
        (.br 196
         (.leaf 195 rule_PrefixDecl)
         (.br 197
          (.leaf 196 rule_VersionDecl)
          (.leaf 197 rule_VersionSpecifier))))
       (.br 200
        (.br 199
         (.leaf 198 rule_SelectClause)
         (.leaf 199 rule_DatasetClause))
        (.br 201
         (.leaf 200 rule_WhereClause)
         (.br 202
          (.leaf 201 rule_SolutionModifier)
          (.leaf 202 rule_SubSelect))))))
     (.br 213
      (.br 208
       (.br 205
        (.br 204
         (.leaf 203 rule_Var)
         (.leaf 204 rule_Expression))
        (.br 206
         (.leaf 205 rule_ConstructTemplate)
         (.br 207
          (.leaf 206 rule_TriplesTemplate)
          (.leaf 207 rule_VarOrIri))))
       (.br 210
        (.br 209
         (.leaf 208 rule_DefaultGraphClause)
         (.leaf 209 rule_NamedGraphClause))
        (.br 211
         (.leaf 210 rule_SourceSelector)
         (.br 212
          (.leaf 211 rule_iri)
          (.leaf 212 rule_GroupGraphPattern)))))
      (.br 218
       (.br 215
        (.br 214
         (.leaf 213 rule_GroupClause)
         (.leaf 214 rule_HavingClause))
        (.br 216
         (.leaf 215 rule_OrderClause)
         (.br 217
          (.leaf 216 rule_LimitOffsetClauses)
          (.leaf 217 rule_GroupCondition))))
       (.br 220
        (.br 219
         (.leaf 218 rule_BuiltInCall)
         (.leaf 219 rule_FunctionCall))
        (.br 221
         (.leaf 220 rule_HavingCondition)
         (.br 222
          (.leaf 221 rule_Constraint)
          (.leaf 222 rule_OrderCondition)))))))
    (.br 243
     (.br 233
      (.br 228
       (.br 225
        (.br 224
         (.leaf 223 rule_BrackettedExpression)
         (.leaf 224 rule_LimitClause))
        (.br 226
         (.leaf 225 rule_OffsetClause)
         (.br 227
          (.leaf 226 rule_DataBlock)
          (.leaf 227 rule_UpdateOne))))
       (.br 230
        (.br 229
         (.leaf 228 rule_Load)
         (.leaf 229 rule_Clear))
        (.br 231
         (.leaf 230 rule_Drop)
         (.br 232
          (.leaf 231 rule_Add)
          (.leaf 232 rule_Move)))))
      (.br 238
       (.br 235
        (.br 234
         (.leaf 233 rule_Copy)
         (.leaf 234 rule_Create))
        (.br 236
         (.leaf 235 rule_InsertData)
         (.br 237
          (.leaf 236 rule_DeleteData)
          (.leaf 237 rule_DeleteWhere))))
       (.br 240
        (.br 239
         (.leaf 238 rule_Modify)
         (.leaf 239 rule_GraphRef))
        (.br 241
         (.leaf 240 rule_GraphRefAll)
         (.br 242
          (.leaf 241 rule_GraphOrDefault)
          (.leaf 242 rule_QuadData))))))
     (.br 253
      (.br 248
       (.br 245
        (.br 244
         (.leaf 243 rule_QuadPattern)
         (.leaf 244 rule_DeleteClause))
        (.br 246
         (.leaf 245 rule_InsertClause)
         (.br 247
          (.leaf 246 rule_UsingClause)
          (.leaf 247 rule_Quads))))
       (.br 250
        (.br 249
         (.leaf 248 rule_QuadsNotTriples)
         (.leaf 249 rule_TriplesSameSubject))
        (.br 251
         (.leaf 250 rule_GroupGraphPatternSub)
         (.br 252
          (.leaf 251 rule_TriplesBlock)
          (.leaf 252 rule_ReifiedTripleBlock)))))
      (.br 258
       (.br 255
        (.br 254
         (.leaf 253 rule_ReifiedTripleBlockPath)
         (.leaf 254 rule_Reifier))
        (.br 256
         (.leaf 255 rule_VarOrReifierId)
         (.br 257
          (.leaf 256 rule_AnnotationPath)
          (.leaf 257 rule_AnnotationBlockPath))))
       (.br 260
        (.br 259
         (.leaf 258 rule_Annotation)
         (.leaf 259 rule_AnnotationBlock))
        (.br 261
         (.leaf 260 rule_GraphPatternNotTriples)
         (.br 262
          (.leaf 261 rule_TriplesSameSubjectPath)
          (.leaf 262 rule_GroupOrUnionGraphPattern))))))))
   (.br 302
    (.br 282
     (.br 272
      (.br 267
       (.br 265
        (.br 264
         (.leaf 263 rule_OptionalGraphPattern)
         (.leaf 264 rule_MinusGraphPattern))
        (.br 266
         (.leaf 265 rule_GraphGraphPattern)
         (.leaf 266 rule_ServiceGraphPattern)))
       (.br 269
        (.br 268
         (.leaf 267 rule_Filter)
         (.leaf 268 rule_Bind))
        (.br 270
         (.leaf 269 rule_InlineData)
         (.br 271
          (.leaf 270 rule_InlineDataOneVar)
          (.leaf 271 rule_InlineDataFull)))))
      (.br 277
       (.br 274
        (.br 273
         (.leaf 272 rule_DataBlockValue)
         (.leaf 273 rule_RDFLiteral))
        (.br 275
         (.leaf 274 rule_NumericLiteral)
         (.br 276
          (.leaf 275 rule_BooleanLiteral)
          (.leaf 276 rule_ArgList))))
       (.br 279
        (.br 278
         (.leaf 277 rule_ExpressionList)
         (.leaf 278 rule_ConstructTriples))
        (.br 280
         (.leaf 279 rule_VarOrTerm)
         (.br 281
          (.leaf 280 rule_ReifiedTriple)
          (.leaf 281 rule_ReifiedTripleSubject))))))
     (.br 292
      (.br 287
       (.br 284
        (.br 283
         (.leaf 282 rule_ReifiedTripleObject)
         (.leaf 283 rule_TripleTerm))
        (.br 285
         (.leaf 284 rule_TripleTermSubject)
         (.br 286
          (.leaf 285 rule_TripleTermObject)
          (.leaf 286 rule_TripleTermData))))
       (.br 289
        (.br 288
         (.leaf 287 rule_TripleTermDataSubject)
         (.leaf 288 rule_TripleTermDataObject))
        (.br 290
         (.leaf 289 rule_PropertyListNotEmpty)
         (.br 291
          (.leaf 290 rule_TriplesNode)
          (.leaf 291 rule_PropertyList)))))
      (.br 297
       (.br 294
        (.br 293
         (.leaf 292 rule_Verb)
         (.leaf 293 rule_ObjectList))
        (.br 295
         (.leaf 294 rule_Object)
         (.br 296
          (.leaf 295 rule_GraphNode)
          (.leaf 296 rule_PropertyListPathNotEmpty))))
       (.br 299
        (.br 298
         (.leaf 297 rule_TriplesNodePath)
         (.leaf 298 rule_PropertyListPath))
        (.br 300
         (.leaf 299 rule_VerbPath)
         (.br 301
          (.leaf 300 rule_VerbSimple)
          (.leaf 301 rule_ObjectListPath)))))))
    (.br 324
     (.br 312
      (.br 307
       (.br 304
        (.br 303
         (.leaf 302 rule_Path)
         (.leaf 303 rule_ObjectPath))
        (.br 305
         (.leaf 304 rule_GraphNodePath)
         (.br 306
          (.leaf 305 rule_PathAlternative)
          (.leaf 306 rule_PathSequence))))
       (.br 309
        (.br 308
         (.leaf 307 rule_PathEltOrInverse)
         (.leaf 308 rule_PathElt))
        (.br 310
         (.leaf 309 rule_PathPrimary)
         (.br 311
          (.leaf 310 rule_PathMod)
          (.leaf 311 rule_PathNegatedPropertySet)))))
      (.br 319
       (.br 315
        (.br 314
         (.leaf 312 rule_PathOneInPropertySet)
         (.leaf 314 rule_Collection))
        (.br 316
         (.leaf 315 rule_BlankNodePropertyList)
         (.br 317
          (.leaf 316 rule_CollectionPath)
          (.leaf 317 rule_BlankNodePropertyListPath))))
       (.br 321
        (.br 320
         (.leaf 319 rule_BlankNode)
         (.leaf 320 rule_ConditionalOrExpression))
        (.br 322
         (.leaf 321 rule_ConditionalAndExpression)
         (.br 323
          (.leaf 322 rule_ValueLogical)
          (.leaf 323 rule_RelationalExpression))))))
     (.br 334
      (.br 329
       (.br 326
        (.br 325
         (.leaf 324 rule_NumericExpression)
         (.leaf 325 rule_AdditiveExpression))
        (.br 327
         (.leaf 326 rule_MultiplicativeExpression)
         (.br 328
          (.leaf 327 rule_NumericLiteralPositive)
          (.leaf 328 rule_NumericLiteralNegative))))
       (.br 331
        (.br 330
         (.leaf 329 rule_UnaryExpression)
         (.leaf 330 rule_PrimaryExpression))
        (.br 332
         (.leaf 331 rule_ExprTripleTerm)
         (.br 333
          (.leaf 332 rule_ExprTripleTermSubject)
          (.leaf 333 rule_ExprTripleTermObject)))))
      (.br 339
       (.br 336
        (.br 335
         (.leaf 334 rule_iriOrFunction)
         (.leaf 335 rule_Aggregate))
        (.br 337
         (.leaf 336 rule_SubstringExpression)
         (.br 338
          (.leaf 337 rule_StrReplaceExpression)
          (.leaf 338 rule_RegexExpression))))
       (.br 341
        (.br 340
         (.leaf 339 rule_ExistsFunc)
         (.leaf 340 rule_NotExistsFunc))
        (.br 342
         (.leaf 341 rule_String)
         (.br 343
          (.leaf 342 rule_NumericLiteralUnsigned)
          (.leaf 343 rule_PrefixedName)))))))))

/-- `Rule::from_node_kind` (crates/sparql-parser/src/rules.rs L41-1579). -/
def sparqlRules : Kind → Option Rule := sparqlRulesTree.find

end Verif.Grammar
