-- GENERATED by /verif/tools/gen_grammar.py from /repo; do not edit.
/-!
# `SyntaxKind`

Models `crates/sparql-parser/src/syntax_kind/generated.rs` (enum `SyntaxKind`, `repr(u16)`): a kind is its
discriminant. Kinds below 184 are tokens, the others tree nodes.
-/
namespace Verif.Grammar

/-- A `SyntaxKind` discriminant (crates/sparql-parser/src/syntax_kind/generated.rs). -/
abbrev Kind := Nat

namespace K
abbrev Eof : Kind := 0
abbrev Error : Kind := 1
abbrev WHITESPACE : Kind := 2
abbrev Comment : Kind := 3
abbrev BASE : Kind := 4
abbrev IRIREF : Kind := 5
abbrev PREFIX : Kind := 6
abbrev PNAME_NS : Kind := 7
abbrev SELECT : Kind := 8
abbrev DISTINCT : Kind := 9
abbrev REDUCED : Kind := 10
abbrev LParen : Kind := 11
abbrev AS : Kind := 12
abbrev RParen : Kind := 13
abbrev Star : Kind := 14
abbrev CONSTRUCT : Kind := 15
abbrev WHERE : Kind := 16
abbrev LCurly : Kind := 17
abbrev RCurly : Kind := 18
abbrev LCurlyPipe : Kind := 19
abbrev PipeRCurly : Kind := 20
abbrev DESCRIBE : Kind := 21
abbrev ASK : Kind := 22
abbrev FROM : Kind := 23
abbrev NAMED : Kind := 24
abbrev GROUP : Kind := 25
abbrev BY : Kind := 26
abbrev HAVING : Kind := 27
abbrev ORDER : Kind := 28
abbrev ASC : Kind := 29
abbrev DESC : Kind := 30
abbrev LIMIT : Kind := 31
abbrev OFFSET : Kind := 32
abbrev VALUES : Kind := 33
abbrev Semicolon : Kind := 34
abbrev LOAD : Kind := 35
abbrev SILENT : Kind := 36
abbrev INTO : Kind := 37
abbrev CLEAR : Kind := 38
abbrev DROP : Kind := 39
abbrev CREATE : Kind := 40
abbrev ADD : Kind := 41
abbrev TO : Kind := 42
abbrev MOVE : Kind := 43
abbrev COPY : Kind := 44
abbrev INSERT : Kind := 45
abbrev DATA : Kind := 46
abbrev INSERT_DATA : Kind := 47
abbrev DELETE_DATA : Kind := 48
abbrev DELETE_WHERE : Kind := 49
abbrev DELETE : Kind := 50
abbrev WITH : Kind := 51
abbrev USING : Kind := 52
abbrev DEFAULT : Kind := 53
abbrev GRAPH : Kind := 54
abbrev ALL : Kind := 55
abbrev Dot : Kind := 56
abbrev Tilde : Kind := 57
abbrev OPTIONAL : Kind := 58
abbrev SERVICE : Kind := 59
abbrev BIND : Kind := 60
abbrev NIL : Kind := 61
abbrev UNDEF : Kind := 62
abbrev MINUS : Kind := 63
abbrev UNION : Kind := 64
abbrev FILTER : Kind := 65
abbrev Comma : Kind := 66
abbrev a : Kind := 67
abbrev Pipe : Kind := 68
abbrev Slash : Kind := 69
abbrev Zirkumflex : Kind := 70
abbrev QuestionMark : Kind := 71
abbrev Plus : Kind := 72
abbrev ExclamationMark : Kind := 73
abbrev LBrack : Kind := 74
abbrev RBrack : Kind := 75
abbrev VAR1 : Kind := 76
abbrev VAR2 : Kind := 77
abbrev LANG_DIR : Kind := 78
abbrev DoublePipe : Kind := 79
abbrev DoubleAnd : Kind := 80
abbrev Equals : Kind := 81
abbrev ExclamationMarkEquals : Kind := 82
abbrev Less : Kind := 83
abbrev More : Kind := 84
abbrev LessEquals : Kind := 85
abbrev MoreEquals : Kind := 86
abbrev DoubleLess : Kind := 87
abbrev DoubleLessLParen : Kind := 88
abbrev DoubleMore : Kind := 89
abbrev RParenDoubleMore : Kind := 90
abbrev IN : Kind := 91
abbrev NOT : Kind := 92
abbrev Minus : Kind := 93
abbrev STR : Kind := 94
abbrev LANG : Kind := 95
abbrev LANGMATCHES : Kind := 96
abbrev DATATYPE : Kind := 97
abbrev BOUND : Kind := 98
abbrev IRI : Kind := 99
abbrev URI : Kind := 100
abbrev BNODE : Kind := 101
abbrev RAND : Kind := 102
abbrev ABS : Kind := 103
abbrev CEIL : Kind := 104
abbrev FLOOR : Kind := 105
abbrev ROUND : Kind := 106
abbrev CONCAT : Kind := 107
abbrev STRLEN : Kind := 108
abbrev UCASE : Kind := 109
abbrev LCASE : Kind := 110
abbrev ENCODE_FOR_URI : Kind := 111
abbrev CONTAINS : Kind := 112
abbrev STRSTARTS : Kind := 113
abbrev STRENDS : Kind := 114
abbrev STRBEFORE : Kind := 115
abbrev STRAFTER : Kind := 116
abbrev YEAR : Kind := 117
abbrev MONTH : Kind := 118
abbrev DAY : Kind := 119
abbrev HOURS : Kind := 120
abbrev MINUTES : Kind := 121
abbrev SECONDS : Kind := 122
abbrev TIMEZONE : Kind := 123
abbrev TZ : Kind := 124
abbrev NOW : Kind := 125
abbrev UUID : Kind := 126
abbrev STRUUID : Kind := 127
abbrev MD5 : Kind := 128
abbrev SHA1 : Kind := 129
abbrev SHA256 : Kind := 130
abbrev SHA384 : Kind := 131
abbrev SHA512 : Kind := 132
abbrev COALESCE : Kind := 133
abbrev IF : Kind := 134
abbrev STRLANG : Kind := 135
abbrev STRDT : Kind := 136
abbrev sameTerm : Kind := 137
abbrev isIRI : Kind := 138
abbrev isURI : Kind := 139
abbrev isBLANK : Kind := 140
abbrev isLITERAL : Kind := 141
abbrev isNUMERIC : Kind := 142
abbrev REGEX : Kind := 143
abbrev SUBSTR : Kind := 144
abbrev REPLACE : Kind := 145
abbrev EXISTS : Kind := 146
abbrev COUNT : Kind := 147
abbrev SUM : Kind := 148
abbrev MIN : Kind := 149
abbrev MAX : Kind := 150
abbrev AVG : Kind := 151
abbrev SAMPLE : Kind := 152
abbrev GROUP_CONCAT : Kind := 153
abbrev SEPARATOR : Kind := 154
abbrev VERSION : Kind := 155
abbrev STRLANGDIR : Kind := 156
abbrev hasLANG : Kind := 157
abbrev hasLANGDIR : Kind := 158
abbrev isTRIPLE : Kind := 159
abbrev TRIPLE : Kind := 160
abbrev SUBJECT : Kind := 161
abbrev PREDICATE : Kind := 162
abbrev OBJECT : Kind := 163
abbrev LANGDIR : Kind := 164
abbrev DoubleZirkumflex : Kind := 165
abbrev INTEGER : Kind := 166
abbrev DECIMAL : Kind := 167
abbrev DOUBLE : Kind := 168
abbrev INTEGER_POSITIVE : Kind := 169
abbrev DECIMAL_POSITIVE : Kind := 170
abbrev DOUBLE_POSITIVE : Kind := 171
abbrev INTEGER_NEGATIVE : Kind := 172
abbrev DECIMAL_NEGATIVE : Kind := 173
abbrev DOUBLE_NEGATIVE : Kind := 174
abbrev True : Kind := 175
abbrev False : Kind := 176
abbrev STRING_LITERAL1 : Kind := 177
abbrev STRING_LITERAL2 : Kind := 178
abbrev STRING_LITERAL_LONG1 : Kind := 179
abbrev STRING_LITERAL_LONG2 : Kind := 180
abbrev PNAME_LN : Kind := 181
abbrev BLANK_NODE_LABEL : Kind := 182
abbrev ANON : Kind := 183
abbrev QueryUnit : Kind := 184
abbrev Query : Kind := 185
abbrev Prologue : Kind := 186
abbrev SelectQuery : Kind := 187
abbrev ConstructQuery : Kind := 188
abbrev DescribeQuery : Kind := 189
abbrev AskQuery : Kind := 190
abbrev ValuesClause : Kind := 191
abbrev UpdateUnit : Kind := 192
abbrev Update : Kind := 193
abbrev BaseDecl : Kind := 194
abbrev PrefixDecl : Kind := 195
abbrev VersionDecl : Kind := 196
abbrev VersionSpecifier : Kind := 197
abbrev SelectClause : Kind := 198
abbrev DatasetClause : Kind := 199
abbrev WhereClause : Kind := 200
abbrev SolutionModifier : Kind := 201
abbrev SubSelect : Kind := 202
abbrev Var : Kind := 203
abbrev Expression : Kind := 204
abbrev ConstructTemplate : Kind := 205
abbrev TriplesTemplate : Kind := 206
abbrev VarOrIri : Kind := 207
abbrev DefaultGraphClause : Kind := 208
abbrev NamedGraphClause : Kind := 209
abbrev SourceSelector : Kind := 210
abbrev iri : Kind := 211
abbrev GroupGraphPattern : Kind := 212
abbrev GroupClause : Kind := 213
abbrev HavingClause : Kind := 214
abbrev OrderClause : Kind := 215
abbrev LimitOffsetClauses : Kind := 216
abbrev GroupCondition : Kind := 217
abbrev BuiltInCall : Kind := 218
abbrev FunctionCall : Kind := 219
abbrev HavingCondition : Kind := 220
abbrev Constraint : Kind := 221
abbrev OrderCondition : Kind := 222
abbrev BrackettedExpression : Kind := 223
abbrev LimitClause : Kind := 224
abbrev OffsetClause : Kind := 225
abbrev DataBlock : Kind := 226
abbrev UpdateOne : Kind := 227
abbrev Load : Kind := 228
abbrev Clear : Kind := 229
abbrev Drop : Kind := 230
abbrev Add : Kind := 231
abbrev Move : Kind := 232
abbrev Copy : Kind := 233
abbrev Create : Kind := 234
abbrev InsertData : Kind := 235
abbrev DeleteData : Kind := 236
abbrev DeleteWhere : Kind := 237
abbrev Modify : Kind := 238
abbrev GraphRef : Kind := 239
abbrev GraphRefAll : Kind := 240
abbrev GraphOrDefault : Kind := 241
abbrev QuadData : Kind := 242
abbrev QuadPattern : Kind := 243
abbrev DeleteClause : Kind := 244
abbrev InsertClause : Kind := 245
abbrev UsingClause : Kind := 246
abbrev Quads : Kind := 247
abbrev QuadsNotTriples : Kind := 248
abbrev TriplesSameSubject : Kind := 249
abbrev GroupGraphPatternSub : Kind := 250
abbrev TriplesBlock : Kind := 251
abbrev ReifiedTripleBlock : Kind := 252
abbrev ReifiedTripleBlockPath : Kind := 253
abbrev Reifier : Kind := 254
abbrev VarOrReifierId : Kind := 255
abbrev AnnotationPath : Kind := 256
abbrev AnnotationBlockPath : Kind := 257
abbrev Annotation : Kind := 258
abbrev AnnotationBlock : Kind := 259
abbrev GraphPatternNotTriples : Kind := 260
abbrev TriplesSameSubjectPath : Kind := 261
abbrev GroupOrUnionGraphPattern : Kind := 262
abbrev OptionalGraphPattern : Kind := 263
abbrev MinusGraphPattern : Kind := 264
abbrev GraphGraphPattern : Kind := 265
abbrev ServiceGraphPattern : Kind := 266
abbrev Filter : Kind := 267
abbrev Bind : Kind := 268
abbrev InlineData : Kind := 269
abbrev InlineDataOneVar : Kind := 270
abbrev InlineDataFull : Kind := 271
abbrev DataBlockValue : Kind := 272
abbrev RDFLiteral : Kind := 273
abbrev NumericLiteral : Kind := 274
abbrev BooleanLiteral : Kind := 275
abbrev ArgList : Kind := 276
abbrev ExpressionList : Kind := 277
abbrev ConstructTriples : Kind := 278
abbrev VarOrTerm : Kind := 279
abbrev ReifiedTriple : Kind := 280
abbrev ReifiedTripleSubject : Kind := 281
abbrev ReifiedTripleObject : Kind := 282
abbrev TripleTerm : Kind := 283
abbrev TripleTermSubject : Kind := 284
abbrev TripleTermObject : Kind := 285
abbrev TripleTermData : Kind := 286
abbrev TripleTermDataSubject : Kind := 287
abbrev TripleTermDataObject : Kind := 288
abbrev PropertyListNotEmpty : Kind := 289
abbrev TriplesNode : Kind := 290
abbrev PropertyList : Kind := 291
abbrev Verb : Kind := 292
abbrev ObjectList : Kind := 293
abbrev Object : Kind := 294
abbrev GraphNode : Kind := 295
abbrev PropertyListPathNotEmpty : Kind := 296
abbrev TriplesNodePath : Kind := 297
abbrev PropertyListPath : Kind := 298
abbrev VerbPath : Kind := 299
abbrev VerbSimple : Kind := 300
abbrev ObjectListPath : Kind := 301
abbrev Path : Kind := 302
abbrev ObjectPath : Kind := 303
abbrev GraphNodePath : Kind := 304
abbrev PathAlternative : Kind := 305
abbrev PathSequence : Kind := 306
abbrev PathEltOrInverse : Kind := 307
abbrev PathElt : Kind := 308
abbrev PathPrimary : Kind := 309
abbrev PathMod : Kind := 310
abbrev PathNegatedPropertySet : Kind := 311
abbrev PathOneInPropertySet : Kind := 312
abbrev Integer : Kind := 313
abbrev Collection : Kind := 314
abbrev BlankNodePropertyList : Kind := 315
abbrev CollectionPath : Kind := 316
abbrev BlankNodePropertyListPath : Kind := 317
abbrev GraphTerm : Kind := 318
abbrev BlankNode : Kind := 319
abbrev ConditionalOrExpression : Kind := 320
abbrev ConditionalAndExpression : Kind := 321
abbrev ValueLogical : Kind := 322
abbrev RelationalExpression : Kind := 323
abbrev NumericExpression : Kind := 324
abbrev AdditiveExpression : Kind := 325
abbrev MultiplicativeExpression : Kind := 326
abbrev NumericLiteralPositive : Kind := 327
abbrev NumericLiteralNegative : Kind := 328
abbrev UnaryExpression : Kind := 329
abbrev PrimaryExpression : Kind := 330
abbrev ExprTripleTerm : Kind := 331
abbrev ExprTripleTermSubject : Kind := 332
abbrev ExprTripleTermObject : Kind := 333
abbrev iriOrFunction : Kind := 334
abbrev Aggregate : Kind := 335
abbrev SubstringExpression : Kind := 336
abbrev StrReplaceExpression : Kind := 337
abbrev RegexExpression : Kind := 338
abbrev ExistsFunc : Kind := 339
abbrev NotExistsFunc : Kind := 340
abbrev String : Kind := 341
abbrev NumericLiteralUnsigned : Kind := 342
abbrev PrefixedName : Kind := 343
end K

/-- Search trees for tables indexed by kind (representation of Rust's `match kind`/function names). -/
inductive KTree (α : Type)
  | leaf (k : Nat) (v : α)
  | br (m : Nat) (l r : KTree α)

def KTree.find {α : Type} : KTree α → Kind → Option α
  | .leaf k v, i => if i = k then some v else none
  | .br m l r, i => if i < m then l.find i else r.find i

def KTree.toList {α : Type} : KTree α → List (Kind × α)
  | .leaf k v => [(k, v)]
  | .br _ l r => l.toList ++ r.toList

theorem KTree.find_mem {α : Type} (t : KTree α) (i : Kind) (v : α) (h : t.find i = some v) : (i, v) ∈ t.toList := by
  induction t with
  | leaf k w =>
    simp only [find] at h
    split at h
    · next hk => subst hk; simp at h; subst h; simp [toList]
    · simp at h
  | br m l r ihl ihr =>
    simp only [find] at h
    simp only [toList, List.mem_append]
    split at h
    · exact Or.inl (ihl h)
    · exact Or.inr (ihr h)

end Verif.Grammar
