# Formal model of Qlue-ls in Lean 4

Layout: `/verif/lean/Verif/<Area>.lean` holds the model (definitions, each citing the file and
lines of `/repo` it models), `/verif/lean/Verif/<Area>Lemmas.lean` auxiliary lemmas and
`/verif/lean/Verif/Props/<Area>.lean` the property theorems with a non-vacuity `example` next to each.
`tools/` holds the scripts that generate tables (grammar) and `properties.jsonl`.

## Trusted base

* Lean 4.33.0's kernel, and at most the axioms `propext`, `Classical.choice`, `Quot.sound`. No own axioms.
* The faithfulness of the translation Rust -> Lean: by hand, except `Grammar/Table.lean` (`grammar.rs`),
  `Grammar/Rules.lean` (`rules.rs`), `Grammar/Kinds.lean` and `Lexer/Table.lean` (`syntax_kind/generated.rs`), which
  `tools/gen_*.py` produce mechanically from the Rust text. Generic simplifications:
  * `String`/`&str` is modelled as `List Char` (Lean `Char` = Rust `char` = Unicode scalar value); a UTF-8
    byte offset is the sum of the UTF-8 sizes of the characters before it.
  * `u32`/`usize` are `Nat` (no overflow) unless the comment says otherwise.
  * A panic (`assert!`, `unwrap`, `expect`, slicing out of bounds) is the value `none` of an `Option`.
  * `HashMap`/`HashSet` are association lists / lists used only through lookup, insert, membership.
* Certificates (`Grammar/CertData`, `LLData`, `ProdData`, `FirstKwData`) are untrusted data checked by the kernel.
* Generated example trees (`Features/Demo.lean`, `Features/Code.lean`) are only used in examples and counterexamples and
  are proved equal to the output of the modelled parser.

### Libraries

* logos 0.16: assumed to return at every position the longest match over all rules, and an error token of at least one
  character if no rule matches; the length of an error token is a parameter (`errLen`) of all theorems. `\d`, `\s` are the
  Unicode tables written out in `Lexer/Table.lean`; `ignore(case)` is ASCII case folding.
* rowan: green trees are an inductive type, cursors are zippers (`Features/Red.lean`); interning is not modelled.
* serde / serde_json: the untagged decoding of messages is modelled on a JSON value type (`Server/`); parsing JSON text is
  not modelled.
* tokio, reqwest, tera, LSP clients: not modelled. The single global server lock makes handlers atomic between awaits;
  only handlers without await in the middle are modelled as steps.

## What is modelled, and what is not

| code | model |
|------|-------|
| `src/server/lsp/textdocument.rs` | `Text`, `ApplyEdits`, `ContentChanges` (all of it except serde impls) |
| `crates/sparql-parser/src/parser/*`, `rules.rs`, `syntax_kind/*`, `lib.rs` | `Grammar/*`, `Lexer/*` (complete; the lexer generator itself is assumed) |
| `crates/sparql-parser/src/ast/*` | those accessors the modelled handlers use (`Features/Red`, `Visible`, `Diagnostics`) |
| `src/server/state.rs`, dispatch, lifecycle, backends, settings | `Server/*` |
| `stdio_reader.rs` | `Server/Framing` |
| `message_handler/{semantic_tokens,rename,references,document_highlight,folding_range,jump,parse_tree,common,diagnostic,indent,on_type_formatting}` | `Features/*` |
| `crates/ntriples-parser` | `NTriples/Model` (complete) |
| `crates/lazy-sparql-result-reader` | `LazyReader/Model` (complete; `serde_json::from_slice` is a parameter) |
| `message_handler/formatting/{core,utils}.rs` | `Format/*` (all layout rules and the edit pipeline; not `contract_triples`, which post-processes the result). `tools/format_cases.sh` runs the model on the 131 cases of the repository's own formatter tests: 122 agree, 1 differs by the display width parameter, 8 need `contract_triples` |
| `message_handler/code_action/quickfix.rs` | `Features/QuickFix` (`remove_prefix_declaration`, `declare_prefix`) |
| completion, hover, other code actions, templates, HTTP | not modelled unless a property below says so |

Handlers are modelled as functions of the text and the tree of the document; that the cached tree is the tree of the
current text is the business of C16 (with a negative result for re-opened documents).

## Per property plan

| id | what is modelled | proof |
|----|------------------|-------|
| C01-C04 | `Position::from_byte_index`, `byte_index`, `Ord`, `Range` over `List Char` | induction over the text, spec = prefix decomposition |
| C05-C06 | `apply_text_edits` loop (backward cursor walk) | invariant over the walk; spec = segment decomposition |
| C07 | `apply_content_changes` loop (forward cursor walk) | invariant; spec = sequential replacement |
| C08 | `Range::overlaps` | order reasoning |
| C09, C10, C13, C15 | parser events, `remove_empty_nodes`, `build_tree` | induction over event lists, bracket invariant |
| C11, C12, C14 | deep embedding of `grammar.rs` generated by `tools/`, interpreter with the `Parser` primitives | generic induction over the statement language + kernel-checked table facts |
| C16 | `state.rs` document map + one-entry cache | invariant over histories; refutation witness |
| C17-C19 | lifecycle handlers, dispatch, `handle_error` | invariants / case analysis |
| C20 | `stdio_reader.rs` over byte lists, `send_message` | induction on messages |
| C21-C22 | backend registry and id counter | invariant over histories |
| C23-C24 | semantic token collection and delta encoding | induction; refutation witness |
| C25-C27 | `find_variable_occurrences` union-find, rename | union-find invariant, component characterisation; regular-language argument for the lexer |
| C28 | folding ranges | tree geometry (zippers), spec by line feeds in front of an element |
| C29-C30 | jump target selection, `map_offset_through_edits`; formatter edits are a parameter | list induction; spec = segment decomposition |
| C31 | n-triples lexer and counter machine | induction on the token list; regular-language disjointness for maximal munch |
| C32-C33 | byte scanner, chunk loop, assertion; `serde_json` is a parameter | segment-wise runs, induction over a byte grammar of documents |
| C34-C35, C51 | the whole formatter: tree walk, separators, augmentation edits, comment markers, sorting, consolidation, comment merge | every edit and marker is assigned an interval of the row of token pieces (`Plan`); the plan of any parsed tree is shown to be non-overlapping and to cover all comments; the pipeline maps any plan to a layout of the tokens (`plan_result`) |
| C54 | the same, read back by the lexer and the parser | layouts carry marks where white space is certain (`Lay`, `Marks`); the pairs of symbols that can stand next to each other in a rule are enumerated and each is checked to be separated by a layout rule or harmless for the lexer (kernel-checked tables, `Format/Edge.lean`); tokens whose neighbours start with safe characters are read back (`lay_lexes`) |
| C55 | `groupby_star_selection` | the children of a select in a valid document are a word of its rule (C49); adjacency tables of the rule show that the first/last child tests of the code find the clauses (`Features/Clause.lean`) |
| C56 | `ungrouped_select_variable` | the same; assignments are characterised by `e AS v` in the children of the clause, `unaggregated` by ancestors, `as_var` by the significant tokens of the expression |
| C57 | `invalid_projection_variable` | the same, with `Shows` of C25 for the body |
| C58 | `syntax_error` on top of the parser model | the parser looks at the current token only: two runs on token lists with a common beginning emit the same reports until the beginning is consumed (`Grammar/Local.lean`, induction on runs); a valid continuation has no reports (C41) |
| C59 | `same_subject`, `triple_blocks`, `triples` | membership in `triples` by tree induction over nested blocks; invariant of the grouping loop (keys distinct, group = filter by subject) |
| C60 | `Features/UncompactedUri.lean`: `rawIri` with its byte slice (which can panic), `uriDiag`, `uncompactedUri`, over the tree of any document; the prefix map is a function parameter | `Props/UncompactedUri.lean`: every iri node of any document holds exactly one token (`Grammar/Few.lean`: an over-approximation of the number of tokens a rule may consume, by induction on the run of the parser), the lexer gives its shape `<..>`; then exactness as for C36 |
| C61 | `Features/DiagnosticHandler.lean`: the nine providers in the order of the handler, the deduplicating loop of the automatic fixes, error reply for non-queries | `Props/DiagnosticHandler.lean`: totality of every provider on all documents; byte indices are monotone in positions in every text (also with lone carriage returns), so the range of a removal is never reversed; exact list of the diagnostics that survive deduplication by induction, then C36, C37 |
| C62 | Features/CodeAction.lean: tripleOfVar, filterOffset, filterVar, filterLang | A triple block can be ended behind each of its triples and continued behind a new pattern (Features/Group.lean, words exchanged in derivations: Features/Surgery.lean); text inserted behind a token with a leading blank leaves the tokens in front alone (Lexer/Insert.lean) and is read as its tokens because of the safe successor characters (Features/Addition.lean) |
| C63 | Features/Projection.lean: query, check, place and texts | surgery on the derivation of the select clause; the lexer lemma for text that begins with ?, $ or ( (Lexer/Splice.lean); reading of the inserted tokens |
| C64 | `selectAction`, `subSelect`, `wrapEdits` (select.rs), `covering` (rowan) | the tokens of the query can be indented (`lexes_laid`: blanks behind line breaks do not matter to the lexer), the new tokens can be put around (`lexes_splice`, `lexes_insert`), the grammar derives the new query (`wrap_derives`), the edits are segments of the text (`wrap_apply`) |
| C65 | Features/QueryGraph.lean (graph, search), Features/Context.lean (collection, context) | the search visits exactly the reflexive transitive closure (invariant); the collected pieces are those of an inductive specification; starts of pieces differ |
| C66 | Features/SearchTerm.lean on the tree of the text in front of the cursor | the tokens of the tree are in a row; induction over them from the end; UTF-16 columns of C01-C04; edits of C05 |
| C67 | Features/Continuations.lean: the loop as a transition system over walk states; Grammar/Residual.lean: first, nullable, the language of a rule stack | symbol-level LL(1) of all rules by kernel evaluation, then: each round keeps the residual language; induction over children and nodes around; exchange of parts for whole documents |
| C68 | Grammar/Fork.lean, Front.lean, Trail.lean: runs on a common beginning, the part of a forest with the first tokens, the nodes around its end; Features/Prefix.lean: the specification | lock-step induction over the parser's statements: until the common tokens are eaten both runs emit the same events; then events to forests to trees to nodes around; what can follow depends on these alone (C67) |
| C69 | Features/Location.lean: get_location, get_continuations, inline_data_variable_index | case analysis of the choice; a kernel-checked closure of the grammar's parent relation, climbed along the nodes around the anchor; C67 and C68 for what can follow; induction over the row |
| C70 | Features/ObjectSuffix.lean: get_following_token, followed_by_separator, the text of the items | a kernel-checked closure of the grammar: from an object up to its triple nothing but separators follow; the dot is put into the tree (or the tree is given a block for it) with C64's exchange; C47 for the new text; C68 for the place of the object |
| C71 | Features/Semicolon.lean: try_from_env, transform | the lists of predicates of the two triples are one list with a semicolon between them, by inversion of their derivations; exchange of the block; C64's tokens in place of others for the text |
| C72 | Features/ShortenAll.lean: shorten_all_uris, find_all_uncompacted_iris, find_all_prefix_declarations | induction over the IRIs with the set of known namespaces generalised; C60's facts about iri nodes; the declarations by the grammar's uniqueness of the IRIREF |
| C73 | Features/Contract.lean: contract_triples, contract_all_triple_groups | the grammar's parts of a triple; C25's tokens and positions; induction over the removed triples; duplicates of ranges by induction over the edits |
| C36-C38 | prefix diagnostics on the syntax tree | tree geometry, first-token invariant of the parser |
| C39 | parse-tree cursor | tree induction |
| C40 | brace depth over ancestor chains | induction |
| C41-C44 | rules of `rules.rs` as a grammar, parser functions | LL(1) certificates checked by the kernel + generic soundness / completeness |
| C45 | settings merge on JSON values | induction on the value |
| C46 | forests emitted by the parser on any input | simulation of runs by rule subsequences |
| C48 | table of start tokens per node kind (spec data, Grammar/StartsData.lean) | per-parse-function check by the kernel, lifted through `exec` and the tree builder; one-token nodes: bound on consumed tokens per parse function (Grammar/Few.lean) |
| C49 | derivation trees of C41 seen one level deep (`Grammar/Whole.lean`) | induction over derivation trees |
| C50 | on-type formatting over the parsed tree; display width of a character is a parameter | refilling a white-space token leaves all other lexer decisions alone; parser depends on the non-trivia tokens only |
| C52, C53 | quick fixes `remove_prefix_declaration`, `declare_prefix` as edits of the document | the lexer reads the rest of the text as before (token gluing checked per rule by language emptiness), the grammar of the prologue is split off (`query_word`), declarations and uses are read off the significant tokens |
| C47 | lexer over regular expressions | Brzozowski derivatives; disjointness checker over character-class boundaries |
