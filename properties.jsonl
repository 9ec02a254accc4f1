{"id": "C01", "title": "Byte offset -> LSP position -> byte offset is the identity", "statement": "For every document text and every byte offset o on a character boundary, converting o to an LSP (line, UTF-16 column) position and converting that position back yields exactly o, as long as the text contains no carriage return. With carriage returns the claim is false: a lone CR makes the way back lose a character, and an offset between CR and LF cannot be converted back.", "quantifier": "all texts (any Unicode scalar values, any length), all byte offsets", "why_tests_cant": "Texts are unbounded and mix 1-4 byte / 1-2 code-unit characters and line breaks arbitrarily; tests sample a handful.", "anchors": ["src/server/lsp/textdocument.rs: Position::from_byte_index, Position::byte_index"]}
{"id": "C02", "title": "LSP position -> byte offset lands on the named line and column", "statement": "Whenever a position (l, c) is accepted, the byte offset returned is a character boundary that lies on line l (never beyond its line break) at the first boundary whose UTF-16 column is at least c; converting it back yields (l, c) exactly unless c points into the middle of a surrogate pair. A position past the end of its line or past the last line is rejected.", "quantifier": "all texts without carriage returns, all positions", "why_tests_cant": "Unbounded texts and positions.", "anchors": ["src/server/lsp/textdocument.rs: Position::byte_index"]}
{"id": "C03", "title": "A byte offset has a position iff it is a character boundary of the text", "statement": "Conversion of a byte offset to a position succeeds exactly for offsets that are the byte length of a prefix of whole characters, and then gives (number of LF before it, UTF-16 length of what follows the last LF).", "quantifier": "all texts, all byte offsets", "why_tests_cant": "Unbounded domain.", "anchors": ["src/server/lsp/textdocument.rs: Position::from_byte_index"]}
{"id": "C04", "title": "Position order is document order", "statement": "For two convertible byte offsets of the same text, offset order and position order agree (strictly); hence a byte range becomes an LSP range with start <= end, and two disjoint byte ranges become non-overlapping LSP ranges.", "quantifier": "all texts, all pairs of offsets", "why_tests_cant": "Relational property over unbounded domain.", "anchors": ["src/server/lsp/textdocument.rs: impl Ord for Position, Range::from_byte_offset_range, Range::overlaps"]}
{"id": "C05", "title": "Applying text edits equals simultaneous substitution", "statement": "For every document and every set of pairwise non-overlapping text edits with distinct start positions whose ends are positions of the document, applying them (in whatever array order they are given) yields the original text with every edited range simultaneously replaced, all unedited text kept byte for byte, and a line feed appended if the result does not end in one; no edit triggers the internal panic.", "quantifier": "all texts, all finite sets of valid non-overlapping edits, all orderings", "why_tests_cant": "Number, order and placement of edits is unbounded.", "anchors": ["src/server/lsp/textdocument.rs: TextDocumentItem::apply_text_edits"]}
{"id": "C06", "title": "Edit application does not depend on the array order", "statement": "Permuting the array of text edits does not change the resulting document, provided no two edits share both start and end; when two insertions share a position the later array element lands in front, contrary to LSP (negative result).", "quantifier": "all texts, all edit lists, all permutations", "why_tests_cant": "Factorially many orders.", "anchors": ["src/server/lsp/textdocument.rs: TextDocumentItem::apply_text_edits"]}
{"id": "C07", "title": "Incremental document sync follows the client", "statement": "After a didChange notification with any sequence of content changes (ranged or full), the server's text equals the text obtained by replaying the changes one after the other against the successive intermediate documents, exactly as the client did, for changes whose ends are valid positions of the document they refer to.", "quantifier": "all texts, all finite change sequences (any order of positions)", "why_tests_cant": "Unbounded histories; the implementation keeps a moving cursor between changes.", "anchors": ["src/server/lsp/textdocument.rs: TextDocumentItem::apply_content_changes"]}
{"id": "C08", "title": "Range overlap test is sound, symmetric and complete", "statement": "Two ranges are reported as overlapping iff each starts before the other ends; it is symmetric; for non-empty ranges this is exactly the existence of a common position, and an insertion overlaps a range iff it is strictly inside it.", "quantifier": "all pairs of ranges", "why_tests_cant": "Infinite domain.", "anchors": ["src/server/lsp/textdocument.rs: Range::overlaps, TextEdit::overlaps"]}
{"id": "C09", "title": "Parsing is lossless", "statement": "For every input text, the concatenation of the token texts of the produced syntax tree in order is the input text: no character, comment or whitespace is dropped, duplicated or reordered, whether or not the text is syntactically valid.", "quantifier": "all token sequences / texts and all parser runs", "why_tests_cant": "All inputs incl. arbitrarily broken ones.", "anchors": ["crates/sparql-parser/src/parser/mod.rs: parse_text, build_tree, remove_empty_nodes", "crates/sparql-parser/src/parser/grammar.rs"]}
{"id": "C10", "title": "Tree construction is well formed", "statement": "The event stream of every parser run is well bracketed with one root opened first and closed last, so that building the tree never underflows, never stops early and produces one root node of the entry kind.", "quantifier": "all inputs, every entry rule", "why_tests_cant": "All inputs.", "anchors": ["crates/sparql-parser/src/parser/mod.rs: Parser::open/close, build_tree", "crates/sparql-parser/src/parser/grammar.rs"]}
{"id": "C11", "title": "The parser terminates on every input", "statement": "For every token sequence and every grammar rule the recursive-descent parser finishes; loops make progress in every iteration and no rule re-enters itself without consuming a token.", "quantifier": "all token sequences, all rules", "why_tests_cant": "Termination is not testable.", "anchors": ["crates/sparql-parser/src/parser/mod.rs", "crates/sparql-parser/src/parser/grammar.rs"]}
{"id": "C12", "title": "The whole input is consumed", "statement": "When the query or update entry rule returns, every non-trivia token of the input has been consumed into the tree (none is left over), even if the input is not SPARQL.", "quantifier": "all token sequences", "why_tests_cant": "All inputs.", "anchors": ["crates/sparql-parser/src/parser/grammar.rs: parse_QueryUnit, parse_UpdateUnit"]}
{"id": "C13", "title": "Syntax error spans lie inside the document", "statement": "Every reported syntax error carries a span within the document with start <= end, that is either exactly the span of a non-trivia token or the empty span at the end of the last such token.", "quantifier": "all inputs, all reported errors", "why_tests_cant": "All inputs.", "anchors": ["crates/sparql-parser/src/parser/mod.rs: build_tree"]}
{"id": "C14", "title": "Parser 'stuck' guard", "statement": "The look-ahead budget (1024 look-aheads without progress) never panics on a syntactically valid document, however large or deeply nested; it is the parser's only panic, and it does occur on invalid input: ASK followed by 172 or more opening braces panics (negative result).", "quantifier": "all valid documents; all numbers of braces >= 172", "why_tests_cant": "The bound depends on nesting depth, which tests do not reach.", "anchors": ["crates/sparql-parser/src/parser/mod.rs: Parser::nth, MAX_FUEL", "crates/sparql-parser/src/parser/grammar.rs"]}
{"id": "C15", "title": "No empty syntax nodes", "statement": "In the final tree every node other than the root covers at least one non-trivia token, and dropping empty nodes neither changes the token sequence nor the bracket structure.", "quantifier": "all well-bracketed event streams", "why_tests_cant": "All inputs.", "anchors": ["crates/sparql-parser/src/parser/mod.rs: remove_empty_nodes"]}
{"id": "C16", "title": "Requests see the parse tree of the current text", "statement": "After any history of didOpen/didChange notifications and requests, the syntax tree used to answer a request about a document is the tree of that document's current text. True as long as no already-open document is opened again with a version number seen in the cache; false otherwise (negative result).", "quantifier": "all histories of open/change/parse operations over all documents", "why_tests_cant": "Histories are unbounded; the cache is keyed by version number.", "anchors": ["src/server/state.rs: get_cached_parse_tree, add_document, change_document"]}
{"id": "C17", "title": "Lifecycle legality", "statement": "The server accepts initialize only before it is running, accepts shutdown only while running, answers a second shutdown with an error, and reports capabilities independent of history.", "quantifier": "all message sequences", "why_tests_cant": "Unbounded message sequences.", "anchors": ["src/server/message_handler/lifecycle.rs"]}
{"id": "C18", "title": "Exactly one response per request", "statement": "For every request message with an id and every handler outcome the server sends exactly one response and it carries this id; a failing notification produces no response.", "quantifier": "all messages, all handler outcomes", "why_tests_cant": "All messages and outcomes.", "anchors": ["src/server/mod.rs: handle_message, handle_error", "src/server/message_handler/mod.rs: dispatch"]}
{"id": "C19", "title": "Unknown methods are rejected, known ones dispatched", "statement": "A method that is not in the served list yields a MethodNotFound error response (for requests) and no state change; cancellation and trace notifications are ignored silently.", "quantifier": "all method strings", "why_tests_cant": "Infinite set of strings.", "anchors": ["src/server/message_handler/mod.rs: dispatch"]}
{"id": "C20", "title": "Message framing round-trip", "statement": "Any sequence of UTF-8 messages written with the server's own framing is read back as exactly this sequence, independent of content (including bodies that contain header-like text or multi-byte characters).", "quantifier": "all finite sequences of messages of length < 2^32 bytes", "why_tests_cant": "Unbounded.", "anchors": ["src/stdio_reader.rs", "src/main.rs: send_message"]}
{"id": "C21", "title": "The default backend is always a registered backend", "statement": "After any history of add-backend and update-default-backend operations, if there is a default backend it is a registered service; naming an unknown backend is an error and changes nothing.", "quantifier": "all histories", "why_tests_cant": "Unbounded histories.", "anchors": ["src/server/state.rs: set_default_backend, add_backend", "src/server/message_handler/backend/mod.rs"]}
{"id": "C22", "title": "Server-initiated request ids are unique", "statement": "Ids of requests the server sends to the client are pairwise distinct and increasing over any history.", "quantifier": "all histories (until 2^32 requests)", "why_tests_cant": "Unbounded histories.", "anchors": ["src/server/state.rs: bump_request_id"]}
{"id": "C23", "title": "Semantic token delta encoding is faithful", "statement": "Decoding the relative five-tuples the way an LSP client does yields exactly the absolute tokens (line, start, length, type), for every sequence of tokens in document order.", "quantifier": "all ordered token sequences", "why_tests_cant": "Unbounded.", "anchors": ["src/server/message_handler/semantic_tokens"]}
{"id": "C24", "title": "Semantic tokens are where the text is", "statement": "Every highlighted token's (line, start, length) is the LSP range of its text for documents whose tokens are ASCII and single-line; false for others (negative result).", "quantifier": "all documents", "why_tests_cant": "Unbounded.", "anchors": ["src/server/message_handler/semantic_tokens"]}
{"id": "C25", "title": "Variable occurrence is an equivalence", "statement": "References, highlights and rename work on the same set: occurrence sets are closed (asking at any reported occurrence reports the same set), contain the asked occurrence, contain only occurrences of the same name, and equal the connected component of scopes linked through sub-select projections.", "quantifier": "all documents, all cursor positions", "why_tests_cant": "All nestings of sub-selects.", "anchors": ["src/server/message_handler/common/mod.rs: find_variable_occurrences", "src/server/message_handler/references", "src/server/message_handler/document_highlight", "src/server/message_handler/rename"]}
{"id": "C26", "title": "Rename edits are valid", "statement": "Rename produces pairwise non-overlapping edits, one per occurrence, each replacing exactly an occurrence; it never panics; applying them changes only these pieces. In a document without error tokens and error nodes the new document has the same tokens except for the renamed ones, hence the same syntax tree and no new syntax error. Rename fails iff there is no variable token left of the cursor or the name is no variable name; it does not check for capture (negative result).", "quantifier": "all documents, positions and new names", "why_tests_cant": "All documents.", "anchors": ["src/server/message_handler/rename"]}
{"id": "C27", "title": "Rename accepts exactly SPARQL variable names", "statement": "A new name (with an optional leading ? or $) is accepted iff it is a VARNAME of the SPARQL grammar, and the inserted text lexes as one variable token.", "quantifier": "all strings", "why_tests_cant": "Infinite domain.", "anchors": ["src/server/message_handler/common/mod.rs: is_valid_variable_name", "src/server/message_handler/rename"]}
{"id": "C28", "title": "Folding ranges are sane", "statement": "The folding ranges of groups are exactly those of the groups whose closing brace is at least two lines below the opening one, from the line of the opening brace to the line before the closing one; any two are nested or have no line in common; the prologue gives one imports range; the handler never panics.", "quantifier": "all documents", "why_tests_cant": "All nestings.", "anchors": ["src/server/message_handler/folding_range"]}
{"id": "C29", "title": "Jump visits the next position cyclically", "statement": "Jumping forward goes to the nearest relevant position strictly after the cursor, wrapping to the first; jumping backward mirrors it. The new document is the formatted one with blanks inserted at the target and the cursor is placed at the target; the request never panics. Updates have no target.", "quantifier": "all position sets and cursors", "why_tests_cant": "Unbounded.", "anchors": ["src/server/message_handler/jump/mod.rs"]}
{"id": "C30", "title": "Jump target survives formatting", "statement": "Mapping an offset through a list of edits gives the offset at which the same character is found in the edited text for every offset outside the edited ranges.", "quantifier": "all texts, sorted non-overlapping edits, offsets", "why_tests_cant": "Unbounded.", "anchors": ["src/server/message_handler/jump/mod.rs: map_offset_through_edits"]}
{"id": "C31", "title": "N-Triples parsing", "statement": "A token stream is accepted iff (comments removed) it is a sequence of subject predicate object '.' groups with admissible token kinds; the triples returned are exactly these groups in order and the complaints exactly those about literal subjects and non-IRI predicates. Any list of RDF triples, written down in any layout (white space, comments, optional gap before the dot), is read back as that list without complaints. Documents with Windows line ends are rejected as a whole (carriage return is no white space).", "quantifier": "all token streams; all lists of triples and all layouts", "why_tests_cant": "Unbounded.", "anchors": ["crates/ntriples-parser/src/lib.rs", "crates/ntriples-parser/src/lexer.rs"]}
{"id": "C32", "title": "Lazy result reader window", "statement": "For every result document and every chunking of its bytes the callback gets the header, exactly the rows with index in [offset, offset+limit) in order and in batches of the requested size, the meta data, and the rows not filling a batch; the result is the number of rows. If the stream ends or fails within the rows, the rows complete so far are delivered (on failure only full batches). Malformed rows matter only inside the window. The server's call panics for pages that are not the first one (offset up to the page size, page size up to 1000); the JavaScript variant delivers the last rows as a bare list.", "quantifier": "all documents, chunkings, cut points, offset/limit/batch sizes, JSON parsers", "why_tests_cant": "Unbounded.", "anchors": ["crates/lazy-sparql-result-reader/src/parser.rs", "crates/lazy-sparql-result-reader/src/lib.rs", "src/server/sparql_operations/wasm.rs stream_lazy_query_results"]}
{"id": "C33", "title": "Lazy result reader is insensitive to braces in strings", "statement": "Braces, quotes and escapes inside JSON strings of the header or of a binding never end or start a binding; every JSON object nested less than 256 deep is read as one row. In the meta data strings are not recognised: its text is cut at the first closing brace. 256 nested objects overflow the depth counter.", "quantifier": "all strings, all JSON objects", "why_tests_cant": "Unbounded.", "anchors": ["crates/lazy-sparql-result-reader/src/parser.rs"]}
{"id": "C34", "title": "Formatter edits fit the document and do not overlap", "statement": "If formatting succeeds, every returned edit replaces a piece of the document (both ends are positions of it, in order) and no two edits overlap. It succeeds, and its edits can be applied, for every document, also a broken one, in which no comment stands between the parts of a construct the formatter leaves alone (a comment at the very beginning or end is fine); there, a comment may make it panic, e.g. `ASK {GRAPH ?g # c\\n{}}`.", "quantifier": "all documents (also broken ones), settings, options and display widths", "why_tests_cant": "Infinitely many documents and settings.", "anchors": ["src/server/message_handler/formatting/core.rs", "src/server/message_handler/formatting/utils.rs"]}
{"id": "C35", "title": "Comments survive formatting", "statement": "Formatting a document without a comment between the parts of a construct the formatter leaves alone keeps every comment, unchanged, exactly once, in order, and each runs to the end of its line, so that it swallows no token.", "quantifier": "all documents (also broken ones), settings, options and display widths", "why_tests_cant": "Comments can stand between any two tokens; each of the layout rules must cooperate with them.", "anchors": ["src/server/message_handler/formatting/core.rs"]}
{"id": "C36", "title": "Undeclared prefix diagnostics are exact", "statement": "In a query document a prefixed name of the SELECT query (subqueries included) is reported as undeclared, with its exact range and prefix, iff no prefix declaration of the document introduces its prefix; the reports come in document order, each name once, and never panic, also for broken documents. Negative result: in ASK, CONSTRUCT and DESCRIBE queries and in a trailing VALUES block undeclared prefixes are never reported.", "quantifier": "all documents", "why_tests_cant": "All inputs.", "anchors": ["src/server/message_handler/diagnostic/undeclared_prefix.rs"]}
{"id": "C37", "title": "Unused prefix diagnostics are exact", "statement": "In a query document a prefix declaration is reported as unused, with its exact range and prefix, iff no prefixed name anywhere in the document uses its prefix (a declaration without label counts as declaring the empty prefix); in document order, each once, never a panic.", "quantifier": "all documents", "why_tests_cant": "All inputs.", "anchors": ["src/server/message_handler/diagnostic/unused_prefix_declaration.rs"]}
{"id": "C38", "title": "Duplicate prefix diagnostics are exact", "statement": "In a prologue whose declarations all carry a label, a declaration is reported as duplicate iff an earlier declaration has the same label; removing the reported ones leaves each label exactly once. One declaration without a label suppresses all reports (negative result).", "quantifier": "all documents", "why_tests_cant": "All inputs.", "anchors": ["src/server/message_handler/diagnostic/duplicate_prefix_declaration.rs"]}
{"id": "C39", "title": "Parse tree request positions are exact", "statement": "The positions attached to the nodes of the parse-tree response equal the conversion of their byte offsets.", "quantifier": "all documents", "why_tests_cant": "All inputs.", "anchors": ["src/server/message_handler/parse_tree.rs"]}
{"id": "C40", "title": "Indentation depth", "statement": "In a valid document the nesting depth used to indent at a token is the number of blocks open there (`{` up to and including the token minus `}` in front of it), with two exceptions: in the head of a GRAPH block of quads or a VALUES block (in front of its `{`) it is one more, and between the braces of CONSTRUCT WHERE { } but outside the triples it is one less (negative results).", "quantifier": "all valid documents, all tokens", "why_tests_cant": "All inputs.", "anchors": ["src/server/message_handler/indent.rs"]}
{"id": "C41", "title": "Every valid document is accepted with its derivation tree", "statement": "Every document whose tokens form a sentence of the SPARQL 1.2 grammar (rules.rs) is parsed without panic and without any reported error, and the syntax tree, whitespace and comments aside, is the derivation tree of the sentence.", "quantifier": "all sentences of the grammar, any size and nesting, any whitespace and comments", "why_tests_cant": "Infinitely many sentences; a hand-edited parse function could reject some.", "anchors": ["crates/sparql-parser/src/parser/grammar.rs", "crates/sparql-parser/src/rules.rs"]}
{"id": "C42", "title": "What the parser accepts is SPARQL", "statement": "A run that neither reports an error nor opens an error node happens iff the tokens are a sentence of the grammar. If the final tree has no error node and no error is reported, the document is a prefix of a sentence. The error list alone is not enough: unfinished documents and trailing garbage are accepted silently (negative result).", "quantifier": "all token sequences", "why_tests_cant": "Infinite domain.", "anchors": ["crates/sparql-parser/src/parser/grammar.rs", "crates/sparql-parser/src/parser/mod.rs"]}
{"id": "C43", "title": "The grammar is unambiguous", "statement": "Every sentence of the query and update grammars has exactly one derivation tree.", "quantifier": "all sentences", "why_tests_cant": "Ambiguity of a grammar cannot be tested.", "anchors": ["crates/sparql-parser/src/rules.rs"]}
{"id": "C44", "title": "The operation type is guessed right", "statement": "A valid query is parsed as a query and a valid update with at least one operation keyword as an update, without errors; no document is both. (A prologue without operation is parsed as a query.)", "quantifier": "all valid documents", "why_tests_cant": "Infinite domain.", "anchors": ["crates/sparql-parser/src/parser/mod.rs: guess_operation_type", "crates/sparql-parser/src/lib.rs: parse"]}
{"id": "C45", "title": "Changing settings overwrites exactly what was sent", "statement": "After qlueLs/changeSettings with any JSON value that decodes, every leaf sent has the value sent and every setting not mentioned keeps its value; an empty object changes nothing; a value that does not decode changes nothing.", "quantifier": "all settings values, all JSON trees", "why_tests_cant": "Unbounded JSON trees.", "anchors": ["src/server/message_handler/settings.rs", "src/server/configuration.rs"]}
{"id": "C46", "title": "Trees of broken text still follow the grammar", "statement": "In the syntax tree of any document, also of one with syntax errors, the children of every node are, whitespace, comments and error nodes aside, a subsequence of a word of the grammar rule of that node: no foreign child, no child out of order or repeated beyond the rule. Error nodes contain only tokens.", "quantifier": "all documents, every node", "why_tests_cant": "Infinitely many broken documents.", "anchors": ["crates/sparql-parser/src/parser/grammar.rs", "crates/sparql-parser/src/parser/mod.rs", "crates/sparql-parser/src/rules.rs"]}
{"id": "C47", "title": "Lexing is total, lossless and unambiguous", "statement": "For every text, the tokens are nonempty and tile the text; each is the longest match of a token rule, or an error token where no rule matches; no text matches two rules, so readings without error tokens are unique. The parse tree of any text has exactly that text. Negative result: INSERT DATA with two blanks is rejected.", "quantifier": "all texts", "why_tests_cant": "Infinitely many texts, about 180 token rules and their overlaps.", "anchors": ["crates/sparql-parser/src/syntax_kind/generated.rs", "crates/sparql-parser/src/parser/mod.rs: lex"]}
{"id": "C48", "title": "Nodes open only at their first tokens", "statement": "In the syntax tree of any document, also of one with syntax errors, a node of a kind with a table entry (queries, clauses, declarations, patterns, names, ...) starts with one of the tokens of its entry, and right below the root there are at most the query (update) node and, behind it, one error node. The nodes of variables, IRIs and prefixed names hold exactly one token, in any document.", "quantifier": "all documents, every node", "why_tests_cant": "Infinitely many broken documents: error recovery must never open a node elsewhere.", "anchors": ["crates/sparql-parser/src/parser/grammar.rs", "crates/sparql-parser/src/parser/mod.rs"]}
{"id": "C49", "title": "Trees of valid documents are complete", "statement": "In the syntax tree of a document whose tokens are a sentence of the grammar there is no error node, and the children of every node are, whitespace and comments aside, a full right-hand side of the grammar rule of that node: nothing but nodes that can be empty is missing.", "quantifier": "all valid documents, every node", "why_tests_cant": "Infinitely many documents.", "anchors": ["crates/sparql-parser/src/parser/grammar.rs", "crates/sparql-parser/src/parser/mod.rs", "crates/sparql-parser/src/rules.rs"]}
{"id": "C50", "title": "Formatting while typing changes blanks only", "statement": "On-type formatting never panics. What it returns is at most one edit. After a line feed it replaces exactly the blanks behind the line feed in front of the cursor by other blanks, and only inside a white-space token (or the white space of `[ ]`, `( )`): never in a string, IRI or comment; after `;` and `.` it replaces the blanks behind by a line feed and blanks, only if the character is a token of its own. The edited document has the same tokens up to that one white-space token and the same syntax tree. The indentation is one unit per open block, and behind `;` one more or, with alignment on, the display column of the predicate list of the same triple.", "quantifier": "all documents (also broken ones), cursors, typed characters, settings and options", "why_tests_cant": "A cursor may be in any token of any document.", "anchors": ["src/server/message_handler/on_type_formatting/mod.rs", "src/server/message_handler/indent.rs"]}
{"id": "C51", "title": "Formatting changes only white space and letter case", "statement": "The formatted document consists of the tokens of the original one in the same order, with white space in front of, between and behind them. No token is lost, duplicated or moved, and none is changed except that keywords may get another letter case, the white space inside `[ ]` and between the words of `DELETE WHERE`, `DELETE DATA`, `INSERT DATA` may change, and the sign of a number may be separated from its digits. White space between two tokens may vanish altogether: `CONSTRUCT FROM p:g WHERE {}` becomes `... p:gWHERE {...`.", "quantifier": "all documents (also broken ones) without a comment in a construct the formatter leaves alone, all settings, options and display widths", "why_tests_cant": "About a hundred layout rules interact on infinitely many trees.", "anchors": ["src/server/message_handler/formatting/core.rs", "src/server/message_handler/formatting/utils.rs"]}
{"id": "C52", "title": "Removing a prefix declaration is safe", "statement": "In a valid query the quick fix 'Remove prefix declaration' of a reported declaration never panics and deletes exactly the declaration and the white space and comments up to the next token. All other tokens stay as they are, the result is a valid query and parses without errors, the same prefixes are used, and the other declarations remain. So the fix of an unused declaration leaves no name undeclared, and that of a duplicate leaves the set of declared prefixes unchanged. (Comments behind the declaration are lost, and removing the later of two declarations changes what the prefix means. A request whose range ends before it starts panics.)", "quantifier": "all valid queries without lone carriage returns, all declarations", "why_tests_cant": "The edit is computed from a range in any document, and the tokens around the gap meet in arbitrary combinations.", "anchors": ["src/server/message_handler/code_action/quickfix.rs: remove_prefix_declaration"]}
{"id": "C53", "title": "Declaring a prefix is safe", "statement": "In a valid query the quick fix 'Declare prefix' for a used prefix, with a namespace made of IRI characters, adds one line at the top. The result is a valid query, parses without errors, has the old tokens behind the declaration, uses the same prefixes and declares the new prefix besides the old ones: the prefix is not reported as undeclared any more and no prefix becomes undeclared. An unknown prefix gives no action, a diagnostic without prefix an error.", "quantifier": "all valid queries, all used prefixes, all namespaces", "why_tests_cant": "The prefix is any Unicode name and the document any query.", "anchors": ["src/server/message_handler/code_action/quickfix.rs: declare_prefix"]}
{"id": "C54", "title": "Formatting a query does not change its meaning", "statement": "The formatted version of a valid query is a valid query with the same syntax tree: reading it gives the same tokens in the same order, apart from white space, the letter case of keywords and the white space inside `[ ]`; comments stay where they were between the tokens, with the same text. Exceptions (the formatter does change the tokens there): `1 -5` becomes `1 - 5`, and needed white space is removed in `f(DISTINCT a:b)`, `CONSTRUCT FROM p:g WHERE {}` and in a sub-select with VALUES behind its modifiers.", "quantifier": "all valid queries outside the named exceptions and without a comment in a construct the formatter leaves alone, all settings, options and display widths", "why_tests_cant": "Whether two tokens can be written next to each other depends on about 180 token rules, on all pairs of tokens that can meet in a query, and on the layout rules.", "anchors": ["src/server/message_handler/formatting/core.rs", "src/server/message_handler/formatting/utils.rs", "crates/sparql-parser/src/syntax_kind/generated.rs"]}
{"id": "C55", "title": "Star selections with GROUP BY are found exactly", "statement": "For a valid document the groupby-star-selection diagnostics never panic and report, as errors, exactly the `*` tokens of those selects and sub-selects that have a GROUP BY clause, each once and with the range of the `*`; a sub-select with a VALUES block behind its GROUP BY is missed.", "quantifier": "all valid documents", "why_tests_cant": "Selects nest without bound and the clauses before and behind may be any combination.", "anchors": ["src/server/message_handler/diagnostic/groupby_star_selection.rs", "crates/sparql-parser/src/ast/mod.rs: soulution_modifier, group_clause, is_star_selection"]}
{"id": "C56", "title": "Ungrouped select variables are found exactly", "statement": "For a valid query the ungrouped-select-var diagnostics never panic. If the outer query has a GROUP BY they report, as errors and each occurrence once, exactly the variables of its select clause that are not grouped by (`?x`, `(.. AS ?x)` or `(?x)`) and are either selected as they are or used in an expression outside of all aggregates, unless the same or an earlier assignment of the clause (and no later one) defines the variable.", "quantifier": "all valid queries", "why_tests_cant": "Expressions nest without bound and the select clause has any number of items.", "anchors": ["src/server/message_handler/diagnostic/ungrouped_select_variable.rs", "crates/sparql-parser/src/ast/mod.rs: assignments, variables, unaggregated_variables, as_var, GroupClause::visible_variables"]}
{"id": "C57", "title": "Rebound projection variables are found exactly", "statement": "For a valid query the invalid-projection-var diagnostics never panic and report, as errors and in document order, exactly the targets `?x` of the assignments `(.. AS ?x)` in the select clause of the outer query whose text the query body shows (in a triple, bind, values, sub-select, ... as defined for C25). Variables are compared by text: `$x` in the body does not count as `?x`.", "quantifier": "all valid queries", "why_tests_cant": "The body is any tree of graph patterns.", "anchors": ["src/server/message_handler/diagnostic/invalid_projection_variable.rs", "crates/sparql-parser/src/ast/mod.rs: visible_variables"]}
{"id": "C58", "title": "A reported syntax error is genuine", "statement": "The syntax-error diagnostics never panic on a document that was parsed, and report at most one error. A valid document has none. If one is reported at a token, then no valid document begins with the tokens up to and including this one, whatever follows; if it is reported behind the last token, the document is not valid. (The converse fails: `ASK {} ASK {}` has no diagnostic.)", "quantifier": "all documents, all continuations", "why_tests_cant": "Infinitely many documents and continuations; error recovery runs through about 170 mutually recursive functions.", "anchors": ["src/server/message_handler/diagnostic/syntax_error.rs", "crates/sparql-parser/src/parser/mod.rs", "crates/sparql-parser/src/parser/grammar.rs"]}
{"id": "C59", "title": "Triples with a common subject are found exactly", "statement": "For every document, also a broken one, the same-subject diagnostics never panic and report, as information and each once, exactly those triples that contain no error node and share the text of their subject (a variable or term, or a blank node property list or collection) with another such triple written directly in the same `{ .. }`, whether or not other patterns stand between them; triples of nested patterns are not compared. The data of a report are the byte ranges of all triples of the group in document order.", "quantifier": "all documents", "why_tests_cant": "Patterns nest without bound, and groups are collected over any number of blocks.", "anchors": ["src/server/message_handler/diagnostic/same_subject.rs", "crates/sparql-parser/src/ast/mod.rs: triple_blocks, triples, subject, has_error"]}
{"id": "C60", "title": "IRIs that could be shortened are found exactly", "statement": "For every document that is a query, also a broken one, the uncompacted-uri diagnostics never panic (the byte slice that strips the angle brackets is always in range and on character boundaries) and report, as information, in document order and each once, exactly the full IRIs `<..>` of the outer select query (the other query forms and the prologue are not searched) that the prefix map can shorten. The range of a report is the text of the IRI with its brackets, and its data are the prefix, namespace and shortened form which the prefix map returns for the text between the brackets.", "quantifier": "all documents, all prefix maps", "why_tests_cant": "Infinitely many documents, including broken ones; the slice panics on any node that is not bracketed by one-byte characters.", "anchors": ["src/server/message_handler/diagnostic/uncompacted_uri.rs", "crates/sparql-parser/src/ast/mod.rs: Iri::raw_iri"]}
{"id": "C61", "title": "A diagnostics request is answered completely and its automatic fixes are exact", "statement": "On every document, also a broken one, with all settings and prefix maps, a diagnostics request does not panic; it is refused with an error exactly if the document is not a query; every diagnostic and every edit it sends marks a piece of the document. The reply holds the reports of the nine checks (C36-C38, C55-C60) and no other. If the client supports workspace edits, the edits sent along are exactly: the removal of the first declaration of every unused prefix (if enabled), in document order, then for every prefix that the select query uses, that is not declared and that the prefix map knows, one insertion of its declaration at the beginning of the document (if enabled).", "quantifier": "all documents, all settings, all prefix maps, all client capabilities", "why_tests_cant": "Nine checks and the edits of the fixes over infinitely many documents, including broken ones, where positions are converted to byte offsets and back.", "anchors": ["src/server/message_handler/diagnostic/mod.rs", "src/server/message_handler/diagnostic/auto_fix_prefixes.rs", "src/server/message_handler/code_action/quickfix.rs", "src/server/lsp/textdocument.rs: Position::byte_index"]}
{"id": "C62", "title": "Adding a filter for a variable", "statement": "The code actions \"Add Filter\" and \"Add Lang-Filter\" are offered for a variable exactly if it occurs in a triple of a group graph pattern. Accepting one in a valid document inserts ` FILTER (?x)` (or ` FILTER (LANG(?x) = \"en\")`) directly behind the triple, behind its dot if it has one; every other token stays what it is, the inserted text is read as the intended tokens, and the new document is a valid document of the same type.", "quantifier": "all documents, all variables of the document; for the result all documents without syntax errors (queries and updates)", "why_tests_cant": "It depends on the interplay of the lexer (the inserted text could merge with its neighbours), the grammar (is there room for a filter behind every triple, in every nesting) and the positions; tests cover a handful of documents.", "anchors": ["src/server/message_handler/code_action/variable/filter_var.rs: code_action", "src/server/message_handler/code_action/variable/filter_var_lang.rs: code_action", "crates/sparql-parser/src/ast/mod.rs: Var::triple"]}
{"id": "C63", "title": "Adding a variable or an aggregate to the result keeps the query valid", "statement": "\"Add to result\" is offered for a variable exactly if the innermost query around it (for a variable in the head of a sub-select, the query around that) does not select it and is not grouped or grouped by it. Accepting it in a valid document replaces the star, or puts the variable in front of the first parenthesised expression, or at the end of the select clause; all other tokens stay and the document is valid (a star glued to WHERE or FROM excepted). The aggregate actions for ?x put each of seven expressions such as (COUNT(?x) AS ?count_x) in place of the star or at the end of the select clause, with the same guarantee.", "quantifier": "all valid documents, all variables in them, all shapes of the select clause", "why_tests_cant": "the edit meets arbitrary neighbouring text: comments, glued tokens, IRIs and strings further left that could swallow it; a test looks at a few queries", "anchors": ["src/server/message_handler/code_action/variable/add_to_result.rs code_action", "src/server/message_handler/code_action/variable/add_aggregate_to_result.rs code_actions", "crates/sparql-parser/src/ast/mod.rs SelectClause::variables, GroupClause::visible_variables"]}
{"id": "C64", "title": "Transform into Sub-Select", "statement": "In a valid document the code action \"Transform into Sub-Select\" is offered exactly if the selected element is a select query or sub-select, or the keyword SELECT of one. Accepting it for a query without FROM puts this query, as it is, inside two pairs of braces behind a new head with the same columns (the star, or its variables in their order, those behind AS included). All tokens keep their kinds, those without a line break their text; the lines of the query are indented; everything around is as before; the new document is valid and of the same type. (With FROM the new document is not valid, and the lines of a long string are indented, too: both are proved as counterexamples.)", "quantifier": "all documents without syntax error, all ranges, all select queries and sub-selects in them, all tab sizes", "why_tests_cant": "the action writes text in front of, behind and into the lines of arbitrary queries at arbitrary places in the document; tests show three queries at the start of a document, none with a prologue, a sub-select or a comment around", "anchors": ["src/server/message_handler/code_action/select.rs: code_actions", "src/server/message_handler/code_action/mod.rs: generate_code_actions", "crates/sparql-parser/src/ast/mod.rs: SelectClause"]}
{"id": "C65", "title": "The context of a completion is what hangs together with the trigger", "statement": "When a completion is asked inside a triple or a VALUES block, the query parts sent along as context are exactly those parts of the enclosing group (its triples and patterns, those of groups in it that are not part of a UNION, and sub-selects as a whole) that start before the trigger, have no syntax error inside and are connected with the trigger through a chain of shared visible variables; for VALUES the chain starts at the variable of the slot. They come in the order of the document, each once, together with exactly the prefixes they use; the computation always ends without a panic and does not depend on the iteration order of hash sets.", "quantifier": "every document, correct or not, every triple and VALUES block in it, every slot, every iteration order of the hash sets", "why_tests_cant": "Connectedness is a closure over arbitrarily many pieces and the traversal revisits nodes; tests see one hash order and a few shapes.", "anchors": ["src/server/message_handler/completion/environment/query_graph.rs: QueryGraph", "src/server/message_handler/completion/environment/context.rs: context, compute_context, collect_nodes", "crates/sparql-parser/src/ast/mod.rs: visible_variables, triple_blocks, group_pattern_not_triples, sub_select"]}
{"id": "C66", "title": "A completion replaces exactly the term being typed", "statement": "The term a completion is asked for is the text between the last finished token in front of the cursor (the last one that is neither white space nor part of a syntax error, leaving out a word that may still be typed on) and the cursor, without white space in front; finding it never panics. The range the accepted completion replaces is exactly that term, so the text before and behind is left alone, unless the term goes over a line break: then the computed column underflows. In a select binding behind a parenthesis the range starts at the parenthesis.", "quantifier": "every text in front of the cursor, correct or not, every text behind it, every completion text", "why_tests_cant": "The tokens in front of the cursor and the error nodes around them are arbitrary; the range mixes bytes, UTF-16 columns and lines.", "anchors": ["src/server/message_handler/completion/environment/mod.rs: get_trigger_token, get_anchor_token, get_search_term, get_replace_range, CompletionEnvironment::from_completion_request"]}
{"id": "C67", "title": "What a completion offers to come next can come next, and what comes next is offered", "statement": "The search for what can follow at an offset always ends with one result, in every tree and at every offset. Behind a token of a document whose nodes are as the grammar wants them up to there, it returns exactly the kinds of symbols that can be next in one of the nodes around the token after the nodes inside of it have ended. In a document without syntax errors every kind it returns can really come next: the tokens so far, followed by some tokens of that kind and some more, are a valid document; and the element the next token begins is of a returned kind.", "quantifier": "every document and offset (that it ends); every document without syntax errors and every token of it (soundness and completeness)", "why_tests_cant": "The loop walks rule and child stacks of unbounded size through a grammar of 127 recursive rules; that no kind is missing or too many depends on every rule being decidable by its first symbol.", "anchors": ["crates/sparql-parser/src/utils.rs: continuations_at", "crates/sparql-parser/src/rules.rs: Rule::first, Rule::is_nullable, Rule::from_node_kind", "src/server/message_handler/completion/environment/mod.rs: get_continuations"]}
{"id": "C68", "title": "What follows does not change the tree in front, and typing a valid document the right continuations are offered", "statement": "Parsing is incremental in effect: if two documents, with or without errors, begin with tokens of the same kinds (and are both queries or both updates), the part of the syntax tree that holds these tokens is the same, and around the last of them the same nodes are open with the same elements so far. So while a valid document is being typed, at every token the search for what can follow has the same result as in the finished document: everything that is offered can be completed to a valid document, and what comes next in the finished document is among the offers.", "quantifier": "all pairs of texts with a common sequence of first tokens, all valid documents, every beginning of their tokens and every token in it", "why_tests_cant": "The parser looks one token ahead, skips tokens to recover, and overwrites the opening event of a node when it closes it; that none of this reaches back in front of a common beginning is a statement about pairs of runs of unbounded length.", "anchors": ["crates/sparql-parser/src/parser/mod.rs: parse_text, build_tree, Parser::open, close, nth, expect, error_until", "crates/sparql-parser/src/parser/grammar.rs", "crates/sparql-parser/src/utils.rs: continuations_at", "src/server/message_handler/completion/environment/mod.rs: CompletionEnvironment::from_completion_request, get_continuations"]}
{"id": "C69", "title": "The kind of completion that is asked for fits what can come next", "statement": "While a valid document is being typed, behind any of its tokens: a completion request asks for completions of exactly one kind, or for none. What it asks for can come next and be completed to a valid document. It asks for none only if nothing can follow that there are completions for, or in the triples of a template or an update, or in the value list behind a query. If in the finished document a predicate, a subject or an object comes next, then completions for it are asked for (or for one of the former, which also can come next); for objects not in templates and updates. The triple, the bracket or the clause a request is about is the innermost one around the anchor, and the slot of a value is the number of values in front of it in the open row.", "quantifier": "all valid documents, every beginning of their tokens with any text behind, every token and offset; all trees, anchors and sets of continuations for the node and the slot", "why_tests_cant": "The choice depends on the continuations and on the nodes around the anchor; that a triple or a bracket is always there when a predicate can follow is a fact about all derivation trees of the grammar.", "anchors": ["src/server/message_handler/completion/environment/mod.rs: CompletionLocation, get_location, inline_data_variable_index, get_continuations", "crates/sparql-parser/src/ast/mod.rs: Triple::cast, BlankPropertyList::can_cast"]}
{"id": "C70", "title": "The end of a triple behind a completed object leaves the document valid", "statement": "The end of a triple is added to a completed object exactly if the next token behind the cursor that is not white space or a comment is not a dot, a semicolon or a comma. The next token is the first one that ends behind the cursor. If a document in which the object stands without it is valid, then the document with ' .', a line break and the indentation is valid, too: there is exactly one more token, the dot, directly behind the object. If a separator follows, the text of the item is the object alone, and the separator is what comes next behind it.", "quantifier": "all valid documents, objects of triples outside of brackets and annotations, items, cursors, texts behind the cursor and tab sizes", "why_tests_cant": "Whether a dot may stand behind an object depends on everything around and behind it; that it may, for every tree of the grammar, is a fact about all documents.", "anchors": ["src/server/message_handler/completion/transformer/object_suffix.rs: ObjectSuffixTransformer::try_from_env, transform", "src/server/message_handler/completion/environment/mod.rs: get_following_token, following_kind", "src/server/message_handler/indent.rs: brace_nesting_depth"]}
{"id": "C71", "title": "Continuing with the subject in front instead of a new triple leaves the document valid", "statement": "Behind a block of triples that ends with a dot, the item of a variable becomes 'continue with semicolon' exactly if its text, without white space around and with a question mark in front, is the text of the subject of the first triple of the block. The dot, the white space behind it and what is being typed are replaced by a semicolon, a line break and blanks: as many as there are bytes in front of the verb of that triple in its line. If a document in which the same variable begins the next triple is valid, then it is valid with the semicolon, too: of its significant tokens exactly the dot and the variable give way to the semicolon.", "quantifier": "all trees, anchors and items for the offer; all valid documents with two triples next to each other, a blank and any white space in front of the dot and no quotes between the dot and the variable, all indentations and all texts behind for validity", "why_tests_cant": "That predicates may go on behind a semicolon, whatever the first triple ends with and whatever follows, is a fact about all documents of the grammar.", "anchors": ["src/server/message_handler/completion/transformer/semicolon.rs: SemicolonTransformer::try_from_env, transform", "crates/sparql-parser/src/ast/mod.rs: TriplesBlock::triples, Triple::subject, Triple::properties_list_path, PropertyListPath::properties"]}
{"id": "C72", "title": "Shorten all URIs replaces exactly the IRIs that have a short form and declares each missing namespace once", "statement": "On a query document, valid or broken, the code action \"Shorten all URIs\" never panics, and it offers something exactly if an IRI is written in full. Its edits put the short form of the prefix map in place of exactly the IRIs written in full that have one, in document order and without overlap, and add declarations `PREFIX p: <ns>` in front of the document: none for a namespace that the prologue already declares, exactly one for every other namespace that a short form uses. IRIs of a VALUES clause at the end are left out if the document has a prologue. A namespace that is declared under another label counts as declared, so then the label of the short form stays undeclared (counterexample).", "quantifier": "all texts, all trees the parser gives for them with a query at the root, all prefix maps", "why_tests_cant": "Documents, prefix maps and the IRIs in a document are unbounded; the tests have one namespace and two IRIs.", "anchors": ["src/server/message_handler/code_action/iri.rs: shorten_all_uris", "src/server/analysis.rs: find_all_uncompacted_iris, find_all_prefix_declarations", "crates/sparql-parser/src/ast/mod.rs: PrefixDeclaration::raw_uri_prefix, Iri::raw_iri, Iri::is_uncompressed"]}
{"id": "C73", "title": "Contracting triples with the same subject removes each further triple and appends its predicates to the first", "statement": "For triples that share a subject, in a document without errors in them (the rest may be broken), the code action \"Contract triples with same subject\" does not panic if the first triple has predicates or align_predicates is off. It removes each further triple with its dot and white space around it, and inserts directly behind the first triple the predicates of the others, in their order, each on its own line behind a semicolon, indented to the column of the first triple's predicates (or by one level more than its subject). The action for the whole document does this for every group, keeps of edits with the same range the first, and is offered only if it has edits. On the valid document `SELECT * {[?p ?o] . [?p ?o]}` with align_predicates on (the default) the request panics, and without it the edits leave a semicolon with nothing behind it; a comment directly behind a removed triple is lost (counterexamples).", "quantifier": "all texts, all trees the parser gives for them, all lists of triples with one subject, all settings, all width functions", "why_tests_cant": "Documents, numbers of triples and settings are unbounded; the tests have one document with two triples. The panic needs a triple without predicates.", "anchors": ["src/server/message_handler/code_action/same_subject.rs: contract_triples, contract_all_triple_groups", "src/server/message_handler/indent.rs: column_at_offset, predicate_alignment_column"]}
