{
 "C01": {
  "note": "With the hypothesis that the text has no carriage return; CRLF case and two counterexamples included."
 },
 "C05": {
  "note": "Hypotheses: valid end positions, non-overlapping, distinct starts; counterexample for an invalid end included."
 },
 "C09": {
  "note": "The logos lexer is a parameter: any token list that tiles the text."
 },
 "C14": {
  "note": "Restated: no panic on valid input, panic on all inputs of the brace family."
 },
 "C29": {
  "note": "The formatter's edits are a parameter: any edits with distinct starts that do not overlap. Parsing is that of C09-C15/C47."
 },
 "C30": {
  "note": "Hypotheses: no carriage return, distinct starts (counterexample for equal starts), result below 4 GiB."
 },
 "C28": {
  "note": "The imports fold may be a single line (c28_single_line_imports)."
 },
 "C32": {
  "note": "serde_json is a parameter; batch size > 0. The guard is a hypothesis (`admits`), characterised for the server's arguments by c32_entered; c32_second_page is a defect."
 },
 "C33": {
  "note": "Nesting below 256 (u8); two limits of the reader stated as theorems (c33_meta, c33_depth)."
 },
 "C31": {
  "note": "logos semantics assumed (longest match)."
 },
 "C50": {
  "note": "Display width of a character is a parameter. The statements for `;` and `.` assume no lone carriage return; those about the new tree assume a document without lexical errors (error token lengths are a parameter)."
 },
 "C34": {
  "note": "Display width (crate unicode-width) is a parameter; indentation levels are natural numbers (u8 in the code); `contract_triples`, which runs outside core.rs, is not modelled. Comments between the parts of certain constructs are excluded (list `unspaced` in Props/Format.lean); there the formatter may panic (c35_panic)."
 },
 "C35": {
  "note": "Display width (crate unicode-width) is a parameter; indentation levels are natural numbers (u8 in the code); `contract_triples`, which runs outside core.rs, is not modelled. Comments between the parts of certain constructs are excluded (list `unspaced` in Props/Format.lean); there the formatter may panic (c35_panic)."
 },
 "C51": {
  "note": "Display width (crate unicode-width) is a parameter; indentation levels are natural numbers (u8 in the code); `contract_triples`, which runs outside core.rs, is not modelled. Comments between the parts of certain constructs are excluded (list `unspaced` in Props/Format.lean); there the formatter may panic (c35_panic). White space may vanish between tokens (c51_glued)."
 },
 "C52": {
  "note": "Valid query documents without lone carriage returns; title, kind and diagnostics of the code action are not modelled."
 },
 "C53": {
  "note": "The converter lookup (crate curies) is a parameter; the namespace must consist of IRI characters."
 },
 "C54": {
  "note": "Queries only (updates: C51). Hypotheses: Placeable (as C51), Formattable (the named exceptions; two words or numbers next to each other without white space as in `1true` are excluded too). The exceptions are real: c54_changed_tokens. Display width is a parameter; `contract_triples` is not modelled."
 },
 "C55": {
  "note": "Messages are not modelled. The missed case (VALUES behind GROUP BY in a sub-select) is part of the statement and shown by c55_cases."
 },
 "C56": {
  "note": "Only the outer select is checked by the code (select_query()). Messages are not modelled; the order of the reports inside one expression is that of the model, not part of the statement."
 },
 "C57": {
  "note": "`Shows` (Features/VisibleSpec.lean) is the independent description of the variables of a pattern. Messages are not modelled."
 },
 "C58": {
  "note": "Messages are not modelled. Validity is derivability from the grammar of rules.rs for the entry rule (query or update) the parser chose."
 },
 "C59": {
  "note": "The order of the groups is that of a hash map in the code: the statement does not mention it. Messages are not modelled."
 },
 "C60": {
  "note": "The prefix map (curies crate) is a parameter; the message text is not modelled."
 },
 "C61": {
  "note": "Document and tree are those of the state (C16). Messages are not modelled. Removals precede insertions in the edit list, also when both start at the beginning of the document, an order the LSP specification does not allow (remarked at c61_cases)."
 },
 "C62": {
  "note": "c62_offered for all documents; c62_filter and c62_lang for valid ones. The place is given by EndsAt (dot of the block or end of the triple), the outcome by Inserted (tokens in front and behind unchanged)."
 },
 "C63": {
  "note": "Findings: a star glued to WHERE (SELECT *WHERE) becomes ?xWHERE; the GROUP BY of a sub-select that also has VALUES is not seen; aggregates are offered even for grouped variables, because the name without ? is compared with texts that have it (c63_cases); for $x the aggregate contains ?count_$x, so the theorem on aggregates is for ?x."
 },
 "C64": {
  "note": "Proved for all valid documents. c64_from_breaks and c64_string_changes show defects of the program: the action makes a query with FROM invalid and changes the value of long strings."
 },
 "C65": {
  "note": "The graph search is a total function (its termination measure is part of the definition); the theorems hold for every HashOrder. Serialisation of the context to text and the location detection that picks the trigger are not part of this property."
 },
 "C66": {
  "note": "Finding proved (c66_range, c66_accept, c66_cases): with the cursor at the end of `SELECT * WHERE {} foo⏎bar` the term has two lines and `trigger_pos.character - ..` underflows (panic in a debug build). The cursor is a position of a character boundary (C01)."
 },
 "C67": {
  "note": "c67_exact also covers documents with errors behind the token, under the explicit condition Sound on the nodes around it (which c67_valid shows of every document without syntax errors). That the next token's element is offered is shown for the document at hand. Rules of n parts are nested pairs in the model."
 },
 "C68": {
  "note": "c68_front and c68_around compare any two documents; c68_typing needs that one is valid and the other's tokens are a beginning of its tokens. The server truncates the text at the cursor: the last token can then be cut, so that it is the token in front of it that C68 speaks about. Whether a beginning is taken for a query or an update is decided before parsing and is a hypothesis here."
 },
 "C69": {
  "note": "For anchors that are significant tokens. c69_cases shows where users are not served: behind a comment the triple is not found; templates, updates and the value list behind a query get nothing; directly behind a complete value the slot is one too far although that value is what gets replaced. For kinds other than predicates, subjects and objects only soundness and 'not none' are shown, not which kind is chosen."
 },
 "C70": {
  "note": "c70_suffix is about every object of a triple; c70_accepted is about the cursor, the location of C69 and the item. $0 is the place of the cursor in a snippet; other $ in an item are not treated. c70_annotation_breaks: inside of an annotation the dot is added, too, and the document is not valid any more. c70_end_of_document: at the end of the document the separator in front of the cursor counts as one behind it. Items in other fields (item_defaults, command, insert_text_format) are not modelled."
 },
 "C71": {
  "note": "For dots with a blank in front of them, only white space there, and no quotes between the dot and the variable. c71_offer is about the tree of the text in front of the cursor, c71_valid and c71_accepted are about the whole document; that the triple in front is the same in both is a hypothesis of c71_accepted. Offsets are bytes; the label, the detail and the order of the item are not modelled. Variables that are written with $ are never offered, as a question mark is put in front."
 },
 "C72": {
  "note": "The prefix map is a parameter (crate curies). What the action looks at is the node directly behind the prologue, or the whole document without a prologue; the declared namespaces are those of the prologue the document begins with. c72_other_label is a document whose namespace is declared under another label: no declaration is added, and the VALUES clause is left as it is. Whether the action is asked for at the selected element is not modelled."
 },
 "C73": {
  "note": "Which triples share a subject is C69's SubjectIn. The width of a character (crate unicode-width) is a parameter. The order of the groups is the document's (the code: that of a hash map), titles and extract_data/contract_triples_from_diagnostic are not modelled. c73_panic and c73_comment are the counterexamples."
 }
}