{
 "claims": [
  {
   "property": "C01",
   "status": "proved",
   "theorems": [
    "Verif.Props.c01_boundary_roundtrip",
    "Verif.Props.c01_offset_position_offset",
    "Verif.Props.c01_crlf",
    "Verif.Props.c01_lone_cr_counterexample",
    "Verif.Props.c01_inside_crlf_counterexample"
   ],
   "note": "With the hypothesis that the text has no carriage return; CRLF case and two counterexamples included."
  },
  {
   "property": "C02",
   "status": "proved",
   "theorems": [
    "Verif.Props.c02_byte_index_iff",
    "Verif.Props.c02_position_offset_position",
    "Verif.Props.c02_exact_bmp",
    "Verif.Props.c02_reject_line",
    "Verif.Props.c02_reject_column"
   ],
   "note": ""
  },
  {
   "property": "C03",
   "status": "proved",
   "theorems": [
    "Verif.Props.c03_from_byte_index_iff",
    "Verif.Props.c03_reject"
   ],
   "note": ""
  },
  {
   "property": "C04",
   "status": "proved",
   "theorems": [
    "Verif.Props.c04_order",
    "Verif.Props.c04_range",
    "Verif.Props.c04_overlap"
   ],
   "note": ""
  },
  {
   "property": "C05",
   "status": "proved",
   "theorems": [
    "Verif.Props.c05_simultaneous",
    "Verif.Props.c05_segments",
    "Verif.Props.c05_no_edits",
    "Verif.Props.c05_ends_with_newline",
    "Verif.Props.c05_invalid_end_counterexample"
   ],
   "note": "Hypotheses: valid end positions, non-overlapping, distinct starts; counterexample for an invalid end included."
  },
  {
   "property": "C06",
   "status": "proved",
   "theorems": [
    "Verif.Props.c06_order_independent",
    "Verif.Props.c06_same_position_counterexample"
   ],
   "note": ""
  },
  {
   "property": "C07",
   "status": "proved",
   "theorems": [
    "Verif.Props.c07_sync",
    "Verif.Props.c07_session",
    "Verif.Props.c07_full_change",
    "Verif.Props.c07_spec_functional",
    "Verif.Props.c07_past_line_end_panics"
   ],
   "note": ""
  },
  {
   "property": "C08",
   "status": "proved",
   "theorems": [
    "Verif.Props.c08_symm",
    "Verif.Props.c08_common_position",
    "Verif.Props.c08_insertion",
    "Verif.Props.c08_insertions_never",
    "Verif.Props.c08_touching"
   ],
   "note": ""
  },
  {
   "property": "C09",
   "status": "proved",
   "theorems": [
    "Verif.Props.c09_leaves",
    "Verif.Props.c09_lossless",
    "Verif.Props.c09_document_lossless"
   ],
   "note": "The logos lexer is a parameter: any token list that tiles the text."
  },
  {
   "property": "C10",
   "status": "proved",
   "theorems": [
    "Verif.Props.c10_events_balanced",
    "Verif.Props.c10_tree"
   ],
   "note": ""
  },
  {
   "property": "C11",
   "status": "proved",
   "theorems": [
    "Verif.Props.c11_terminates",
    "Verif.Props.c11_linear_depth"
   ],
   "note": ""
  },
  {
   "property": "C12",
   "status": "proved",
   "theorems": [
    "Verif.Props.c12_all_consumed"
   ],
   "note": ""
  },
  {
   "property": "C13",
   "status": "proved",
   "theorems": [
    "Verif.Props.c13_error_spans"
   ],
   "note": ""
  },
  {
   "property": "C14",
   "status": "proved",
   "theorems": [
    "Verif.Props.c14_valid_not_stuck",
    "Verif.Props.c14_open_braces_panic",
    "Verif.Props.c14_threshold_sharp"
   ],
   "note": "Restated: no panic on valid input, panic on all inputs of the brace family."
  },
  {
   "property": "C15",
   "status": "proved",
   "theorems": [
    "Verif.Props.c15_tight",
    "Verif.Props.c15_remove_empty"
   ],
   "note": ""
  },
  {
   "property": "C16",
   "status": "proved",
   "theorems": [
    "Verif.Props.c16_cache_transparent",
    "Verif.Props.c16_tree_is_current",
    "Verif.Props.c16_documents",
    "Verif.Props.c16_reopen_is_stale"
   ],
   "note": ""
  },
  {
   "property": "C17",
   "status": "proved",
   "theorems": [
    "Verif.Props.c17_status",
    "Verif.Props.c17_initialize",
    "Verif.Props.c17_shutdown",
    "Verif.Props.c17_not_enforced"
   ],
   "note": ""
  },
  {
   "property": "C18",
   "status": "proved",
   "theorems": [
    "Verif.Props.c18_one_response",
    "Verif.Props.c18_at_most_one",
    "Verif.Props.c18_notifications_silent",
    "Verif.Props.c18_session",
    "Verif.Props.c18_negative_id_unanswered",
    "Verif.Props.c18_scalar_params_dropped",
    "Verif.Props.c18_malformed_async_panics",
    "Verif.Props.c18_error_response_bounced"
   ],
   "note": ""
  },
  {
   "property": "C19",
   "status": "proved",
   "theorems": [
    "Verif.Props.c19_unknown_request",
    "Verif.Props.c19_unknown_notification",
    "Verif.Props.c19_table"
   ],
   "note": ""
  },
  {
   "property": "C20",
   "status": "proved",
   "theorems": [
    "Verif.Props.c20_roundtrip",
    "Verif.Props.c20_truncated",
    "Verif.Props.c20_prompt",
    "Verif.Props.c20_content_type_panics",
    "Verif.Props.c20_header_name_ignored"
   ],
   "note": ""
  },
  {
   "property": "C21",
   "status": "proved",
   "theorems": [
    "Verif.Props.c21_default_registered",
    "Verif.Props.c21_update_default",
    "Verif.Props.c21_add_backend",
    "Verif.Props.c21_list_flag_stale",
    "Verif.Props.c21_failed_add_leaves_converter",
    "Verif.Props.c21_backends_need_progress_token"
   ],
   "note": ""
  },
  {
   "property": "C22",
   "status": "proved",
   "theorems": [
    "Verif.Props.c22_request_ids",
    "Verif.Props.c22_request_ids_unique"
   ],
   "note": ""
  },
  {
   "property": "C23",
   "status": "proved",
   "theorems": [
    "Verif.Props.c23_roundtrip",
    "Verif.Props.c23_response",
    "Verif.Props.c23_out_of_order_overflows"
   ],
   "note": ""
  },
  {
   "property": "C24",
   "status": "proved",
   "theorems": [
    "Verif.Props.c24_positions",
    "Verif.Props.c24_positions_in_range",
    "Verif.Props.c24_highlight_is_offset_position",
    "Verif.Props.c24_non_ascii_wrong",
    "Verif.Props.c24_multiline_string_wrong"
   ],
   "note": ""
  },
  {
   "property": "C25",
   "status": "proved",
   "theorems": [
    "Verif.Props.c25_exact",
    "Verif.Props.c25_self",
    "Verif.Props.c25_same_from_everywhere",
    "Verif.Props.c25_disjoint",
    "Verif.Props.c25_union_not_separated",
    "Verif.Props.c25_confined",
    "Verif.Props.c25_dollar_differs",
    "Verif.Props.c25_references"
   ],
   "note": ""
  },
  {
   "property": "C26",
   "status": "proved",
   "theorems": [
    "Verif.Props.c26_tokens",
    "Verif.Props.c26_same_tree",
    "Verif.Props.c26_capture",
    "Verif.Props.c26_cursor_before",
    "Verif.Props.c26_rename",
    "Verif.Props.c26_no_panic",
    "Verif.Props.c26_succeeds_iff"
   ],
   "note": ""
  },
  {
   "property": "C27",
   "status": "proved",
   "theorems": [
    "Verif.Props.c27_name_iff_token",
    "Verif.Props.c27_single_token"
   ],
   "note": ""
  },
  {
   "property": "C28",
   "status": "proved",
   "theorems": [
    "Verif.Props.c28_no_panic",
    "Verif.Props.c28_exact",
    "Verif.Props.c28_laminar",
    "Verif.Props.c28_imports",
    "Verif.Props.c28_single_line_imports"
   ],
   "note": "The imports fold may be a single line (c28_single_line_imports)."
  },
  {
   "property": "C29",
   "status": "proved",
   "theorems": [
    "Verif.Props.c29_target",
    "Verif.Props.c29_inserts",
    "Verif.Props.c29_somewhere",
    "Verif.Props.c29_updates",
    "Verif.Props.c29_request"
   ],
   "note": "The formatter's edits are a parameter: any edits with distinct starts that do not overlap. Parsing is that of C09-C15/C47."
  },
  {
   "property": "C30",
   "status": "proved",
   "theorems": [
    "Verif.Props.c30_kept",
    "Verif.Props.c30_replaced",
    "Verif.Props.c30_boundary",
    "Verif.Props.c30_same_start_depends_on_order"
   ],
   "note": "Hypotheses: no carriage return, distinct starts (counterexample for equal starts), result below 4 GiB."
  },
  {
   "property": "C31",
   "status": "proved",
   "theorems": [
    "Verif.Props.c31_exact",
    "Verif.Props.c31_written",
    "Verif.Props.c31_roundtrip",
    "Verif.Props.c31_crlf",
    "Verif.Props.c31_example"
   ],
   "note": "logos semantics assumed (longest match)."
  },
  {
   "property": "C32",
   "status": "proved",
   "theorems": [
    "Verif.Props.c32_chunks",
    "Verif.Props.c32_complete",
    "Verif.Props.c32_truncated",
    "Verif.Props.c32_cancelled",
    "Verif.Props.c32_malformed",
    "Verif.Props.c32_monotone",
    "Verif.Props.c32_entered",
    "Verif.Props.c32_second_page",
    "Verif.Props.c32_first_page",
    "Verif.Props.c32_javascript",
    "Verif.Props.c32_example"
   ],
   "note": "serde_json is a parameter; batch size > 0. The guard is a hypothesis (`admits`), characterised for the server's arguments by c32_entered; c32_second_page is a defect."
  },
  {
   "property": "C33",
   "status": "proved",
   "theorems": [
    "Verif.Props.c33_strings",
    "Verif.Props.c33_objects",
    "Verif.Props.c33_meta",
    "Verif.Props.c33_depth"
   ],
   "note": "Nesting below 256 (u8); two limits of the reader stated as theorems (c33_meta, c33_depth)."
  },
  {
   "property": "C34",
   "status": "proved",
   "theorems": [
    "Verif.Props.c34_ranges",
    "Verif.Props.c34_answers"
   ],
   "note": "Display width (crate unicode-width) is a parameter; indentation levels are natural numbers (u8 in the code); `contract_triples`, which runs outside core.rs, is not modelled. Comments between the parts of certain constructs are excluded (list `unspaced` in Props/Format.lean); there the formatter may panic (c35_panic)."
  },
  {
   "property": "C35",
   "status": "proved",
   "theorems": [
    "Verif.Props.c35_comments",
    "Verif.Props.c35_panic"
   ],
   "note": "Display width (crate unicode-width) is a parameter; indentation levels are natural numbers (u8 in the code); `contract_triples`, which runs outside core.rs, is not modelled. Comments between the parts of certain constructs are excluded (list `unspaced` in Props/Format.lean); there the formatter may panic (c35_panic)."
  },
  {
   "property": "C36",
   "status": "proved",
   "theorems": [
    "Verif.Props.c36_exact",
    "Verif.Props.c36_only_select",
    "Verif.Props.c36_cases"
   ],
   "note": ""
  },
  {
   "property": "C37",
   "status": "proved",
   "theorems": [
    "Verif.Props.c37_exact",
    "Verif.Props.c37_cases"
   ],
   "note": ""
  },
  {
   "property": "C38",
   "status": "proved",
   "theorems": [
    "Verif.Props.c38_exact",
    "Verif.Props.c38_unique",
    "Verif.Props.c38_unlabelled",
    "Verif.Props.c38_cases"
   ],
   "note": ""
  },
  {
   "property": "C39",
   "status": "proved",
   "theorems": [
    "Verif.Props.c39_shows"
   ],
   "note": ""
  },
  {
   "property": "C40",
   "status": "proved",
   "theorems": [
    "Verif.Props.c40_depth",
    "Verif.Props.c40_example",
    "Verif.Props.c40_short_form_example"
   ],
   "note": ""
  },
  {
   "property": "C41",
   "status": "proved",
   "theorems": [
    "Verif.Props.c41_valid_accepted"
   ],
   "note": ""
  },
  {
   "property": "C42",
   "status": "proved",
   "theorems": [
    "Verif.Props.c42_accept_iff",
    "Verif.Props.c42_clean_is_prefix",
    "Verif.Props.c42_silent_errors"
   ],
   "note": ""
  },
  {
   "property": "C43",
   "status": "proved",
   "theorems": [
    "Verif.Props.c43_unambiguous"
   ],
   "note": ""
  },
  {
   "property": "C44",
   "status": "proved",
   "theorems": [
    "Verif.Props.c44_query",
    "Verif.Props.c44_update",
    "Verif.Props.c44_disjoint"
   ],
   "note": ""
  },
  {
   "property": "C45",
   "status": "proved",
   "theorems": [
    "Verif.Props.c45_sets",
    "Verif.Props.c45_keeps",
    "Verif.Props.c45_empty",
    "Verif.Props.c45_change_settings"
   ],
   "note": ""
  },
  {
   "property": "C46",
   "status": "proved",
   "theorems": [
    "Verif.Props.c46_follows",
    "Verif.Props.c46_children"
   ],
   "note": ""
  },
  {
   "property": "C47",
   "status": "proved",
   "theorems": [
    "Verif.Props.c47_lossless",
    "Verif.Props.c47_nonempty",
    "Verif.Props.c47_longest_match",
    "Verif.Props.c47_unambiguous",
    "Verif.Props.c47_determined",
    "Verif.Props.c47_parse_lossless",
    "Verif.Props.c47_errLen_irrelevant",
    "Verif.Props.c47_insert_data_one_blank"
   ],
   "note": ""
  },
  {
   "property": "C48",
   "status": "proved",
   "theorems": [
    "Verif.Props.c48_single",
    "Verif.Props.c48_single_cases",
    "Verif.Props.c48_starts",
    "Verif.Props.c48_root"
   ],
   "note": ""
  },
  {
   "property": "C49",
   "status": "proved",
   "theorems": [
    "Verif.Props.c49_complete"
   ],
   "note": ""
  },
  {
   "property": "C50",
   "status": "proved",
   "theorems": [
    "Verif.Props.c50_newline",
    "Verif.Props.c50_newline_tree",
    "Verif.Props.c50_terminator",
    "Verif.Props.c50_terminator_tree",
    "Verif.Props.c50_no_panic",
    "Verif.Props.c50_indent",
    "Verif.Props.c50_example",
    "Verif.Props.c50_string_example"
   ],
   "note": "Display width of a character is a parameter. The statements for `;` and `.` assume no lone carriage return; those about the new tree assume a document without lexical errors (error token lengths are a parameter)."
  },
  {
   "property": "C51",
   "status": "proved",
   "theorems": [
    "Verif.Props.c51_layout",
    "Verif.Props.c51_without_comments",
    "Verif.Props.c51_example",
    "Verif.Props.c51_glued"
   ],
   "note": "Display width (crate unicode-width) is a parameter; indentation levels are natural numbers (u8 in the code); `contract_triples`, which runs outside core.rs, is not modelled. Comments between the parts of certain constructs are excluded (list `unspaced` in Props/Format.lean); there the formatter may panic (c35_panic). White space may vanish between tokens (c51_glued)."
  },
  {
   "property": "C52",
   "status": "proved",
   "theorems": [
    "Verif.Props.c52_cases",
    "Verif.Props.c52_removed",
    "Verif.Props.c52_unused",
    "Verif.Props.c52_duplicate"
   ],
   "note": "Valid query documents without lone carriage returns; title, kind and diagnostics of the code action are not modelled."
  },
  {
   "property": "C53",
   "status": "proved",
   "theorems": [
    "Verif.Props.c53_declared",
    "Verif.Props.c53_fixed",
    "Verif.Props.c53_cases"
   ],
   "note": "The converter lookup (crate curies) is a parameter; the namespace must consist of IRI characters."
  },
  {
   "property": "C54",
   "status": "proved",
   "theorems": [
    "Verif.Props.c54_tokens",
    "Verif.Props.c54_tree",
    "Verif.Props.c54_example",
    "Verif.Props.c54_changed_tokens"
   ],
   "note": "Queries only (updates: C51). Hypotheses: Placeable (as C51), Formattable (the named exceptions; two words or numbers next to each other without white space as in `1true` are excluded too). The exceptions are real: c54_changed_tokens. Display width is a parameter; `contract_triples` is not modelled."
  },
  {
   "property": "C55",
   "status": "proved",
   "theorems": [
    "Verif.Props.c55_exact",
    "Verif.Props.c55_cases"
   ],
   "note": "Messages are not modelled. The missed case (VALUES behind GROUP BY in a sub-select) is part of the statement and shown by c55_cases."
  },
  {
   "property": "C56",
   "status": "proved",
   "theorems": [
    "Verif.Props.c56_exact",
    "Verif.Props.c56_cases"
   ],
   "note": "Only the outer select is checked by the code (select_query()). Messages are not modelled; the order of the reports inside one expression is that of the model, not part of the statement."
  },
  {
   "property": "C57",
   "status": "proved",
   "theorems": [
    "Verif.Props.c57_exact",
    "Verif.Props.c57_cases"
   ],
   "note": "`Shows` (Features/VisibleSpec.lean) is the independent description of the variables of a pattern. Messages are not modelled."
  },
  {
   "property": "C58",
   "status": "proved",
   "theorems": [
    "Verif.Props.c58_exact",
    "Verif.Props.c58_valid_silent",
    "Verif.Props.c58_cases"
   ],
   "note": "Messages are not modelled. Validity is derivability from the grammar of rules.rs for the entry rule (query or update) the parser chose."
  },
  {
   "property": "C59",
   "status": "proved",
   "theorems": [
    "Verif.Props.c59_exact",
    "Verif.Props.c59_cases"
   ],
   "note": "The order of the groups is that of a hash map in the code: the statement does not mention it. Messages are not modelled."
  },
  {
   "property": "C60",
   "status": "proved",
   "theorems": [
    "Verif.Props.c60_exact",
    "Verif.Props.c60_cases"
   ],
   "note": "The prefix map (curies crate) is a parameter; the message text is not modelled."
  },
  {
   "property": "C61",
   "status": "proved",
   "theorems": [
    "Verif.Props.c61_safe",
    "Verif.Props.c61_each",
    "Verif.Props.c61_fixes",
    "Verif.Props.c61_cases"
   ],
   "note": "Document and tree are those of the state (C16). Messages are not modelled. Removals precede insertions in the edit list, also when both start at the beginning of the document, an order the LSP specification does not allow (remarked at c61_cases)."
  },
  {
   "property": "C62",
   "status": "proved",
   "theorems": [
    "Verif.Props.c62_offered",
    "Verif.Props.c62_filter",
    "Verif.Props.c62_lang",
    "Verif.Props.c62_cases"
   ],
   "note": "c62_offered for all documents; c62_filter and c62_lang for valid ones. The place is given by EndsAt (dot of the block or end of the triple), the outcome by Inserted (tokens in front and behind unchanged)."
  },
  {
   "property": "C63",
   "status": "proved",
   "theorems": [
    "Verif.Props.c63_offered",
    "Verif.Props.c63_star",
    "Verif.Props.c63_before",
    "Verif.Props.c63_end",
    "Verif.Props.c63_aggregates_offered",
    "Verif.Props.c63_aggregates",
    "Verif.Props.c63_cases"
   ],
   "note": "Findings: a star glued to WHERE (SELECT *WHERE) becomes ?xWHERE; the GROUP BY of a sub-select that also has VALUES is not seen; aggregates are offered even for grouped variables, because the name without ? is compared with texts that have it (c63_cases); for $x the aggregate contains ?count_$x, so the theorem on aggregates is for ?x."
  },
  {
   "property": "C64",
   "status": "proved",
   "theorems": [
    "Verif.Props.c64_offered",
    "Verif.Props.c64_transform",
    "Verif.Props.c64_cursor",
    "Verif.Props.c64_unchanged",
    "Verif.Props.c64_cases",
    "Verif.Props.c64_from_breaks",
    "Verif.Props.c64_string_changes"
   ],
   "note": "Proved for all valid documents. c64_from_breaks and c64_string_changes show defects of the program: the action makes a query with FROM invalid and changes the value of long strings."
  },
  {
   "property": "C65",
   "status": "proved",
   "theorems": [
    "Verif.Props.c65_triple",
    "Verif.Props.c65_values",
    "Verif.Props.c65_order",
    "Verif.Props.c65_cases"
   ],
   "note": "The graph search is a total function (its termination measure is part of the definition); the theorems hold for every HashOrder. Serialisation of the context to text and the location detection that picks the trigger are not part of this property."
  },
  {
   "property": "C66",
   "status": "proved",
   "theorems": [
    "Verif.Props.c66_anchor",
    "Verif.Props.c66_term",
    "Verif.Props.c66_range",
    "Verif.Props.c66_accept",
    "Verif.Props.c66_paren",
    "Verif.Props.c66_word",
    "Verif.Props.c66_cases"
   ],
   "note": "Finding proved (c66_range, c66_accept, c66_cases): with the cursor at the end of `SELECT * WHERE {} foo\u23cebar` the term has two lines and `trigger_pos.character - ..` underflows (panic in a debug build). The cursor is a position of a character boundary (C01)."
  },
  {
   "property": "C67",
   "status": "proved",
   "theorems": [
    "Verif.Props.c67_ends",
    "Verif.Props.c67_exact",
    "Verif.Props.c67_valid",
    "Verif.Props.c67_cases"
   ],
   "note": "c67_exact also covers documents with errors behind the token, under the explicit condition Sound on the nodes around it (which c67_valid shows of every document without syntax errors). That the next token's element is offered is shown for the document at hand. Rules of n parts are nested pairs in the model."
  },
  {
   "property": "C68",
   "status": "proved",
   "theorems": [
    "Verif.Props.c68_front",
    "Verif.Props.c68_around",
    "Verif.Props.c68_typing",
    "Verif.Props.c68_cases"
   ],
   "note": "c68_front and c68_around compare any two documents; c68_typing needs that one is valid and the other's tokens are a beginning of its tokens. The server truncates the text at the cursor: the last token can then be cut, so that it is the token in front of it that C68 speaks about. Whether a beginning is taken for a query or an update is decided before parsing and is a hypothesis here."
  },
  {
   "property": "C69",
   "status": "proved",
   "theorems": [
    "Verif.Props.c69_around",
    "Verif.Props.c69_typing",
    "Verif.Props.c69_slot",
    "Verif.Props.c69_cases"
   ],
   "note": "For anchors that are significant tokens. c69_cases shows where users are not served: behind a comment the triple is not found; templates, updates and the value list behind a query get nothing; directly behind a complete value the slot is one too far although that value is what gets replaced. For kinds other than predicates, subjects and objects only soundness and 'not none' are shown, not which kind is chosen."
  },
  {
   "property": "C70",
   "status": "proved",
   "theorems": [
    "Verif.Props.c70_following",
    "Verif.Props.c70_suffix",
    "Verif.Props.c70_accepted",
    "Verif.Props.c70_cases",
    "Verif.Props.c70_annotation_breaks",
    "Verif.Props.c70_end_of_document"
   ],
   "note": "c70_suffix is about every object of a triple; c70_accepted is about the cursor, the location of C69 and the item. $0 is the place of the cursor in a snippet; other $ in an item are not treated. c70_annotation_breaks: inside of an annotation the dot is added, too, and the document is not valid any more. c70_end_of_document: at the end of the document the separator in front of the cursor counts as one behind it. Items in other fields (item_defaults, command, insert_text_format) are not modelled."
  },
  {
   "property": "C71",
   "status": "proved",
   "theorems": [
    "Verif.Props.c71_valid",
    "Verif.Props.c71_offer",
    "Verif.Props.c71_indent",
    "Verif.Props.c71_accepted",
    "Verif.Props.c71_item",
    "Verif.Props.c71_cases"
   ],
   "note": "For dots with a blank in front of them, only white space there, and no quotes between the dot and the variable. c71_offer is about the tree of the text in front of the cursor, c71_valid and c71_accepted are about the whole document; that the triple in front is the same in both is a hypothesis of c71_accepted. Offsets are bytes; the label, the detail and the order of the item are not modelled. Variables that are written with $ are never offered, as a question mark is put in front."
  },
  {
   "property": "C72",
   "status": "proved",
   "theorems": [
    "Verif.Props.c72_exact",
    "Verif.Props.c72_other",
    "Verif.Props.c72_cases",
    "Verif.Props.c72_other_label"
   ],
   "note": "The prefix map is a parameter (crate curies). What the action looks at is the node directly behind the prologue, or the whole document without a prologue; the declared namespaces are those of the prologue the document begins with. c72_other_label is a document whose namespace is declared under another label: no declaration is added, and the VALUES clause is left as it is. Whether the action is asked for at the selected element is not modelled."
  },
  {
   "property": "C73",
   "status": "proved",
   "theorems": [
    "Verif.Props.c73_contract",
    "Verif.Props.c73_total",
    "Verif.Props.c73_all",
    "Verif.Props.c73_cases",
    "Verif.Props.c73_dots",
    "Verif.Props.c73_panic",
    "Verif.Props.c73_comment"
   ],
   "note": "Which triples share a subject is C69's SubjectIn. The width of a character (crate unicode-width) is a parameter. The order of the groups is the document's (the code: that of a hash map), titles and extract_data/contract_triples_from_diagnostic are not modelled. c73_panic and c73_comment are the counterexamples."
  }
 ]
}