[
 {
  "id": "m01",
  "file": "Text.lean",
  "def": "fromByteIndexLoop",
  "old": "if count < offset then fromByteIndexLoop",
  "new": "if count ≤ offset then fromByteIndexLoop",
  "edit": "`<` to `<=` in the loop of from_byte_index",
  "claim": "C03: an offset has a position iff it is a boundary"
 },
 {
  "id": "m02",
  "file": "Text.lean",
  "def": "u16",
  "old": "if c.toNat < 0x10000 then 1 else 2",
  "new": "if c.toNat ≤ 0x10000 then 1 else 2",
  "edit": "off by one at the end of the BMP",
  "claim": "C01/C02: U+10000 has two UTF-16 units"
 },
 {
  "id": "m03",
  "file": "Text.lean",
  "def": "Position.step",
  "old": "else ⟨p.line, p.character + u16 c⟩",
  "new": "else ⟨p.line, p.character + u8 c⟩",
  "edit": "columns counted in bytes instead of UTF-16 units",
  "claim": "C01: offset -> position -> offset"
 },
 {
  "id": "m04",
  "file": "Text.lean",
  "def": "skipLines",
  "old": "if c = '\\r' ∧ d = '\\n' then skipLines line cs' (lineIdx + 1) (byteIdx + 2)",
  "new": "if c = '\\r' ∧ d = '\\n' then skipLines line cs' (lineIdx + 1) (byteIdx + 1)",
  "edit": "CR LF counted as one byte",
  "claim": "C02: positions after a CR LF"
 },
 {
  "id": "m05",
  "file": "Text.lean",
  "def": "skipCols",
  "old": "if c = '\\n' then none\n      else",
  "new": "if c = '\\n' then some byteIdx\n      else",
  "edit": "column past the line end is clamped instead of rejected",
  "claim": "C02: positions beyond the line end are rejected"
 },
 {
  "id": "m06",
  "file": "Text.lean",
  "def": "Range.overlaps",
  "old": "a.start.lt b.stop && b.start.lt a.stop",
  "new": "a.start.le b.stop && b.start.le a.stop",
  "edit": "touching ranges overlap",
  "claim": "C08: touching ranges do not overlap"
 },
 {
  "id": "m07",
  "file": "ApplyEdits.lean",
  "def": "editOrder",
  "old": "(b.range.start = a.range.start ∧ b.range.stop.le a.range.stop = true)",
  "new": "(b.range.start = a.range.start ∧ a.range.stop.le b.range.stop = true)",
  "edit": "ties sorted by end ascending",
  "claim": "C05: an insertion at the start of a replaced range comes before the replacement"
 },
 {
  "id": "m08",
  "file": "ApplyEdits.lean",
  "def": "applyTextEdits",
  "old": "if t.getLast? = some '\\n' then ⟨breaks.length, 0⟩ else ⟨breaks.length, n⟩",
  "new": "⟨breaks.length, 0⟩",
  "edit": "end position column always 0",
  "claim": "C05: edits at the end of a text without final newline"
 },
 {
  "id": "m09",
  "file": "ApplyEdits.lean",
  "def": "lineBreaks",
  "old": "lineBreaks cs breaks (n + u16 c)",
  "new": "lineBreaks cs breaks (n + 1)",
  "edit": "line lengths counted in characters",
  "claim": "C05: edits on lines with characters outside the BMP"
 },
 {
  "id": "m10",
  "file": "ContentChanges.lean",
  "def": "needsReset",
  "old": "| ⟨some r, _⟩ :: _ => r.start.lt cursor",
  "new": "| ⟨some r, _⟩ :: _ => r.stop.lt cursor",
  "edit": "cursor reset decided on the end of the next range",
  "claim": "C07: sync follows the client"
 },
 {
  "id": "m11",
  "file": "ContentChanges.lean",
  "def": "changesLoop",
  "old": "else changesLoop cs text' r.start s s",
  "new": "else changesLoop cs text' r.stop e e",
  "edit": "cursor left at the end of the old range",
  "claim": "C07: sync follows the client"
 },
 {
  "id": "m12",
  "file": "ContentChanges.lean",
  "def": "changesLoop",
  "old": "| ⟨none, new⟩ :: cs, _, _, _, _ => changesLoop cs new ⟨0, 0⟩ 0 0",
  "new": "| ⟨none, new⟩ :: _, _, _, _, _ => some new",
  "edit": "changes after a full change dropped",
  "claim": "C07: sync follows the client"
 },
 {
  "id": "m13",
  "file": "Grammar/Tree.lean",
  "def": "removeLoop",
  "old": "if !hasTokens && !st.isEmpty then",
  "new": "if !hasTokens then",
  "edit": "the root is removed as well when it is empty",
  "claim": "C10: the empty document has a tree"
 },
 {
  "id": "m14",
  "file": "Grammar/Tree.lean",
  "def": "removeLoop",
  "old": "removeLoop es (i + 1) remove (match st with | [] => [] | (j', _) :: st' => (j', true) :: st')\n",
  "new": "removeLoop es (i + 1) remove st\n",
  "edit": "has_tokens not passed to the parent",
  "claim": "C15/C10: nodes are removed although they have tokens below"
 },
 {
  "id": "m15",
  "file": "Grammar/Tree.lean",
  "def": "buildEvent",
  "old": "let b := if k = K.QueryUnit ∨ k = K.UpdateUnit then b else eatTrivia b.rest b",
  "new": "let b := eatTrivia b.rest b",
  "edit": "leading trivia emitted before the root",
  "claim": "C09/C10: text with leading blanks"
 },
 {
  "id": "m16",
  "file": "Grammar/Tree.lean",
  "def": "buildEvent",
  "old": "    let b := eatTrivia b.rest b\n    match b.rest with",
  "new": "    match b.rest with",
  "edit": "trivia not skipped on advance",
  "claim": "C09: tree leaves / C46 kinds of children"
 },
 {
  "id": "m17",
  "file": "Grammar/Tree.lean",
  "def": "errorSpan",
  "old": "match done.reverse.find? (fun t => !t.trivia) with",
  "new": "match done.find? (fun t => !t.trivia) with",
  "edit": "error at the end is placed after the first token",
  "claim": "C13: span of an error at the end of input"
 },
 {
  "id": "m18",
  "file": "Grammar/Stmt.lean",
  "def": "maxFuel",
  "old": "def maxFuel : Nat := 1024",
  "new": "def maxFuel : Nat := 16",
  "edit": "look-ahead budget 16",
  "claim": "C14: a valid document never exhausts the budget"
 },
 {
  "id": "m19",
  "file": "Grammar/Stmt.lean",
  "def": "PState.swallow",
  "old": "if c = K.Eof then .next s\n    else",
  "new": "if c ≠ K.Eof then .next s\n    else",
  "edit": "trailing tokens are not swallowed",
  "claim": "C12: the whole input is consumed"
 },
 {
  "id": "m20",
  "file": "Grammar/Stmt.lean",
  "def": "exec (rep)",
  "old": "if s'.toks.length = s.toks.length then .next s' else exec G n mark root (.rep ks b) s'",
  "new": "if s'.toks.length ≠ s.toks.length then .next s' else exec G n mark root (.rep ks b) s'",
  "edit": "progress check inverted",
  "claim": "C11: termination / C41 acceptance of repetitions"
 },
 {
  "id": "m21",
  "file": "Grammar/Stmt.lean",
  "def": "PState.expect",
  "old": "if c = k then s.advance else .next (s.push (.error [k]))",
  "new": "if c = k then s.advance else s.advance",
  "edit": "expect consumes the wrong token",
  "claim": "C42: what is accepted without error is SPARQL"
 },
 {
  "id": "m22",
  "file": "Grammar/Parse.lean",
  "def": "queryKeywords",
  "old": "[K.SELECT, K.CONSTRUCT, K.ASK, K.DESCRIBE]",
  "new": "[K.SELECT, K.CONSTRUCT, K.ASK]",
  "edit": "DESCRIBE missing",
  "claim": "C44: operation type of DESCRIBE queries"
 },
 {
  "id": "m23",
  "file": "Grammar/Parse.lean",
  "def": "updateKeywords",
  "old": "K.DELETE, K.DELETE_DATA, K.DELETE_WHERE]",
  "new": "K.DELETE, K.DELETE_DATA]",
  "edit": "DELETE WHERE missing",
  "claim": "C44: operation type of DELETE WHERE"
 },
 {
  "id": "m24",
  "file": "Features/Occurrences.lean",
  "def": "regionEdges",
  "old": "some (p.2, parentRegionId regions p.1)",
  "new": "some (p.2, 0)",
  "edit": "a sub-select is joined with the top level instead of its parent",
  "claim": "C25: occurrences in nested sub-selects"
 },
 {
  "id": "m25",
  "file": "Features/Occurrences.lean",
  "def": "registerRegions",
  "old": "(r.1, r.2.getD 0)",
  "new": "(r.1, 0)",
  "edit": "every occurrence counts as top level",
  "claim": "C25: scopes are separated"
 },
 {
  "id": "m26",
  "file": "Features/UnionFind.lean",
  "def": "ufUnion",
  "old": "some (if rootU ≠ rootV then parent.set rootU rootV else parent)",
  "new": "some (if rootU ≠ rootV then parent.set u rootV else parent)",
  "edit": "union links the node, not its root",
  "claim": "C25: occurrence is an equivalence"
 },
 {
  "id": "m27",
  "file": "Features/Rename.lean",
  "def": "stripSigil",
  "old": "  | '$' :: n => n\n",
  "new": "",
  "edit": "the dollar is not stripped",
  "claim": "C26/C27: rename to $x"
 },
 {
  "id": "m28",
  "file": "Features/Rename.lean",
  "def": "isValidVariableName",
  "old": "isVarNameStartChar c && cs.all isVarNameChar",
  "new": "isVarNameChar c && cs.all isVarNameChar",
  "edit": "first character not restricted",
  "claim": "C27: names accepted are SPARQL variable names"
 },
 {
  "id": "m29",
  "file": "Features/Rename.lean",
  "def": "rename",
  "old": "'?' :: stripSigil rawNewName",
  "new": "stripSigil rawNewName",
  "edit": "new text without question mark",
  "claim": "C26: occurrences become ?new"
 },
 {
  "id": "m30",
  "file": "Features/Rename.lean",
  "def": "varStartChar",
  "old": "(0x41, 0x5A), (0x61, 0x7A), (0x5F, 0x5F), (0x30, 0x39), (0x00C0, 0x00D6), (0x00D8, 0x00F6)",
  "new": "(0x41, 0x5A), (0x61, 0x7A), (0x5F, 0x5F), (0x30, 0x39), (0x00C0, 0x00F6)",
  "edit": "range includes the multiplication sign",
  "claim": "C27: names accepted are SPARQL variable names"
 },
 {
  "id": "m31",
  "file": "Features/Visible.lean",
  "def": "visibleOf",
  "old": "if clause.lastT = some K.Star then",
  "new": "if clause.lastT = some K.SELECT then",
  "edit": "SELECT * not recognised",
  "claim": "C25: SELECT * shares every variable"
 },
 {
  "id": "m32",
  "file": "Server/State.lean",
  "def": "State.cachedTree",
  "old": "if c.uri = uri ∧ c.version = d.version then",
  "new": "if c.uri = uri then",
  "edit": "version not compared",
  "claim": "C16: requests see the current text"
 },
 {
  "id": "m33",
  "file": "Server/State.lean",
  "def": "State.changeDocument",
  "old": "put uri ⟨d.version + 1, t⟩ s.docs",
  "new": "put uri ⟨d.version, t⟩ s.docs",
  "edit": "version not bumped",
  "claim": "C16: requests see the current text"
 },
 {
  "id": "m34",
  "file": "Server/State.lean",
  "def": "State.bump",
  "old": "(s.counter, { s with counter := s.counter + 1 })",
  "new": "(s.counter, s)",
  "edit": "counter not incremented",
  "claim": "C22: ids unique"
 },
 {
  "id": "m35",
  "file": "Server/Handlers.lean",
  "def": "shutdownRequest",
  "old": "  | .shuttingDown => fail s .invalidRequest\n  | .running",
  "new": "  | .shuttingDown | .running",
  "edit": "second shutdown accepted",
  "claim": "C17: lifecycle"
 },
 {
  "id": "m36",
  "file": "Server/Handlers.lean",
  "def": "handleMessage",
  "old": ".done s' (outs ++ errorResponse msg c) (.ok ())",
  "new": ".done s' outs (.ok ())",
  "edit": "no error response",
  "claim": "C18: exactly one response"
 },
 {
  "id": "m37",
  "file": "Server/Handlers.lean",
  "def": "updateDefault",
  "old": "if (look n s.backends).isNone then fail s .invalidParams\n    else\n      match s.setDefault n with\n      | none => .panic\n      | some s' => .done s' [] (.ok ())",
  "new": ".done { s with dflt := some n } [] (.ok ())",
  "edit": "unknown backend accepted as default",
  "claim": "C21: default is registered"
 },
 {
  "id": "m38",
  "file": "Server/Framing.lean",
  "def": "frame",
  "old": "digits (bytesOf message).length",
  "new": "digits message.length",
  "edit": "length in characters",
  "claim": "C20: framing round trip"
 },
 {
  "id": "m39",
  "file": "Server/Json.lean",
  "def": "merge",
  "old": "  | _, p => p",
  "new": "  | t, _ => t",
  "edit": "existing values win",
  "claim": "C45: settings are overwritten"
 },
 {
  "id": "m40",
  "file": "Lexer/Lex.lean",
  "def": "bestOf",
  "old": "if m ≤ n then some (n, r.kind) else some (m, k)",
  "new": "some (n, r.kind)",
  "edit": "first matching rule instead of the longest",
  "claim": "C47: longest match"
 },
 {
  "id": "m41",
  "file": "Lexer/Lex.lean",
  "def": "lexGo",
  "old": "lexGo errLen fuel (off + blen w) (rest.drop t.2)",
  "new": "lexGo errLen fuel (off + t.2) (rest.drop t.2)",
  "edit": "offsets in characters",
  "claim": "C47/C09: spans tile the text"
 },
 {
  "id": "m42",
  "file": "Grammar/Table.lean",
  "def": "fn_iri",
  "old": "(.arm [K.IRIREF] (.expect K.IRIREF)",
  "new": "(.arm [K.IRIREF] (.expect K.PNAME_LN)",
  "edit": "wrong token expected",
  "claim": "C41: valid documents are accepted"
 },
 {
  "id": "m43",
  "file": "Features/Rename.lean",
  "def": "selectToken",
  "old": "if (Red.root g).stop < offset then .panic",
  "new": "if (Red.root g).stop ≤ offset then .panic",
  "edit": "panic at the end of the document",
  "claim": "C26: no panic"
 },
 {
  "id": "m44",
  "file": "Features/Folding.lean",
  "def": "braceFold",
  "old": "if cp.line - 1 ≤ op.line then none",
  "new": "if cp.line - 1 < op.line then none",
  "edit": "wrong boundary",
  "claim": "C28: no range for a block whose body is on one line"
 },
 {
  "id": "m45",
  "file": "Features/Folding.lean",
  "def": "braceFold",
  "old": "some ⟨op.line, cp.line - 1, false, none⟩",
  "new": "some ⟨op.line, cp.line, false, none⟩",
  "edit": "the line of the closing brace is folded too",
  "claim": "C28"
 },
 {
  "id": "m46",
  "file": "Features/Folding.lean",
  "def": "foldings",
  "old": "(Red.root g).descendants.filter (fun n => n.kind == K.GroupGraphPattern)",
  "new": "(Red.root g).children.filter (fun n => n.kind == K.GroupGraphPattern)",
  "edit": "only top-level blocks",
  "claim": "C28: every block"
 },
 {
  "id": "m47",
  "file": "Features/ParseTree.lean",
  "def": "buildEls",
  "old": "buildEls text skip gs (off + blen g.text) c\n",
  "new": "buildEls text skip gs off c\n",
  "edit": "offset not advanced over skipped trivia",
  "claim": "C39: ranges"
 },
 {
  "id": "m48",
  "file": "Features/ParseTree.lean",
  "def": "buildEl",
  "old": "some (.tok k ⟨c1.position, c2.position⟩ t, c2)",
  "new": "some (.tok k ⟨c.position, c2.position⟩ t, c2)",
  "edit": "range starts at the old cursor",
  "claim": "C39: ranges"
 },
 {
  "id": "m49",
  "file": "Features/ParseTree.lean",
  "def": "isTriviaKind",
  "old": "k == K.WHITESPACE || k == K.Comment",
  "new": "k == K.WHITESPACE",
  "edit": "comments are not trivia",
  "claim": "C39: skipTrivia (isTriviaKind is shared with the specification)"
 },
 {
  "id": "m50",
  "file": "Features/Jump.lean",
  "def": "mapLoop",
  "old": "if b ≤ offset then mapLoop",
  "new": "if b < offset then mapLoop",
  "edit": "edit that ends at the cursor not counted",
  "claim": "C30"
 },
 {
  "id": "m51",
  "file": "Features/Jump.lean",
  "def": "mapLoop",
  "old": "toU32 (a + delta + n)",
  "new": "toU32 (a + n)",
  "edit": "dropped shift",
  "claim": "C30"
 },
 {
  "id": "m52",
  "file": "Features/Jump.lean",
  "def": "jumpTarget",
  "old": "decide (p.1 > cursor))).or results.head?",
  "new": "decide (p.1 ≥ cursor))).or results.head?",
  "edit": "jump to the current position",
  "claim": "C29: strictly after"
 },
 {
  "id": "m53",
  "file": "Features/Jump.lean",
  "def": "jumpTarget",
  "old": "decide (p.1 < cursor))).or results.getLast?",
  "new": "decide (p.1 < cursor))).or results.head?",
  "edit": "wrap to the wrong end",
  "claim": "C29"
 },
 {
  "id": "m54",
  "file": "Features/Jump.lean",
  "def": "jumpFormatted",
  "old": "fromByteIndex (offset + blen before) final",
  "new": "fromByteIndex offset final",
  "edit": "cursor in front of the inserted blanks",
  "claim": "C29"
 },
 {
  "id": "m55",
  "file": "Features/Jump.lean",
  "def": "relevantPositions",
  "old": "(selectPlace g prev ++ groupPlaces g ++ endPlace g).insertionSort (fun a b => a.1 ≤ b.1)",
  "new": "(selectPlace g prev ++ groupPlaces g ++ endPlace g)",
  "edit": "places not sorted",
  "claim": "C29"
 },
 {
  "id": "m56",
  "file": "Features/Diagnostics.lean",
  "def": "splitColon",
  "old": "if c = ':' then some ([], cs)",
  "new": "if c = ':' then some ([':'], cs)",
  "edit": "colon kept in the prefix",
  "claim": "C36"
 },
 {
  "id": "m57",
  "file": "Features/Diagnostics.lean",
  "def": "undeclaredPrefix",
  "old": "(declared.filterMap id).contains p",
  "new": "!(declared.filterMap id).contains p",
  "edit": "negation",
  "claim": "C36"
 },
 {
  "id": "m58",
  "file": "Features/Diagnostics.lean",
  "def": "duplicateLoop",
  "old": "duplicateLoop text ds (p :: seen) acc",
  "new": "duplicateLoop text ds seen acc",
  "edit": "seen prefixes forgotten",
  "claim": "C38"
 },
 {
  "id": "m59",
  "file": "Features/Diagnostics.lean",
  "def": "unusedPrefix",
  "old": "!used.contains (p.getD [])",
  "new": "used.contains (p.getD [])",
  "edit": "negation",
  "claim": "C37"
 },
 {
  "id": "m60",
  "file": "Features/Diagnostics.lean",
  "def": "stripPrologue",
  "old": "dropWhile (fun c => c.kind == K.Prologue)).head?",
  "new": "dropWhile (fun c => c.kind == K.Prologue)).getLast?",
  "edit": "last child instead of first",
  "claim": "C37"
 },
 {
  "id": "m61",
  "file": "NTriples/Model.lean",
  "def": "step",
  "old": "| 1, .blank => some { st with predicate := t.text, counter := next, errors := st.errors ++ [⟨t.start, t.stop, .blankPredicate⟩] }",
  "new": "| 1, .blank => some { st with predicate := t.text, counter := next }",
  "edit": "blank node predicate accepted silently",
  "claim": "C31"
 },
 {
  "id": "m62",
  "file": "NTriples/Model.lean",
  "def": "step",
  "old": "(st.counter + 1) % 4",
  "new": "(st.counter + 1) % 3",
  "edit": "dot not required",
  "claim": "C31"
 },
 {
  "id": "m63",
  "file": "NTriples/Model.lean",
  "def": "loop",
  "old": "if st.counter ≠ 0 then none else some",
  "new": "if st.counter = 1 then none else some",
  "edit": "truncated statement accepted",
  "claim": "C31"
 },
 {
  "id": "m64",
  "file": "LazyReader/Model.lean",
  "def": "endBinding",
  "old": "decide (p.counter - p.offset ≤ l)",
  "new": "decide (p.counter - p.offset < l)",
  "edit": "one row too few",
  "claim": "C33"
 },
 {
  "id": "m65",
  "file": "LazyReader/Model.lean",
  "def": "act",
  "old": "else if c = backslash then .ok { p with scan := .readingStringEscaped prev } none\n",
  "new": "",
  "edit": "escaped quotes end a string",
  "claim": "C33"
 },
 {
  "id": "m66",
  "file": "LazyReader/Model.lean",
  "def": "endBinding",
  "old": ".ok { p with buffer := [] } (some (.bindings buf))",
  "new": ".ok { p with buffer := buf } (some (.bindings buf))",
  "edit": "buffer not cleared",
  "claim": "C33: every row once"
 },
 {
  "id": "m67",
  "file": "LazyReader/Model.lean",
  "def": "readLoop",
  "old": "if p.buffer.isEmpty then [] else [.bindings p.buffer]",
  "new": "([] : List (Part H B M))",
  "edit": "last batch dropped",
  "claim": "C33"
 },
 {
  "id": "m68",
  "file": "LazyReader/Model.lean",
  "def": "Parser.stores",
  "old": "decide (p.counter - p.offset < l)",
  "new": "decide (p.counter - p.offset ≤ l)",
  "edit": "bytes of the row behind the limit stored",
  "claim": "C33"
 },
 {
  "id": "m69",
  "file": "Features/Indent.lean",
  "def": "braceKinds",
  "old": "K.QuadsNotTriples, ",
  "new": "",
  "edit": "kind forgotten",
  "claim": "C40"
 },
 {
  "id": "m70",
  "file": "Features/Indent.lean",
  "def": "depthOf",
  "old": "prev = some K.TriplesTemplate",
  "new": "prev = some K.ConstructTemplate",
  "edit": "wrong child of CONSTRUCT WHERE",
  "claim": "C40"
 },
 {
  "id": "m71",
  "file": "Features/OnType.lean",
  "def": "onNewline",
  "old": "¬ (t.kind = K.WHITESPACE ∨ t.kind = K.ANON ∨ t.kind = K.NIL)",
  "new": "t.kind = K.Comment",
  "edit": "strings are re-indented",
  "claim": "C50"
 },
 {
  "id": "m72",
  "file": "Features/OnType.lean",
  "def": "leadingBlanks",
  "old": "c == ' ' || c == '\\t'",
  "new": "c == ' '",
  "edit": "tabs not replaced",
  "claim": "C50"
 },
 {
  "id": "m73",
  "file": "Features/OnType.lean",
  "def": "onTerminator",
  "old": "if t.kind ≠ k then .ok none",
  "new": "if t.kind = K.Comment then .ok none",
  "edit": "typing a dot inside an IRI breaks the line",
  "claim": "C50"
 },
 {
  "id": "m74",
  "file": "Features/OnType.lean",
  "def": "onTerminator",
  "old": "('\\n' :: new)",
  "new": "new",
  "edit": "no line break",
  "claim": "C50"
 },
 {
  "id": "m75",
  "file": "Features/OnType.lean",
  "def": "continuation",
  "old": "some (List.replicate col ' ')",
  "new": "some (List.replicate (col + 1) ' ')",
  "edit": "off by one alignment",
  "claim": "C50"
 },
 {
  "id": "m76",
  "file": "Format/Pipeline.lean",
  "def": "splitAt",
  "old": "e.range.start.lt pos && e.range.stop.le pos",
  "new": "e.range.stop.le pos",
  "edit": "insertion at the comment goes in front of it",
  "claim": "C35"
 },
 {
  "id": "m77",
  "file": "Format/Pipeline.lean",
  "def": "consolidateStep",
  "old": "if n.range.start = e.range.stop then (e :: n :: ns) :: rest",
  "new": "if n.range.start = e.range.stop then (n :: e :: ns) :: rest",
  "edit": "adjacent edits in the wrong order",
  "claim": "C51"
 },
 {
  "id": "m78",
  "file": "Format/Pipeline.lean",
  "def": "insertComments",
  "old": "if start.le c.pos then",
  "new": "if start.lt c.pos then",
  "edit": "comment at the start of an edit is left over",
  "claim": "C35"
 },
 {
  "id": "m79",
  "file": "Format/Pipeline.lean",
  "def": "mergeComments",
  "old": "mergeLoop text indent chains comments.reverse",
  "new": "mergeLoop text indent chains comments",
  "edit": "comments first to last",
  "claim": "C35"
 },
 {
  "id": "m80",
  "file": "Format/Pipeline.lean",
  "def": "byStopDesc",
  "old": "b.stop < a.stop ∨ (b.stop = a.stop ∧ b.start ≤ a.start)",
  "new": "b.stop < a.stop ∨ (b.stop = a.stop ∧ a.start ≤ b.start)",
  "edit": "insertion and replacement ending together swapped",
  "claim": "C51"
 },
 {
  "id": "m81",
  "file": "Format/Pipeline.lean",
  "def": "CMarker.shown",
  "old": "else if c.trailing then [' ']",
  "new": "else if c.trailing then []",
  "edit": "no blank in front of a trailing comment",
  "claim": "C35 (the comment is glued to the token in front of it)"
 },
 {
  "id": "m82",
  "file": "Format/Pipeline.lean",
  "def": "drainEdits",
  "old": "⟨⟨if e.start = b then p else m, p⟩, e.text⟩",
  "new": "⟨⟨m, p⟩, e.text⟩",
  "edit": "insertions get the range since the last edit",
  "claim": "C34"
 },
 {
  "id": "m83",
  "file": "Format/Walker.lean",
  "def": "keywordEdits",
  "old": "replace r (r.text.map Char.toUpper)",
  "new": "replace r (r.text.drop 1)",
  "edit": "first letter dropped",
  "claim": "C51"
 },
 {
  "id": "m84",
  "file": "Format/Walker.lean",
  "def": "twoWords",
  "old": "⟨r.stop - n, r.stop, second⟩",
  "new": "⟨r.stop - n, r.stop, first⟩",
  "edit": "DELETE DELETE",
  "claim": "C51"
 },
 {
  "id": "m85",
  "file": "Format/Walker.lean",
  "def": "inNode",
  "old": "cs.filterMap (fun c => if c.kind = K.Comma then some (replace c [',', ' ']) else none)",
  "new": "cs.filterMap (fun c => if c.kind = K.Comma then some (replace c [' ']) else none)",
  "edit": "comma dropped",
  "claim": "C51"
 },
 {
  "id": "m86",
  "file": "Format/Walker.lean",
  "def": "inNode",
  "old": "else if r.kind = K.ANON then [replace r ['[', ']']]",
  "new": "else if r.kind = K.ANON then [replace r ['[', ' ']]",
  "edit": "bracket dropped",
  "claim": "C51"
 },
 {
  "id": "m87",
  "file": "Format/Walker.lean",
  "def": "sepEdit",
  "old": "| .space => some ⟨a.stop, b.start, [' ']⟩",
  "new": "| .space => some ⟨a.start, b.start, [' ']⟩",
  "edit": "separator swallows a token",
  "claim": "C51"
 },
 {
  "id": "m88",
  "file": "Format/Walker.lean",
  "def": "commentMarker",
  "old": "pos := if a.kind = K.QueryUnit ∨ a.kind = K.UpdateUnit then 0 else a.stop",
  "new": "pos := a.stop",
  "edit": "comment at the beginning moved behind the document",
  "claim": "C35"
 },
 {
  "id": "m89",
  "file": "Format/Walker.lean",
  "def": "elemComments",
  "old": "if r.kind = K.Error then []\n  else (r.childrenT",
  "new": "if r.kind = K.SelectClause then []\n  else (r.childrenT",
  "edit": "comments of a construct forgotten",
  "claim": "C35"
 },
 {
  "id": "m90",
  "file": "Format/Walker.lean",
  "def": "fmtChildren",
  "old": "(decide (c.kind ≠ K.Comment) || decide (r.kind = K.Error))",
  "new": "(true || decide (r.kind = K.Error))",
  "edit": "comments are formatted like tokens (separators between them)",
  "claim": "C35"
 },
 {
  "id": "m91",
  "file": "Format/Walker.lean",
  "def": "inNode",
  "old": "[insAt (r.start + 1) [' ']]",
  "new": "[insAt (r.start + 2) [' ']]",
  "edit": "blank inside the number",
  "claim": "C51"
 },
 {
  "id": "m92",
  "file": "Format/Walker.lean",
  "def": "unitEdits",
  "old": "[⟨0, first.start, []⟩, ⟨last.stop, r.stop, []⟩]",
  "new": "[⟨0, first.stop, []⟩, ⟨last.stop, r.stop, []⟩]",
  "edit": "first element deleted",
  "claim": "C51"
 },
 {
  "id": "m93",
  "file": "Features/QuickFix.lean",
  "def": "nextSignificant",
  "old": "(fun t => decide (d.stop ≤ t.start) && !isTriviaKind t.kind)",
  "new": "(fun t => decide (d.stop ≤ t.start))",
  "edit": "do not skip trivia behind the declaration",
  "claim": "C52"
 },
 {
  "id": "m94",
  "file": "Features/QuickFix.lean",
  "def": "nextSignificant",
  "old": "decide (d.stop ≤ t.start)",
  "new": "decide (d.stop < t.start)",
  "edit": "strict boundary: skips a token that touches the declaration",
  "claim": "C52"
 },
 {
  "id": "m95",
  "file": "Features/QuickFix.lean",
  "def": "optimalRange",
  "old": "Range.fromByteOffsetRange a n.start text",
  "new": "Range.fromByteOffsetRange a n.stop text",
  "edit": "deletes the next token too",
  "claim": "C52"
 },
 {
  "id": "m96",
  "file": "Features/QuickFix.lean",
  "def": "optimalRange",
  "old": "if d.kind = K.PrefixDecl then",
  "new": "if d.kind = K.BaseDecl then",
  "edit": "wrong kind tested: only the declaration itself is deleted",
  "claim": "C52"
 },
 {
  "id": "m97",
  "file": "Features/QuickFix.lean",
  "def": "declText",
  "old": "++ [':', ' ', '<'] ++ uri",
  "new": "++ [' ', '<'] ++ uri",
  "edit": "colon forgotten",
  "claim": "C53"
 },
 {
  "id": "m98",
  "file": "Features/QuickFix.lean",
  "def": "declText",
  "old": "++ uri ++ ['>', '\\n']",
  "new": "++ uri ++ ['>']",
  "edit": "line break forgotten (still valid, but c53's text changes)",
  "claim": "C53"
 },
 {
  "id": "m99",
  "file": "Features/QuickFix.lean",
  "def": "declText",
  "old": "['P', 'R', 'E', 'F', 'I', 'X', ' '] ++ prefix_",
  "new": "['P', 'R', 'E', 'F', 'I', 'X'] ++ prefix_",
  "edit": "no blank behind PREFIX",
  "claim": "C53"
 },
 {
  "id": "m100",
  "file": "Features/QuickFix.lean",
  "def": "declarePrefix",
  "old": "some (some ⟨⟨⟨0, 0⟩, ⟨0, 0⟩⟩, declText p uri⟩)",
  "new": "some (some ⟨⟨⟨1, 0⟩, ⟨1, 0⟩⟩, declText p uri⟩)",
  "edit": "inserted in the second line",
  "claim": "C53"
 },
 {
  "id": "m101",
  "file": "Features/QuickFix.lean",
  "def": "declarePrefix",
  "old": "declText p uri⟩)",
  "new": "declText uri p⟩)",
  "edit": "swapped arguments",
  "claim": "C53"
 },
 {
  "id": "m102",
  "file": "Features/SelectDiagnostics.lean",
  "def": "groupClause",
  "old": "      | some c => if c.kind = K.GroupClause then some c else none\n    else none",
  "new": "      | some c => some c\n    else none",
  "edit": "the first solution modifier of any kind is taken as GROUP BY",
  "claim": "C55, C56"
 },
 {
  "id": "m103",
  "file": "Features/SelectDiagnostics.lean",
  "def": "groupClause",
  "old": "def groupClause (sq : Red) : Option Red :=\n  match sq.lastChild with",
  "new": "def groupClause (sq : Red) : Option Red :=\n  match sq.firstChild with",
  "edit": "looks for the modifiers in the first child",
  "claim": "C55, C56"
 },
 {
  "id": "m104",
  "file": "Features/SelectDiagnostics.lean",
  "def": "invalidStar",
  "old": "if t.kind = K.Star then some t",
  "new": "if t.kind = K.AS then some t",
  "edit": "wrong token",
  "claim": "C55"
 },
 {
  "id": "m105",
  "file": "Features/SelectDiagnostics.lean",
  "def": "groupbyStar",
  "old": "s.kind == K.SelectQuery || s.kind == K.SubSelect",
  "new": "s.kind == K.SelectQuery || s.kind == K.SelectQuery",
  "edit": "sub-selects are not checked",
  "claim": "C55"
 },
 {
  "id": "m106",
  "file": "Features/SelectDiagnostics.lean",
  "def": "selectedVars",
  "old": "| some e => e.kind != K.Expression)",
  "new": "| some _ => true)",
  "edit": "targets of assignments count as selected",
  "claim": "C56"
 },
 {
  "id": "m107",
  "file": "Features/SelectDiagnostics.lean",
  "def": "derivedIdx",
  "old": ".getLast?).map (·.2)",
  "new": ".head?).map (·.2)",
  "edit": "first instead of last assignment",
  "claim": "C56"
 },
 {
  "id": "m108",
  "file": "Features/SelectDiagnostics.lean",
  "def": "ungroupedVars",
  "old": "decide (q.1 < i)",
  "new": "decide (q.1 ≤ i)",
  "edit": "boundary: a variable in its own assignment is reported",
  "claim": "C56"
 },
 {
  "id": "m109",
  "file": "Features/SelectDiagnostics.lean",
  "def": "unaggIn",
  "old": "(if k = K.Aggregate then [] else unaggInL",
  "new": "(if k = K.Star then [] else unaggInL",
  "edit": "variables inside aggregates are reported",
  "claim": "C56"
 },
 {
  "id": "m110",
  "file": "Features/SelectDiagnostics.lean",
  "def": "groupTexts",
  "old": "else if n.kind = K.Expression then asVar n.green else none)",
  "new": "else none)",
  "edit": "GROUP BY (?x) is not recognized",
  "claim": "C56"
 },
 {
  "id": "m111",
  "file": "Features/SelectDiagnostics.lean",
  "def": "invalidProjection",
  "old": "(attr w.green).visible.contains v.text",
  "new": "!(attr w.green).visible.contains v.text",
  "edit": "negated",
  "claim": "C57"
 },
 {
  "id": "m112",
  "file": "Features/SelectDiagnostics.lean",
  "def": "assignments",
  "old": "| some e => if e.kind = K.Expression then some (e, v) else none)",
  "new": "| some e => some (e, v))",
  "edit": "any node before a variable counts as its expression",
  "claim": "C56, C57"
 },
 {
  "id": "m113",
  "file": "Features/SyntaxDiagnostics.lean",
  "def": "syntaxError",
  "old": "  | some (_, e :: _) =>\n    (Range.fromByteOffsetRange e.start e.stop text)",
  "new": "  | some (_, e :: es) =>\n    (Range.fromByteOffsetRange ((e :: es).getLast (by simp)).start e.stop text)",
  "edit": "range starts at the last error",
  "claim": "C58"
 },
 {
  "id": "m114",
  "file": "Features/SyntaxDiagnostics.lean",
  "def": "syntaxError",
  "old": "Range.fromByteOffsetRange e.start e.stop text",
  "new": "Range.fromByteOffsetRange 0 e.stop text",
  "edit": "range starts at the beginning of the document",
  "claim": "C58"
 },
 {
  "id": "m115",
  "file": "Features/SameSubject.lean",
  "def": "tripleGroups",
  "old": "decide (2 ≤ x.2.length)",
  "new": "decide (1 ≤ x.2.length)",
  "edit": "single triples are reported",
  "claim": "C59"
 },
 {
  "id": "m116",
  "file": "Features/SameSubject.lean",
  "def": "tripleGroups",
  "old": "decide (2 ≤ x.2.length)",
  "new": "decide (3 ≤ x.2.length)",
  "edit": "pairs are not reported",
  "claim": "C59"
 },
 {
  "id": "m117",
  "file": "Features/SameSubject.lean",
  "def": "groupTriples",
  "old": "(ts.filter (fun t => !hasErrorNode t))",
  "new": "ts",
  "edit": "triples with errors are grouped",
  "claim": "C59"
 },
 {
  "id": "m118",
  "file": "Features/SameSubject.lean",
  "def": "subjectText",
  "old": "then some c.text else none",
  "new": "then some t.text else none",
  "edit": "triples are grouped by their whole text",
  "claim": "C59"
 },
 {
  "id": "m119",
  "file": "Features/SameSubject.lean",
  "def": "tripleBlocks",
  "old": "sub.children.filter (fun c => c.kind == K.TriplesBlock)",
  "new": "(sub.children.filter (fun c => c.kind == K.TriplesBlock)).take 1",
  "edit": "only the first block of a pattern",
  "claim": "C59"
 },
 {
  "id": "m120",
  "file": "Features/SameSubject.lean",
  "def": "addGroup",
  "old": "(s', l ++ [t])",
  "new": "(s', t :: l)",
  "edit": "groups in reverse order",
  "claim": "C59"
 },
 {
  "id": "m121",
  "file": "Features/UncompactedUri.lean",
  "def": "rawIri",
  "old": "byteSlice r.text 1 (blen r.text - 1)",
  "new": "byteSlice r.text 1 (blen r.text)",
  "edit": "the closing bracket is kept",
  "claim": "C60"
 },
 {
  "id": "m122",
  "file": "Features/UncompactedUri.lean",
  "def": "rawIri",
  "old": "byteSlice r.text 1 (blen r.text - 1)",
  "new": "byteSlice r.text 2 (blen r.text - 1)",
  "edit": "first character of the IRI is dropped (panics inside a character)",
  "claim": "C60"
 },
 {
  "id": "m123",
  "file": "Features/UncompactedUri.lean",
  "def": "rawIri",
  "old": "if c.kind = K.IRIREF ∧ 2 ≤ blen r.text",
  "new": "if 2 ≤ blen r.text",
  "edit": "prefixed names are treated as full IRIs",
  "claim": "C60"
 },
 {
  "id": "m124",
  "file": "Features/UncompactedUri.lean",
  "def": "uncompactedUri",
  "old": "match selectQuery g with\n  | none => some []\n  | some sq =>",
  "new": "match some (Red.root g) with\n  | none => some []\n  | some sq =>",
  "edit": "the whole document is searched",
  "claim": "C60"
 },
 {
  "id": "m125",
  "file": "Features/DiagnosticHandler.lean",
  "def": "fixOf",
  "old": "d.code = .undeclaredPrefix ∧ env.addMissing = true then",
  "new": "d.code = .undeclaredPrefix ∧ env.removeUnused = true then",
  "edit": "wrong setting",
  "claim": "C61"
 },
 {
  "id": "m126",
  "file": "Features/DiagnosticHandler.lean",
  "def": "fixOf",
  "old": "d.code = .unusedPrefix ∧ env.removeUnused = true then",
  "new": "d.code = .duplicatePrefix ∧ env.removeUnused = true then",
  "edit": "duplicates instead of unused declarations are removed",
  "claim": "C61"
 },
 {
  "id": "m127",
  "file": "Features/DiagnosticHandler.lean",
  "def": "autoFix",
  "old": "if seen.contains p then autoFix env text g ds seen\n      else",
  "new": "if false then autoFix env text g ds seen\n      else",
  "edit": "no deduplication: a declaration is inserted per use",
  "claim": "C61"
 },
 {
  "id": "m128",
  "file": "Features/DiagnosticHandler.lean",
  "def": "diagnosticRequest",
  "old": "if env.workspaceEdits then",
  "new": "if !env.workspaceEdits then",
  "edit": "edits sent to clients without support",
  "claim": "C61"
 },
 {
  "id": "m129",
  "file": "Features/DiagnosticHandler.lean",
  "def": "allDiags",
  "old": "i.map .plain ++ j.map .plain)",
  "new": "i.map .plain)",
  "edit": "the reports of the last check are dropped",
  "claim": "C61"
 },
 {
  "id": "m130",
  "file": "Features/DiagnosticHandler.lean",
  "def": "diagnosticRequest",
  "old": "if g.kind = K.QueryUnit then",
  "new": "if g.kind = K.UpdateUnit then",
  "edit": "updates instead of queries",
  "claim": "C61"
 },
 {
  "id": "m131",
  "file": "Features/CodeAction.lean",
  "def": "filterOffset",
  "old": "  | some d => d.stop\n",
  "new": "  | some d => d.start\n",
  "edit": "the filter is put in front of the dot",
  "claim": "C62"
 },
 {
  "id": "m132",
  "file": "Features/CodeAction.lean",
  "def": "tripleOfVar",
  "old": "a.kind == K.TriplesSameSubjectPath",
  "new": "a.kind == K.TriplesBlock",
  "edit": "the block of triples is taken instead of the triple",
  "claim": "C62"
 },
 {
  "id": "m133",
  "file": "Features/CodeAction.lean",
  "def": "filterNew",
  "old": "[' ', 'F', 'I', 'L', 'T', 'E', 'R', ' ', '('] ++ v ++ [')']",
  "new": "[' ', 'F', 'I', 'L', 'T', 'E', 'R', ' ', '('] ++ v",
  "edit": "the closing parenthesis of the filter is forgotten",
  "claim": "C62"
 },
 {
  "id": "m134",
  "file": "Features/CodeAction.lean",
  "def": "langNew",
  "old": "[')', ' ', '=', ' ', '\"', 'e', 'n', '\"', ')']",
  "new": "[')', ' ', '=', ' ', '\"', 'e', 'n', '\"']",
  "edit": "the closing parenthesis of the language filter is forgotten",
  "claim": "C62"
 },
 {
  "id": "m135",
  "file": "Features/CodeAction.lean",
  "def": "laterSibling",
  "old": "(Format.younger r).find?",
  "new": "(Format.elder r).find?",
  "edit": "the dot is searched among the earlier siblings",
  "claim": "C62"
 },
 {
  "id": "m136",
  "file": "Features/CodeAction.lean",
  "def": "filterNew",
  "old": "[' ', 'F', 'I', 'L', 'T', 'E', 'R', ' ', '('] ++ v",
  "new": "['F', 'I', 'L', 'T', 'E', 'R', ' ', '('] ++ v",
  "edit": "no blank in front of FILTER",
  "claim": "C62"
 },
 {
  "id": "m137",
  "file": "Features/Projection.lean",
  "def": "resultQuery",
  "old": "(v.ancestors.drop 3).find?",
  "new": "(v.ancestors.drop 2).find?",
  "edit": "a variable of the head of a sub-select is added to the sub-select itself",
  "claim": "C63"
 },
 {
  "id": "m138",
  "file": "Features/Projection.lean",
  "def": "starEdit",
  "old": "⟨p.line, p.character - 1⟩",
  "new": "⟨p.line, p.character⟩",
  "edit": "the star is kept",
  "claim": "C63"
 },
 {
  "id": "m139",
  "file": "Features/Projection.lean",
  "def": "addEdit",
  "old": "then t ++ [' '] else ' ' :: t",
  "new": "then ' ' :: t else ' ' :: t",
  "edit": "the blank is put on the wrong side in front of an assignment",
  "claim": "C63"
 },
 {
  "id": "m140",
  "file": "Features/Projection.lean",
  "def": "mayAdd",
  "old": "     | some gc => (groupTexts gc).contains t)",
  "new": "     | some _ => true)",
  "edit": "the GROUP BY is not checked",
  "claim": "C63"
 },
 {
  "id": "m141",
  "file": "Features/Projection.lean",
  "def": "addOffset",
  "old": "  | some l => l.start",
  "new": "  | some l => l.stop",
  "edit": "the variable is put behind the parenthesis",
  "claim": "C63"
 },
 {
  "id": "m142",
  "file": "Features/Projection.lean",
  "def": "aggText",
  "old": "++ pre ++ varName v ++ [')']",
  "new": "++ pre ++ varName v",
  "edit": "the closing parenthesis of an aggregate is forgotten",
  "claim": "C63"
 },
 {
  "id": "m143",
  "file": "Features/Projection.lean",
  "def": "mayAdd",
  "old": "  !((selectedVars c).map Red.text).contains t &&",
  "new": "  ",
  "edit": "a variable that is selected is offered again",
  "claim": "C63"
 },
 {
  "id": "m144",
  "file": "Features/Projection.lean",
  "def": "addAggregates",
  "old": "else ⟨⟨p, p⟩, ' ' :: new⟩",
  "new": "else ⟨⟨p, p⟩, new⟩",
  "edit": "no blank in front of an aggregate",
  "claim": "C63"
 },
 {
  "id": "m145",
  "file": "Features/Projection.lean",
  "def": "aggTexts",
  "old": "aggText ['M', 'A', 'X'] ['m', 'a', 'x', '_'] v",
  "new": "aggText ['M', 'I', 'N'] ['m', 'a', 'x', '_'] v",
  "edit": "MAX computes MIN",
  "claim": "C63"
 },
 {
  "id": "m146",
  "file": "Features/SubSelect.lean",
  "def": "selection",
  "old": "if starSelection c then ['*'] else unwords ((projectedVars c).map Red.text)",
  "new": "if starSelection c then ['*'] else unwords (((projectedVars c).take 1).map Red.text)",
  "edit": "only the first variable is selected",
  "claim": "C64"
 },
 {
  "id": "m147",
  "file": "Features/SubSelect.lean",
  "def": "starSelection",
  "old": "match c.tokens.getLast? with\n  | none => false\n  | some t => t.kind == K.Star",
  "new": "match c.tokens.find? (fun t => t.kind == K.Star) with\n  | none => false\n  | some _ => true",
  "edit": "any star token, also the one of COUNT(*), counts as star selection",
  "claim": "C64"
 },
 {
  "id": "m148",
  "file": "Features/SubSelect.lean",
  "def": "unwords",
  "old": "w ++ ' ' :: unwords (v :: l)",
  "new": "w ++ unwords (v :: l)",
  "edit": "the variables are joined without blanks",
  "claim": "C64"
 },
 {
  "id": "m149",
  "file": "Features/SubSelect.lean",
  "def": "wrapPrefix",
  "old": "List.replicate indent ' ' ++ ['{', '\\n'] ++\n    List.replicate (2 * indent) ' '",
  "new": "List.replicate (2 * indent) ' '",
  "edit": "the inner brace is forgotten in front of the query",
  "claim": "C64"
 },
 {
  "id": "m150",
  "file": "Features/SubSelect.lean",
  "def": "wrapSuffix",
  "old": "['}', '\\n', '}']",
  "new": "['\\n', '}']",
  "edit": "the inner brace is forgotten behind the query",
  "claim": "C64"
 },
 {
  "id": "m151",
  "file": "Features/SubSelect.lean",
  "def": "breakEnds",
  "old": "if c = '\\n' then (o + u8 c) :: breakEnds",
  "new": "if c = '\\n' then o :: breakEnds",
  "edit": "blanks are put in front of the line breaks",
  "claim": "C64"
 },
 {
  "id": "m152",
  "file": "Features/SubSelect.lean",
  "def": "wrapEdits",
  "old": "(breakEnds c.start s.text)",
  "new": "(breakEnds 0 s.text)",
  "edit": "the line breaks are counted from the beginning of the document",
  "claim": "C64"
 },
 {
  "id": "m153",
  "file": "Features/SubSelect.lean",
  "def": "wrapEdits",
  "old": "insertion text s.stop (wrapSuffix indent)",
  "new": "insertion text c.stop (wrapSuffix indent)",
  "edit": "the braces are closed behind the head",
  "claim": "C64"
 },
 {
  "id": "m154",
  "file": "Features/SubSelect.lean",
  "def": "wrapTarget",
  "old": "match (Red.chain el.up)[1]? with",
  "new": "match (Red.chain el.up)[0]? with",
  "edit": "the parent instead of the grandparent is taken for a token",
  "claim": "C64"
 },
 {
  "id": "m155",
  "file": "Features/SubSelect.lean",
  "def": "selectAction",
  "old": "el.kind = K.SELECT ∨ el.kind = K.SubSelect",
  "new": "el.kind = K.SELECT",
  "edit": "sub-selects are forgotten",
  "claim": "C64"
 },
 {
  "id": "m156",
  "file": "Features/SubSelect.lean",
  "def": "wrapEdits",
  "old": "(List.replicate (2 * indent) ' ')) (breakEnds",
  "new": "(List.replicate indent ' ')) (breakEnds",
  "edit": "the lines are indented once only",
  "claim": "C64"
 },
 {
  "id": "m157",
  "file": "Features/SubSelect.lean",
  "def": "wrapTarget",
  "old": "if el.isNode then (if el.isSel then some el else none)",
  "new": "if el.isNode then (if el.kind == K.SelectQuery then some el else none)",
  "edit": "a sub-select is not cast",
  "claim": "C64"
 },
 {
  "id": "m158",
  "file": "Grammar/Residual.lean",
  "def": "expand",
  "old": "| .opt r => if k ∈ r.first then .to (r :: S) else .to S",
  "new": "| .opt r => .to (r :: S)",
  "edit": "an option is always entered",
  "claim": "C67"
 },
 {
  "id": "m159",
  "file": "Grammar/Residual.lean",
  "def": "expand",
  "old": ".to (r :: .rep r :: S) else .to S",
  "new": ".to (r :: S) else .to S",
  "edit": "a repetition runs once only",
  "claim": "C67"
 },
 {
  "id": "m160",
  "file": "Grammar/Residual.lean",
  "def": "expand",
  "old": "| .seq a b => .to (a :: b :: S)",
  "new": "| .seq a b => .to (b :: a :: S)",
  "edit": "the parts of a sequence are pushed in the wrong order",
  "claim": "C67"
 },
 {
  "id": "m161",
  "file": "Grammar/Residual.lean",
  "def": "expand",
  "old": "    else if a.nullable || b.nullable then .to S\n    else .fail",
  "new": "    else .fail",
  "edit": "a nullable alternative is not skipped",
  "claim": "C67"
 },
 {
  "id": "m162",
  "file": "Features/Continuations.lean",
  "def": "turn",
  "old": "if off ≤ c.start then collectRest w",
  "new": "if off < c.start then collectRest w",
  "edit": "a child that starts at the offset counts as being in front of it",
  "claim": "C67"
 },
 {
  "id": "m163",
  "file": "Features/Continuations.lean",
  "def": "flush",
  "old": "if r.nullable then flush S (result ++ r.first) else (result ++ r.first, false)",
  "new": "flush S (result ++ r.first)",
  "edit": "the rules behind one that is not nullable are collected too",
  "claim": "C67"
 },
 {
  "id": "m164",
  "file": "Features/Continuations.lean",
  "def": "flush",
  "old": "if r.nullable then flush S (result ++ r.first) else",
  "new": "if r.nullable then flush S result else",
  "edit": "the kinds of nullable rules are left out",
  "claim": "C67"
 },
 {
  "id": "m165",
  "file": "Features/Continuations.lean",
  "def": "collectRest",
  "old": "if (flush w.rules w.result).2 then goUp w.parent (flush w.rules w.result).1 else .done (some (flush w.rules w.result).1)",
  "new": ".done (some (flush w.rules w.result).1)",
  "edit": "the nodes around are not considered",
  "claim": "C67"
 },
 {
  "id": "m166",
  "file": "Features/Continuations.lean",
  "def": "turn",
  "old": "if kids.isEmpty && S.isEmpty then goUp w.parent w.result else .go",
  "new": "if S.isEmpty then .done (some w.result) else .go",
  "edit": "the search ends when the last rule is consumed",
  "claim": "C67"
 },
 {
  "id": "m167",
  "file": "Features/Continuations.lean",
  "def": "turn",
  "old": "else if triviaKind c.kind then .go { w with kids := kids }",
  "new": "else if c.kind == K.WHITESPACE then .go { w with kids := kids }",
  "edit": "comments are not skipped",
  "claim": "C67"
 },
 {
  "id": "m168",
  "file": "Features/Continuations.lean",
  "def": "goUp",
  "old": "| some q => enter q result",
  "new": "| some q => enter q []",
  "edit": "the kinds found so far are dropped when going up",
  "claim": "C67"
 },
 {
  "id": "m169",
  "file": "Features/Continuations.lean",
  "def": "begin",
  "old": "(fun t => (t, offset))",
  "new": "(fun t => (t, t.start))",
  "edit": "the search uses the start of the token",
  "claim": "C67"
 },
 {
  "id": "m170",
  "file": "Features/SearchTerm.lean",
  "def": "keptKinds",
  "old": "K.Zirkumflex, K.ANON, K.LParen",
  "new": "K.Zirkumflex, K.LParen",
  "edit": "ANON is missing in the kinds that are not skipped",
  "claim": "C66"
 },
 {
  "id": "m171",
  "file": "Features/SearchTerm.lean",
  "def": "anchorLoop",
  "old": "if t.kind == K.WHITESPACE || inError t then",
  "new": "if inError t then",
  "edit": "white space can be the anchor",
  "claim": "C66"
 },
 {
  "id": "m172",
  "file": "Features/SearchTerm.lean",
  "def": "anchorLoop",
  "old": "if t.kind == K.WHITESPACE || inError t then",
  "new": "if t.kind == K.WHITESPACE then",
  "edit": "a token of an error can be the anchor",
  "claim": "C66"
 },
 {
  "id": "m173",
  "file": "Features/SearchTerm.lean",
  "def": "anchorFrom",
  "old": "if t.kind ∈ keptKinds then anchorLoop (t :: rest) else anchorLoop rest",
  "new": "anchorLoop (t :: rest)",
  "edit": "the word being typed can be the anchor",
  "claim": "C66"
 },
 {
  "id": "m174",
  "file": "Features/SearchTerm.lean",
  "def": "termStart",
  "old": "| some a => if a.stop > off then off else a.stop",
  "new": "| some a => if a.start > off then off else a.start",
  "edit": "the term starts where the anchor starts",
  "claim": "C66"
 },
 {
  "id": "m175",
  "file": "Features/SearchTerm.lean",
  "def": "searchTerm",
  "old": "let t := s.dropWhile isWhite",
  "new": "let t := s",
  "edit": "white space in front of the term is kept",
  "claim": "C66"
 },
 {
  "id": "m176",
  "file": "Features/SearchTerm.lean",
  "def": "termRange",
  "old": "| some s => len16 s",
  "new": "| some s => s.length",
  "edit": "the range counts characters",
  "claim": "C66"
 },
 {
  "id": "m177",
  "file": "Features/SearchTerm.lean",
  "def": "termRange",
  "old": "| some s => len16 s",
  "new": "| some s => blen s",
  "edit": "the range counts bytes",
  "claim": "C66"
 },
 {
  "id": "m178",
  "file": "Features/SearchTerm.lean",
  "def": "selectRange",
  "old": "if selectBinding && a.kind == K.LParen then",
  "new": "if selectBinding then",
  "edit": "the range of a select binding starts at any anchor",
  "claim": "C66"
 },
 {
  "id": "m179",
  "file": "Features/SearchTerm.lean",
  "def": "triggerToken",
  "old": "if (Red.root g).stop ≤ off then (Red.root g).tokens.getLast?",
  "new": "if (Red.root g).stop < off then (Red.root g).tokens.getLast?",
  "edit": "the end of the text is looked up as an inner offset",
  "claim": "C66"
 },
 {
  "id": "m180",
  "file": "Features/QueryGraph.lean",
  "def": "adjacent",
  "old": "else if e.2 = u then some e.1 else none",
  "new": "else none",
  "edit": "edges go one way",
  "claim": "C65"
 },
 {
  "id": "m181",
  "file": "Features/QueryGraph.lean",
  "def": "graphEdges",
  "old": "(List.range' (u + 1) (ns.length - (u + 1)))",
  "new": "(List.range' (u + 1) (ns.length - (u + 2)))",
  "edit": "the last node is not compared",
  "claim": "C65"
 },
 {
  "id": "m182",
  "file": "Features/QueryGraph.lean",
  "def": "shareVar",
  "old": "a.vars.any (fun v => b.vars.contains v)",
  "new": "a.vars.all (fun v => b.vars.contains v)",
  "edit": "all variables have to be shared",
  "claim": "C65"
 },
 {
  "id": "m183",
  "file": "Features/Context.lean",
  "def": "eligible",
  "old": "decide (x.start < cutoff) && !hasErrorNode x",
  "new": "decide (x.start < cutoff)",
  "edit": "pieces with errors are taken",
  "claim": "C65"
 },
 {
  "id": "m184",
  "file": "Features/Context.lean",
  "def": "eligible",
  "old": "decide (x.start < cutoff) && !hasErrorNode x",
  "new": "decide (x.start ≤ cutoff) && !hasErrorNode x",
  "edit": "the trigger itself is taken as a piece",
  "claim": "C65"
 },
 {
  "id": "m185",
  "file": "Features/Context.lean",
  "def": "pieceStep",
  "old": "if x.kind = K.GroupOrUnionGraphPattern ∧ x.children.length = 1 then",
  "new": "if x.kind = K.GroupOrUnionGraphPattern then",
  "edit": "a union is taken apart",
  "claim": "C65"
 },
 {
  "id": "m186",
  "file": "Features/Context.lean",
  "def": "collectIn",
  "old": "some (groupPieces p cutoff ++ ls.flatten ++ selectPieces p)",
  "new": "some (groupPieces p cutoff ++ ls.flatten)",
  "edit": "sub-selects are left out",
  "claim": "C65"
 },
 {
  "id": "m187",
  "file": "Features/Context.lean",
  "def": "sortNodes",
  "old": "l.insertionSort (fun a b => a.start ≤ b.start)",
  "new": "l",
  "edit": "the pieces are not sorted",
  "claim": "C65"
 },
 {
  "id": "m188",
  "file": "Features/Context.lean",
  "def": "completionContext",
  "old": "| some v => computeContext o d [v]",
  "new": "| some _ => computeContext o d (shownVars d)",
  "edit": "all variables of the inline data are used",
  "claim": "C65"
 },
 {
  "id": "m189",
  "file": "Features/Location.lean",
  "def": "getLocation",
  "old": "    else if anyOf subjectKinds ks then .subject\n    else if anyOf objectKinds ks then\n",
  "new": "    else if anyOf modifierKinds ks then .modifier\n    else if anyOf subjectKinds ks then .subject\n    else if anyOf objectKinds ks then\n",
  "edit": "modifiers are asked for before subjects",
  "claim": "C69"
 },
 {
  "id": "m190",
  "file": "Features/Location.lean",
  "def": "slotLoop",
  "old": "if c.kind == K.LParen then 0 else",
  "new": "if c.kind == K.LParen then n else",
  "edit": "the values of former rows are counted",
  "claim": "C69"
 },
 {
  "id": "m191",
  "file": "Features/Location.lean",
  "def": "slotIndex",
  "old": "if inner.kind == K.InlineDataFull then",
  "new": "if inner.kind == K.InlineDataOneVar then",
  "edit": "the slot of a row is always the first",
  "claim": "C69"
 },
 {
  "id": "m192",
  "file": "Features/Location.lean",
  "def": "verbKinds",
  "old": "K.Path, K.VerbPath, K.VerbSimple, K.PathEltOrInverse, K.PathSequence, K.PathElt,\n    K.PathNegatedPropertySet, K.PathOneInPropertySet, K.PathAlternative]\n\n/-- The kinds of `// NOTE: Subject`",
  "new": "K.Path, K.VerbSimple, K.PathEltOrInverse, K.PathSequence, K.PathElt,\n    K.PathNegatedPropertySet, K.PathOneInPropertySet, K.PathAlternative]\n\n/-- The kinds of `// NOTE: Subject`",
  "edit": "VerbPath is missing from the kinds of predicates",
  "claim": "C69"
 },
 {
  "id": "m193",
  "file": "Features/Location.lean",
  "def": "innermost",
  "old": "(Red.chain a.up).find?",
  "new": "(Red.chain a.up).reverse.find?",
  "edit": "the outermost node is taken",
  "claim": "C69"
 },
 {
  "id": "m194",
  "file": "Features/Location.lean",
  "def": "bracketKinds",
  "old": "def bracketKinds : List Kind := [K.BlankNodePropertyListPath, K.BlankNodePropertyList, K.BlankNode]",
  "new": "def bracketKinds : List Kind := [K.BlankNodePropertyListPath, K.BlankNode]",
  "edit": "brackets of templates are no brackets",
  "claim": "C69"
 },
 {
  "id": "m195",
  "file": "Features/Location.lean",
  "def": "Conts",
  "old": "Continues g t.stop out ∧",
  "new": "Continues g t.start out ∧",
  "edit": "continuations are taken at the start of the token",
  "claim": "C69"
 },
 {
  "id": "m196",
  "file": "Features/Location.lean",
  "def": "getLocation",
  "old": "if a.kind == K.WHITESPACE && a.start == 0 then .start",
  "new": "if a.start == 0 then .start",
  "edit": "every anchor at the start of the text is taken for the start",
  "claim": "C69"
 },
 {
  "id": "m197",
  "file": "Grammar/Stmt.lean",
  "def": "PState.expect",
  "old": "| some (c, s) => if c = k then s.advance else .next (s.push (.error [k]))",
  "new": "| some (c, s) => if c = k then s.advance else if s.toks.tail.head? = some k then (s.push (.error [k])).advance else .next (s.push (.error [k]))",
  "edit": "a wrong token is skipped if the expected one is behind it",
  "claim": "C68"
 },
 {
  "id": "m198",
  "file": "Features/ObjectSuffix.lean",
  "def": "followedBySeparator",
  "old": " || t.kind == K.Comma",
  "new": "",
  "edit": "a comma is not a separator",
  "claim": "C70"
 },
 {
  "id": "m199",
  "file": "Features/ObjectSuffix.lean",
  "def": "followedBySeparator",
  "old": " || t.kind == K.Semicolon",
  "new": " || t.kind == K.RCurly",
  "edit": "a closing brace is taken for a separator instead of a semicolon",
  "claim": "C70"
 },
 {
  "id": "m200",
  "file": "Features/ObjectSuffix.lean",
  "def": "tokenAtRight",
  "old": "decide (off < t.stop)) with\n  | some t => some t",
  "new": "decide (off ≤ t.stop)) with\n  | some t => some t",
  "edit": "left biased: the token that ends at the cursor",
  "claim": "C70"
 },
 {
  "id": "m201",
  "file": "Features/ObjectSuffix.lean",
  "def": "followingToken",
  "old": "!triviaKind t.kind)",
  "new": "t.kind != K.WHITESPACE)",
  "edit": "comments are not skipped",
  "claim": "C70"
 },
 {
  "id": "m202",
  "file": "Features/ObjectSuffix.lean",
  "def": "followingToken",
  "old": "(s :: (Red.root g)",
  "new": "((Red.root g)",
  "edit": "the search begins behind the token at the cursor",
  "claim": "C70"
 },
 {
  "id": "m203",
  "file": "Features/ObjectSuffix.lean",
  "def": "suffixed",
  "old": "if separator then trimEnd t else",
  "new": "if !separator then trimEnd t else",
  "edit": "the cases are exchanged",
  "claim": "C70"
 },
 {
  "id": "m204",
  "file": "Features/ObjectSuffix.lean",
  "def": "suffixed",
  "old": "trimEnd t ++ [' ', '.', '\\n']",
  "new": "trimEnd t ++ [' ', ';', '\\n']",
  "edit": "a semicolon instead of a dot",
  "claim": "C70"
 },
 {
  "id": "m205",
  "file": "Features/ObjectSuffix.lean",
  "def": "suffixed",
  "old": "trimEnd t ++ [' ', '.', '\\n']",
  "new": "trimEnd t ++ ['.', '\\n']",
  "edit": "no space in front of the dot",
  "claim": "C70"
 },
 {
  "id": "m206",
  "file": "Features/ObjectSuffix.lean",
  "def": "suffixed",
  "old": "then trimEnd t",
  "new": "then t",
  "edit": "the trailing space is not removed in front of a separator",
  "claim": "C70"
 },
 {
  "id": "m207",
  "file": "Features/ObjectSuffix.lean",
  "def": "suffixIndent",
  "old": "braceDepth anchor * tab",
  "new": "(braceDepth anchor + 1) * tab",
  "edit": "one level too deep",
  "claim": "C70"
 },
 {
  "id": "m208",
  "file": "Features/ObjectSuffix.lean",
  "def": "objectSuffix",
  "old": "| .object _ =>",
  "new": "| .predicate _ =>",
  "edit": "predicates instead of objects",
  "claim": "C70"
 },
 {
  "id": "m209",
  "file": "Features/Semicolon.lean",
  "def": "semicolonOffer",
  "old": "match (triplesOf b).head? with",
  "new": "match (triplesOf b).getLast? with",
  "edit": "the last triple of the block instead of the first",
  "claim": "C71"
 },
 {
  "id": "m210",
  "file": "Features/Semicolon.lean",
  "def": "semicolonOffer",
  "old": "b.lastToken",
  "new": "some a",
  "edit": "the anchor instead of the last token of the block",
  "claim": "C71"
 },
 {
  "id": "m211",
  "file": "Features/Semicolon.lean",
  "def": "semicolonOffer",
  "old": "if d.kind = K.Dot then",
  "new": "if d.kind ≠ K.Semicolon then",
  "edit": "any token but a semicolon is replaced",
  "claim": "C71"
 },
 {
  "id": "m212",
  "file": "Features/Semicolon.lean",
  "def": "semicolonOffer",
  "old": "⟨s, d.start,",
  "new": "⟨s, d.stop,",
  "edit": "the replaced range begins behind the dot",
  "claim": "C71"
 },
 {
  "id": "m213",
  "file": "Features/Semicolon.lean",
  "def": "semicolonOffer",
  "old": "lineOffset v.start 0 g.text",
  "new": "lineOffset t.start 0 g.text",
  "edit": "indented like the subject, not like the verb",
  "claim": "C71"
 },
 {
  "id": "m214",
  "file": "Features/Semicolon.lean",
  "def": "semicolonOffer",
  "old": "if b.kind = K.TriplesBlock then",
  "new": "if b.kind = K.TriplesBlock ∨ b.kind = K.TriplesTemplate then",
  "edit": "also in templates",
  "claim": "C71"
 },
 {
  "id": "m215",
  "file": "Features/Semicolon.lean",
  "def": "semicolonOffer",
  "old": "  | .subject =>",
  "new": "  | .start =>",
  "edit": "another location",
  "claim": "C71"
 },
 {
  "id": "m216",
  "file": "Features/Semicolon.lean",
  "def": "lineOffset",
  "old": "if c = '\\n' then 0 else",
  "new": "if c = '\\n' then 1 else",
  "edit": "the line break is counted",
  "claim": "C71"
 },
 {
  "id": "m217",
  "file": "Features/Semicolon.lean",
  "def": "lineOffset",
  "old": "else acc + u8 c) cs",
  "new": "else acc + 1) cs",
  "edit": "characters instead of bytes",
  "claim": "C71"
 },
 {
  "id": "m218",
  "file": "Features/Semicolon.lean",
  "def": "itemValue",
  "old": "then trimBoth t else '?' :: trimBoth t",
  "new": "then t else '?' :: t",
  "edit": "the white space of the item is not removed",
  "claim": "C71"
 },
 {
  "id": "m219",
  "file": "Features/Semicolon.lean",
  "def": "semicolonItem",
  "old": "if itemValue t = o.subject then",
  "new": "if itemValue t ≠ o.subject then",
  "edit": "the item of another variable is changed",
  "claim": "C71"
 },
 {
  "id": "m220",
  "file": "Features/Semicolon.lean",
  "def": "semicolonItem",
  "old": "some (o.dot, replaceStop,",
  "new": "some (o.dot + 1, replaceStop,",
  "edit": "the dot stays",
  "claim": "C71"
 },
 {
  "id": "m221",
  "file": "Features/Semicolon.lean",
  "def": "semicolonItem",
  "old": "[';', '\\n'] ++",
  "new": "[',', '\\n'] ++",
  "edit": "a comma instead of a semicolon",
  "claim": "C71"
 },
 {
  "id": "m222",
  "file": "Features/ShortenAll.lean",
  "def": "findUncompactedIris",
  "old": "r.kind == K.iri && isUncompressed r",
  "new": "r.kind == K.iri",
  "edit": "prefixed names are taken for IRIs written in full",
  "claim": "C72"
 },
 {
  "id": "m223",
  "file": "Features/ShortenAll.lean",
  "def": "findUncompactedIris",
  "old": "(shortenScope g).descendants.filter",
  "new": "(shortenScope g).children.filter",
  "edit": "only the children are searched",
  "claim": "C72"
 },
 {
  "id": "m224",
  "file": "Features/ShortenAll.lean",
  "def": "findUncompactedIris",
  "old": "(shortenScope g).descendants.filter",
  "new": "(Red.root g).descendants.filter",
  "edit": "the whole document is searched, the VALUES clause too",
  "claim": "C72"
 },
 {
  "id": "m225",
  "file": "Features/ShortenAll.lean",
  "def": "findUncompactedIris",
  "old": "if g.kind = K.QueryUnit then",
  "new": "if g.kind ≠ K.QueryUnit then",
  "edit": "updates instead of queries",
  "claim": "C72"
 },
 {
  "id": "m226",
  "file": "Features/ShortenAll.lean",
  "def": "shortenScope",
  "old": "    | some n => n",
  "new": "    | some _ => p",
  "edit": "the prologue itself is searched",
  "claim": "C72"
 },
 {
  "id": "m227",
  "file": "Features/ShortenAll.lean",
  "def": "shortenScope",
  "old": "match Format.nextNode p with",
  "new": "match Format.prevNode p with",
  "edit": "the element in front of the prologue",
  "claim": "C72"
 },
 {
  "id": "m228",
  "file": "Features/ShortenAll.lean",
  "def": "rawUriPrefix",
  "old": "byteSlice t.text 1 (blen t.text - 1)",
  "new": "byteSlice t.text 0 (blen t.text - 1)",
  "edit": "the opening bracket is part of the namespace",
  "claim": "C72"
 },
 {
  "id": "m229",
  "file": "Features/ShortenAll.lean",
  "def": "rawUriPrefix",
  "old": "byteSlice t.text 1 (blen t.text - 1)",
  "new": "byteSlice t.text 1 (blen t.text)",
  "edit": "the closing bracket is part of the namespace",
  "claim": "C72"
 },
 {
  "id": "m230",
  "file": "Features/ShortenAll.lean",
  "def": "rawUriPrefix",
  "old": "if 2 ≤ blen t.text then",
  "new": "if 3 ≤ blen t.text then",
  "edit": "the empty namespace is overlooked",
  "claim": "C72"
 },
 {
  "id": "m231",
  "file": "Features/ShortenAll.lean",
  "def": "rawUriPrefix",
  "old": "c.kind == K.IRIREF)",
  "new": "c.kind == K.PNAME_NS)",
  "edit": "the label instead of the namespace",
  "claim": "C72"
 },
 {
  "id": "m232",
  "file": "Features/ShortenAll.lean",
  "def": "findPrefixDeclarations",
  "old": "if p.kind = K.Prologue then prefixDecls p else []",
  "new": "if p.kind = K.Prologue then p.children else []",
  "edit": "BASE and VERSION count as prefix declarations",
  "claim": "C72"
 },
 {
  "id": "m233",
  "file": "Features/ShortenAll.lean",
  "def": "findPrefixDeclarations",
  "old": "match q.firstChild with",
  "new": "match q.lastChild with",
  "edit": "the last child is taken for the prologue",
  "claim": "C72"
 },
 {
  "id": "m234",
  "file": "Features/ShortenAll.lean",
  "def": "declLine",
  "old": "[':', ' ', '<'] ++ ns",
  "new": "[' ', '<'] ++ ns",
  "edit": "no colon behind the label",
  "claim": "C72"
 },
 {
  "id": "m235",
  "file": "Features/ShortenAll.lean",
  "def": "declLine",
  "old": "['>', '\\n']",
  "new": "['>']",
  "edit": "no line break behind the declaration",
  "claim": "C72"
 },
 {
  "id": "m236",
  "file": "Features/ShortenAll.lean",
  "def": "shortenLoop",
  "old": "if seen.contains ns then (",
  "new": "if seen.contains p then (",
  "edit": "the label is looked up among the namespaces",
  "claim": "C72"
 },
 {
  "id": "m237",
  "file": "Features/ShortenAll.lean",
  "def": "shortenLoop",
  "old": "shortenLoop shorten text rs (ns :: seen)",
  "new": "shortenLoop shorten text rs seen",
  "edit": "the declared namespace is not remembered: declared twice",
  "claim": "C72"
 },
 {
  "id": "m238",
  "file": "Features/ShortenAll.lean",
  "def": "shortenLoop",
  "old": "| none => shortenLoop shorten text rs seen\n      | some (p, ns, curie)",
  "new": "| none => some []\n      | some (p, ns, curie)",
  "edit": "an IRI without a short form ends the search",
  "claim": "C72"
 },
 {
  "id": "m239",
  "file": "Features/ShortenAll.lean",
  "def": "shortenLoop",
  "old": "⟨range, curie⟩ :: ⟨docStart, declLine p ns⟩",
  "new": "⟨range, ns⟩ :: ⟨docStart, declLine p ns⟩",
  "edit": "the namespace in place of the IRI",
  "claim": "C72"
 },
 {
  "id": "m240",
  "file": "Features/ShortenAll.lean",
  "def": "shortenLoop",
  "old": "⟨docStart, declLine p ns⟩",
  "new": "⟨docStart, declLine ns p⟩",
  "edit": "label and namespace are swapped",
  "claim": "C72"
 },
 {
  "id": "m241",
  "file": "Features/ShortenAll.lean",
  "def": "shortenLoop",
  "old": "⟨docStart, declLine p ns⟩",
  "new": "⟨range, declLine p ns⟩",
  "edit": "the declaration is put in front of the IRI",
  "claim": "C72"
 },
 {
  "id": "m242",
  "file": "Features/ShortenAll.lean",
  "def": "shortenAll",
  "old": "(declared.filterMap id)",
  "new": "[]",
  "edit": "the declared namespaces are ignored",
  "claim": "C72"
 },
 {
  "id": "m243",
  "file": "Features/ShortenAll.lean",
  "def": "shortenAll",
  "old": "if irs.isEmpty then none",
  "new": "if es.isEmpty then none",
  "edit": "no action if nothing can be shortened",
  "claim": "C72"
 },
 {
  "id": "m244",
  "file": "Features/ShortenAll.lean",
  "def": "isUncompressed",
  "old": "| some c => c.kind == K.IRIREF",
  "new": "| some c => c.kind == K.PrefixedName",
  "edit": "prefixed names instead of IRIs written in full",
  "claim": "C72"
 },
 {
  "id": "m245",
  "file": "Features/Contract.lean",
  "def": "dropStart",
  "old": "if p.kind = K.WHITESPACE then p.start else t.start",
  "new": "if p.kind = K.WHITESPACE then t.start else p.start",
  "edit": "white space and other elements swapped",
  "claim": "C73"
 },
 {
  "id": "m246",
  "file": "Features/Contract.lean",
  "def": "dropStart",
  "old": "| some p => if p.kind = K.WHITESPACE then p.start else t.start",
  "new": "| some p => p.start",
  "edit": "the element in front is removed whatever it is",
  "claim": "C73"
 },
 {
  "id": "m247",
  "file": "Features/Contract.lean",
  "def": "dropStart",
  "old": "match Format.prevT b with",
  "new": "match Format.prevT t with",
  "edit": "the element in front of the triple instead of its block",
  "claim": "C73"
 },
 {
  "id": "m248",
  "file": "Features/Contract.lean",
  "def": "dropStop",
  "old": "| none => t.stop",
  "new": "| none => t.start",
  "edit": "without anything behind, only up to the start of the triple",
  "claim": "C73"
 },
 {
  "id": "m249",
  "file": "Features/Contract.lean",
  "def": "dropStop",
  "old": "s.kind == K.WHITESPACE || s.kind == K.Dot",
  "new": "s.kind == K.Comment || s.kind == K.Dot",
  "edit": "comments instead of white space",
  "claim": "C73"
 },
 {
  "id": "m250",
  "file": "Features/Contract.lean",
  "def": "dropStop",
  "old": "if m.kind = K.Dot then m.stop else n.stop",
  "new": "m.stop",
  "edit": "the element behind is removed whatever it is",
  "claim": "C73"
 },
 {
  "id": "m251",
  "file": "Features/Contract.lean",
  "def": "dropStop",
  "old": "if m.kind = K.Dot then m.stop else n.stop",
  "new": "if m.kind = K.Dot then n.stop else m.stop",
  "edit": "branches swapped",
  "claim": "C73"
 },
 {
  "id": "m252",
  "file": "Features/Contract.lean",
  "def": "dropEdit",
  "old": "dropStart t) (dropStop t) text).map (fun r => ⟨r, []⟩)",
  "new": "dropStart t) (dropStop t) text).map (fun r => ⟨r, [' ']⟩)",
  "edit": "a space is left",
  "claim": "C73"
 },
 {
  "id": "m253",
  "file": "Features/Contract.lean",
  "def": "dropEdit",
  "old": "(Range.fromByteOffsetRange (dropStart t) (dropStop t) text)",
  "new": "(Range.fromByteOffsetRange t.start t.stop text)",
  "edit": "only the triple is removed (still what the claim says about removal; the dot is left)",
  "claim": "C73"
 },
 {
  "id": "m254",
  "file": "Features/Contract.lean",
  "def": "contractColumn",
  "old": "match t.tokens.head? with",
  "new": "match t.tokens.getLast? with",
  "edit": "the last token instead of the first",
  "claim": "C73"
 },
 {
  "id": "m255",
  "file": "Features/Contract.lean",
  "def": "contractColumn",
  "old": "n + tab.getD 2)",
  "new": "n + tab.getD 4)",
  "edit": "another default for the indentation",
  "claim": "C73"
 },
 {
  "id": "m256",
  "file": "Features/Contract.lean",
  "def": "contractColumn",
  "old": "| none => 0 | some s => s.start)",
  "new": "| none => 0 | some s => s.stop)",
  "edit": "the end of the subject",
  "claim": "C73"
 },
 {
  "id": "m257",
  "file": "Features/Contract.lean",
  "def": "contractColumn",
  "old": "if align then",
  "new": "if !align then",
  "edit": "the setting inverted",
  "claim": "C73"
 },
 {
  "id": "m258",
  "file": "Features/Contract.lean",
  "def": "appendEdit",
  "old": "match fromByteIndex t.stop text with",
  "new": "match fromByteIndex t.start text with",
  "edit": "predicates are put in front of the triple",
  "claim": "C73"
 },
 {
  "id": "m259",
  "file": "Features/Contract.lean",
  "def": "appendEdit",
  "old": "some ⟨⟨pos, pos⟩, [' ', ';', '\\n']",
  "new": "some ⟨⟨pos, pos⟩, [' ', '.', '\\n']",
  "edit": "a dot instead of the semicolon",
  "claim": "C73"
 },
 {
  "id": "m260",
  "file": "Features/Contract.lean",
  "def": "appendEdit",
  "old": "rest.filterMap propertyList).map Red.text",
  "new": "rest.filterMap propertyList).reverse.map Red.text",
  "edit": "predicates in reverse order",
  "claim": "C73"
 },
 {
  "id": "m261",
  "file": "Features/Contract.lean",
  "def": "appendEdit",
  "old": "joinWith ([' ', ';', '\\n'] ++ List.replicate n ' ')",
  "new": "joinWith ([' ', ';', '\\n'])",
  "edit": "further lines are not indented",
  "claim": "C73"
 },
 {
  "id": "m262",
  "file": "Features/Contract.lean",
  "def": "contractTriples",
  "old": "match unwrapAll (dropEdit text) rest,",
  "new": "match unwrapAll (dropEdit text) ts,",
  "edit": "the first triple is removed too",
  "claim": "C73"
 },
 {
  "id": "m263",
  "file": "Features/Contract.lean",
  "def": "contractTriples",
  "old": "unwrapAll (dropEdit text) rest, appendEdit width text align tab t rest with",
  "new": "unwrapAll (dropEdit text) rest, appendEdit width text align tab t ts with",
  "edit": "the predicates of the first are repeated",
  "claim": "C73"
 },
 {
  "id": "m264",
  "file": "Features/Contract.lean",
  "def": "contractTriples",
  "old": "some (drops ++ [ins])",
  "new": "some (ins :: drops)",
  "edit": "the insertion first",
  "claim": "C73"
 },
 {
  "id": "m265",
  "file": "Features/Contract.lean",
  "def": "firstOfRange",
  "old": "if seen.contains e.range then firstOfRange es seen else e ::",
  "new": "if seen.contains e.range then e :: firstOfRange es seen else e ::",
  "edit": "duplicates are kept",
  "claim": "C73"
 },
 {
  "id": "m266",
  "file": "Features/Contract.lean",
  "def": "firstOfRange",
  "old": "firstOfRange es (e.range :: seen)",
  "new": "firstOfRange es [e.range]",
  "edit": "only the last range is remembered",
  "claim": "C73"
 },
 {
  "id": "m267",
  "file": "Features/Contract.lean",
  "def": "contractAll",
  "old": "if (firstOfRange ess.flatten []).isEmpty then none else some",
  "new": "if false then none else some",
  "edit": "the action is offered without edits",
  "claim": "C73"
 },
 {
  "id": "m268",
  "file": "Features/Contract.lean",
  "def": "contractAll",
  "old": "x.2) (tripleGroups g) with",
  "new": "x.2) ((tripleGroups g).take 1) with",
  "edit": "only the first group",
  "claim": "C73"
 },
 {
  "id": "m269",
  "file": "Features/Contract.lean",
  "def": "dropStop",
  "old": "match (Format.younger t).find? (fun s => s.kind == K.WHITESPACE || s.kind == K.Dot) with",
  "new": "match (Format.younger t).find? (fun s => s.kind == K.WHITESPACE) with",
  "edit": "only white space is looked for: the dot directly behind the triple is left",
  "claim": "C73"
 }
]