{
 "claims": [
  {
   "property": "C01",
   "status": "proved",
   "theorems": [
    "Gpeg.C01_new_has"
   ],
   "note": ""
  },
  {
   "property": "C02",
   "status": "proved",
   "theorems": [
    "Gpeg.C02_range_has"
   ],
   "note": ""
  },
  {
   "property": "C03",
   "status": "proved",
   "theorems": [
    "Gpeg.C03_algebra",
    "Gpeg.C03_involution"
   ],
   "note": ""
  },
  {
   "property": "C04",
   "status": "proved",
   "theorems": [
    "Gpeg.C04_size",
    "Gpeg.C04_small",
    "Gpeg.allBytes_complete"
   ],
   "note": ""
  },
  {
   "property": "C05",
   "status": "proved",
   "theorems": [
    "Gpeg.C05_ext"
   ],
   "note": ""
  },
  {
   "property": "C06",
   "status": "proved",
   "theorems": [
    "Gpeg.C06_input_is_flat_cursor"
   ],
   "note": ""
  },
  {
   "property": "C07",
   "status": "partial",
   "theorems": [
    "Gpeg.C07_false",
    "Gpeg.C07_false_zero",
    "Gpeg.C07_advance_partial"
   ],
   "note": "The full statement is false of the code: witnesses C07_false (chunk boundary) and C07_false_zero (Advance(0) at end)."
  },
  {
   "property": "C08",
   "status": "proved",
   "theorems": [
    "Gpeg.C08_furthest"
   ],
   "note": ""
  },
  {
   "property": "C09",
   "status": "proved",
   "theorems": [
    "Gpeg.C09_fromReader"
   ],
   "note": ""
  },
  {
   "property": "C14",
   "status": "proved",
   "theorems": [
    "Gpeg.C14_get_preserves_meaning",
    "Gpeg.C14_get_unbounded"
   ],
   "note": ""
  },
  {
   "property": "C10",
   "status": "proved",
   "theorems": [
    "Gpeg.C10_u8",
    "Gpeg.C10_i16",
    "Gpeg.C10_u24",
    "Gpeg.C10_instruction"
   ],
   "note": ""
  },
  {
   "property": "C11",
   "status": "proved",
   "theorems": [
    "Gpeg.C11_size",
    "Gpeg.C11_label"
   ],
   "note": ""
  },
  {
   "property": "C12",
   "status": "proved",
   "theorems": [
    "Gpeg.C12_bytecode_runs_program"
   ],
   "note": ""
  },
  {
   "property": "C13",
   "status": "proved",
   "theorems": [
    "Gpeg.C13_optimize_preserves",
    "Gpeg.C13_false_for_wide_any"
   ],
   "note": "Stated, as in the property list, for programs whose Any skips at most one byte; C13_false_for_wide_any shows the restriction is needed."
  },
  {
   "property": "C15",
   "status": "proved",
   "theorems": [
    "Gpeg.C15_exec_is_peg",
    "Gpeg.exec_evals",
    "Gpeg.ford_iff"
   ],
   "note": "C15_exec_is_peg is against the declarative relation Ford (patterns without errors and checkers); exec_evals covers all patterns against the evaluator."
  },
  {
   "property": "C16",
   "status": "proved",
   "theorems": [
    "Gpeg.C16_terminates_iff",
    "Gpeg.C16_terminates_iff_ford"
   ],
   "note": ""
  },
  {
   "property": "C17",
   "status": "proved",
   "theorems": [
    "Gpeg.C17_captures"
   ],
   "note": "Captures under dummies are flattened by Capture.treesL."
  },
  {
   "property": "C18",
   "status": "proved",
   "theorems": [
    "Gpeg.C18_no_panic"
   ],
   "note": ""
  },
  {
   "property": "C19",
   "status": "proved",
   "theorems": [
    "Gpeg.C19_errors",
    "Gpeg.C19_error_aborts"
   ],
   "note": ""
  },
  {
   "property": "C20",
   "status": "proved",
   "theorems": [
    "Gpeg.C20_check"
   ],
   "note": ""
  },
  {
   "property": "C21",
   "status": "proved",
   "theorems": [
    "Gpeg.C21_search_least",
    "Gpeg.C21_search_exec"
   ],
   "note": ""
  },
  {
   "property": "C24",
   "status": "partial",
   "theorems": [
    "Gpeg.C24_false",
    "Gpeg.C24_false_zero",
    "Gpeg.C24_false_chunk",
    "Gpeg.C24_any_partial"
   ],
   "note": "The full statement is false of the code (three witnesses); proved for n = 1."
  },
  {
   "property": "C25",
   "status": "partial",
   "theorems": [
    "Gpeg.C25_false_inline",
    "Gpeg.C25_false_search",
    "Gpeg.C25_false_notFound",
    "Gpeg.C25_scoped_partial"
   ],
   "note": "The full statement is false of the code (three witnesses); proved for grammars without captured non-terminals."
  },
  {
   "property": "C42",
   "status": "proved",
   "theorems": [
    "Gpeg.C42_interval"
   ],
   "note": ""
  },
  {
   "property": "C22",
   "status": "proved",
   "theorems": [
    "Gpeg.C22_order",
    "Gpeg.C22_inlining",
    "Gpeg.C22_inliner_meaning"
   ],
   "note": ""
  },
  {
   "property": "C26",
   "status": "partial",
   "theorems": [
    "Gpeg.C26_nested_partial",
    "Gpeg.C26_false"
   ],
   "note": "The full statement is false of the code for captures under And (witness C26_false); proved for all patterns without captures under And."
  },
  {
   "property": "C43",
   "status": "proved",
   "theorems": [
    "Gpeg.C43_concat",
    "Gpeg.C43_repeat",
    "Gpeg.C43_or",
    "Gpeg.C43_or_none",
    "Gpeg.C43_and_not_not"
   ],
   "note": "Or() matches the empty string."
  },
  {
   "property": "C35",
   "status": "proved",
   "theorems": [
    "Gpeg.C35_iterator",
    "Gpeg.C35_child",
    "Gpeg.C35_numChildren",
    "Gpeg.C35_no_dummy",
    "Gpeg.C35_trees"
   ],
   "note": ""
  },
  {
   "property": "C33",
   "status": "proved",
   "theorems": [
    "Gpeg.C33_put",
    "Gpeg.C33_get_after_put"
   ],
   "note": ""
  },
  {
   "property": "C34",
   "status": "proved",
   "theorems": [
    "Gpeg.IArray.C34_contents",
    "Gpeg.IArray.C34_size",
    "Gpeg.IArray.C34_findLargest",
    "Gpeg.IArray.C34_findLargest_none"
   ],
   "note": ""
  },
  {
   "property": "C29",
   "status": "partial",
   "theorems": [
    "Gpeg.LazyLog.C29_false",
    "Gpeg.LazyLog.C29_never_stale_partial"
   ],
   "note": "The full statement is false of the code (witness C29_false); proved for histories where all edits but the first keep or increase the length."
  },
  {
   "property": "C30",
   "status": "partial",
   "theorems": [
    "Gpeg.LazyLog.C30_false",
    "Gpeg.LazyLog.C30_keeps_partial"
   ],
   "note": "The full statement is false of the code (witness C30_false); proved as long as no edit removes an entry."
  },
  {
   "property": "C31",
   "status": "partial",
   "theorems": [
    "Gpeg.LazyLog.C31_false",
    "Gpeg.LazyLog.C31_search_tree_partial"
   ],
   "note": "The full statement is false of the code (witness C31_false: max too small); proved for histories where all edits but the first keep or increase the length."
  },
  {
   "property": "C32",
   "status": "partial",
   "theorems": [
    "Gpeg.LazyLog.C32_positions_partial"
   ],
   "note": "Proved for histories where all edits but the first keep or increase the length; positions of tree locations, captures are relative to them."
  },
  {
   "property": "C27",
   "status": "partial",
   "theorems": [
    "Gpeg.C27_memo_transparent_partial",
    "Gpeg.C27_position_false",
    "Gpeg.C27_same_id_false",
    "Gpeg.C27_errors_false"
   ],
   "note": "Proved for the model, in which capture lists are values; in the code lists of captures share storage (C44), which can break it. Needs memoized nodes with different ids or the same meaning, and no errors/checkers under Memo (witnesses for both); the position returned with a failed match is not transparent (witness)."
  },
  {
   "property": "C28",
   "status": "partial",
   "theorems": [
    "Gpeg.C28_reparse_partial",
    "Gpeg.C28_session_partial",
    "Gpeg.C28_json_memo_partial",
    "Gpeg.C28_java_memo_partial",
    "Gpeg.C28_false_any",
    "Gpeg.C28_false_twice",
    "Gpeg.C28_json_memo_false"
   ],
   "note": "The full statement is false of the code (witnesses for Any and for a second reparse); proved for one parse, any number of edits of which only the first shortens the text, and a reparse, when memoized parts have a dot only behind a lookahead that saw the byte. That covers the two grammar files with memoization braces. C28_session_partial: any number of parses and edits, when memoized parts moreover look at most two bytes beyond their end (json_memo.peg does not)."
  },
  {
   "property": "C36",
   "status": "proved",
   "theorems": [
    "Gpeg.Linerope.C36_edits"
   ],
   "note": "Every script of New/Insert/Remove/SplitAt/Join calls, any option values with SplitLen > 0. Byte slices and ropes are values: a client that keeps using a rope after SplitAt/Join shares nodes with the parts; not covered."
  },
  {
   "property": "C37",
   "status": "proved",
   "theorems": [
    "Gpeg.Linerope.C37_reads",
    "Gpeg.Linerope.C37_readerAt"
   ],
   "note": "Non-negative offsets."
  },
  {
   "property": "C38",
   "status": "proved",
   "theorems": [
    "Gpeg.Linerope.C38_lines",
    "Gpeg.Linerope.C38_multibyte_false"
   ],
   "note": "One-byte separators; witness that longer ones are miscounted."
  },
  {
   "property": "C39",
   "status": "proved",
   "theorems": [
    "Gpeg.Linerope.C39_line_col",
    "Gpeg.Linerope.C39_multibyte_false"
   ],
   "note": "One-byte separators; witness that longer ones give wrong offsets."
  },
  {
   "property": "C40",
   "status": "partial",
   "theorems": [
    "Gpeg.Linerope.C40_rebuild_destroys",
    "Gpeg.Linerope.C40_false",
    "Gpeg.Linerope.C40_partial"
   ],
   "note": "False of the code: Rebuild of any inner node panics or leaves a node without value. Only the cases where nothing happens preserve the text."
  },
  {
   "property": "C41",
   "status": "proved",
   "theorems": [
    "Gpeg.Linerope.C41_schedules",
    "Gpeg.Linerope.C41_no_race",
    "Gpeg.Linerope.C41_terminates"
   ],
   "note": "Interleaving semantics, one store per step."
  },
  {
   "property": "C48",
   "status": "proved",
   "theorems": [
    "Gpeg.Linerope.C48_sliceLC"
   ],
   "note": ""
  },
  {
   "property": "C49",
   "status": "proved",
   "theorems": [
    "Gpeg.Linerope.C49_writeTo",
    "Gpeg.Linerope.C49_copies"
   ],
   "note": ""
  },
  {
   "property": "C45",
   "status": "partial",
   "theorems": [
    "Gpeg.C45_exec_partial",
    "Gpeg.C45_exec_loopsOk_partial",
    "Gpeg.C45_match_partial",
    "Gpeg.C45_search_partial",
    "Gpeg.C45_false_lazy",
    "Gpeg.C45_false_fold",
    "Gpeg.C45_false_empty_class",
    "Gpeg.C45_false_latin1",
    "Gpeg.C45_false_any",
    "Gpeg.C45_false_boundary",
    "Gpeg.C45_false_loop"
   ],
   "note": "Proved against a backtracking (leftmost-first) reference for all ASCII texts and all expressions without reluctant operators, case folding, empty classes and empty loops; false of the code for each of the excluded features and for text beyond ASCII, with witnesses."
  },
  {
   "property": "C50",
   "status": "proved",
   "theorems": [
    "Gpeg.C50_verify",
    "Gpeg.C50_verifyCat",
    "Gpeg.C50_verifyAlt"
   ],
   "note": ""
  },
  {
   "property": "C46",
   "status": "partial",
   "theorems": [
    "Gpeg.Re.C46_char_partial",
    "Gpeg.Re.C46_octal_false",
    "Gpeg.Re.C46_char_complete"
   ],
   "note": "False of the code for octal escapes of 200 and above, which all denote 127 (C46_octal_false); proved for all other characters."
  },
  {
   "property": "C47",
   "status": "partial",
   "theorems": [
    "Gpeg.C47_json_partial",
    "Gpeg.C47_program_partial",
    "Gpeg.C47_json_false"
   ],
   "note": "JSON only, with a model of encoding/json for the type code. Complete for codes without checkers; false of the code for all others (C47_json_false). ToBytes/FromBytes (gob, gzip) are not modelled."
  },
  {
   "property": "C51",
   "status": "proved",
   "theorems": [
    "Gpeg.Re.C51_parse",
    "Gpeg.Re.C51_compile",
    "Gpeg.Re.C51_grammar",
    "Gpeg.Re.C51_grammar_compiles",
    "Gpeg.Re.C51_unambiguous",
    "Gpeg.Re.C51_brace_nil",
    "Gpeg.Re.C51_empty_class_nil"
   ],
   "note": "Texts of the syntax without single braces and empty classes, for which re.Compile returns a nil pattern (the two last theorems)."
  },
  {
   "property": "C52",
   "status": "proved",
   "theorems": [
    "Gpeg.C52_compile_ends",
    "Gpeg.C52_closed_compiles",
    "Gpeg.C52_encodes",
    "Gpeg.C52_closed_encodes",
    "Gpeg.C52_start_needed"
   ],
   "note": ""
  },
  {
   "property": "C44",
   "status": "partial",
   "theorems": [
    "Gpeg.Slice.C44_false",
    "Gpeg.Slice.C44_cyclic",
    "Gpeg.Slice.C44_no_table",
    "Gpeg.Slice.C44_clipped_partial",
    "Gpeg.Slice.C44_clipped_transparent_partial"
   ],
   "note": "False of the code: kernel-checked witness of a capture overwritten through a shared slice, and of a capture that becomes its own descendant. Proved for every bytecode, growth policy and input: without a table, slices behave like lists; with a table they would if addCapt stored capt[:len:len]."
  },
  {
   "property": "C23",
   "status": "partial",
   "theorems": [
    "Gpeg.C23_tail_calls_partial",
    "Gpeg.C23_tail_calls_memo_partial",
    "Gpeg.C23_false_program"
   ],
   "note": "Proved for every program compiled from a pattern within the hypotheses of C15 (with and without memo tables): compiled with and without the replacement, it gives the same results. False of arbitrary programs (witness: a procedure that pops its caller's entry)."
  },
  {
   "property": "C53",
   "status": "partial",
   "theorems": [
    "Gpeg.Lazy.C53_false",
    "Gpeg.Lazy.C53_finds_partial",
    "Gpeg.Lazy.C53_positions_partial",
    "Gpeg.Lazy.C53_overlaps_partial",
    "Gpeg.Lazy.C53_array_partial",
    "Gpeg.Lazy.C53_size_false"
   ],
   "note": "False of the code when an edit makes the text shorter (witness C53_false); proved for all histories whose edits keep or increase the length. Size counts keys, not intervals (C53_size_false)."
  },
  {
   "property": "C54",
   "status": "proved",
   "theorems": [
    "Gpeg.C54_map",
    "Gpeg.C54_backref",
    "Gpeg.C54_undefined",
    "Gpeg.C54_delimited",
    "Gpeg.C54_abandoned_false",
    "Gpeg.C54_rerun_false",
    "Gpeg.C54_memo_false"
   ],
   "note": "The positive claims are proved; the last three theorems are counterexamples to natural expectations about BackReference."
  },
  {
   "property": "C55",
   "status": "proved",
   "theorems": [
    "Gpeg.C55_stops",
    "Gpeg.C55_stops_memo",
    "Gpeg.C55_stops_reparse",
    "Gpeg.C55_total",
    "Gpeg.C55_re_stops",
    "Gpeg.C55_empty_loop",
    "Gpeg.C55_left_recursion"
   ],
   "note": "Well-formedness is sufficient, not necessary; the two last theorems show that the two conditions cannot be dropped. The memo versions have the hypotheses of C27 and C28."
  },
  {
   "property": "C56",
   "status": "proved",
   "theorems": [
    "Gpeg.Re.C56_parse",
    "Gpeg.Re.C56_compile",
    "Gpeg.Re.C56_not_syntax"
   ],
   "note": "Converse of C51. Hypotheses LowOctal and Lines set aside two kinds of texts which the parser takes although the syntax of ReSpec.lean has no reading for them."
  },
  {
   "property": "C57",
   "status": "proved",
   "theorems": [
    "Gpeg.LazyLog.C57_balanced",
    "Gpeg.LazyLog.C57_lookup",
    "Gpeg.LazyLog.C57_remove",
    "Gpeg.LazyLog.C57_false",
    "Gpeg.Lazy.C57_lazy_balanced",
    "Gpeg.Lazy.C57_lazy_lookup",
    "Gpeg.Lazy.C57_lazy_remove",
    "Gpeg.Lazy.C57_lazy_false"
   ],
   "note": "Proved for all histories whose edits drop no node (the size is the same before and after each edit); false of the code otherwise (witnesses C57_false, C57_lazy_false: a path of six nodes is left of 63)."
  },
  {
   "property": "C58",
   "status": "proved",
   "theorems": [
    "Gpeg.Re.C58_arith",
    "Gpeg.Re.C58_json",
    "Gpeg.Re.C58_json_memo",
    "Gpeg.Re.C58_peg",
    "Gpeg.Re.C58_lpeg",
    "Gpeg.Re.C58_re",
    "Gpeg.Re.C58_c",
    "Gpeg.Re.C58_java",
    "Gpeg.Re.C58_java_memo"
   ],
   "note": "The texts of the files are copied into the model. Reads: re.Compile as the first call that numbers memoized patterns."
  },
  {
   "property": "C59",
   "status": "proved",
   "theorems": [
    "Gpeg.C59_arith"
   ],
   "note": ""
  },
  {
   "property": "C60",
   "status": "partial",
   "theorems": [
    "Gpeg.C60_json",
    "Gpeg.C60_rfc_partial",
    "Gpeg.C60_escapes_false",
    "Gpeg.C60_slash_false",
    "Gpeg.C60_brace_false",
    "Gpeg.C60_blank_false"
   ],
   "note": "The exact language accepted is proved (C60_json); it is not RFC 8259 (four witnesses), but agrees with it on texts without backslashes, vertical tabulators and form feeds (C60_rfc_partial)."
  },
  {
   "property": "C61",
   "status": "proved",
   "theorems": [
    "Gpeg.C61_unmemo",
    "Gpeg.C61_braces",
    "Gpeg.C61_json_memo",
    "Gpeg.C61_java_memo"
   ],
   "note": "For single-byte Any nodes, closed scopes and pure memoized parts as in C27 (all satisfied by everything the re syntax can write). Capture lists are compared as values."
  },
  {
   "property": "C62",
   "status": "partial",
   "theorems": [
    "Gpeg.C62_re_false",
    "Gpeg.C62_lpeg_false",
    "Gpeg.C62_re_dead",
    "Gpeg.C62_lpeg_dead",
    "Gpeg.C62_re_partial",
    "Gpeg.C62_spacing_false",
    "Gpeg.C62_memo_closed"
   ],
   "note": "False of the two files: no text with definitions is accepted, because the alternative for grammars is never tried (proved for all texts). What re.peg accepts is proved for all texts in which a # behind [^ has a line end behind it (C62_re_partial); lpeg.peg is not characterised. re.peg refuses spacing behind / ( ) and {+a+} (C62_spacing_false, C62_memo_closed)."
  },
  {
   "property": "C63",
   "status": "partial",
   "theorems": [
    "Gpeg.C63_sound_partial",
    "Gpeg.C63_bare_partial",
    "Gpeg.C63_cleared_partial",
    "Gpeg.C63_false",
    "Gpeg.C63_exec_false",
    "Gpeg.C63_more_false"
   ],
   "note": "False of the code (witness with an empty table, and two with tables used by both Exec and ExecInterval). Proved: flag, end, errors and checker state are those without a table, all captures found are captures of the text, and captures are exactly right when memoized parts capture nothing."
  },
  {
   "property": "C64",
   "status": "proved",
   "theorems": [
    "Gpeg.C64_string",
    "Gpeg.C64_unique",
    "Gpeg.C64_injective"
   ],
   "note": "strconv.QuoteRuneToASCII of the Go library is modelled for bytes."
  },
  {
   "property": "C65",
   "status": "partial",
   "theorems": [
    "Gpeg.Obj.C65_objects_partial",
    "Gpeg.Obj.C65_session_partial",
    "Gpeg.Obj.C65_unshared_partial",
    "Gpeg.Obj.C65_reparse_partial",
    "Gpeg.Obj.C65_first_partial",
    "Gpeg.Obj.C65_first_reparse_partial",
    "Gpeg.Obj.C65_lookahead_partial",
    "Gpeg.Obj.C65_json_memo_partial",
    "Gpeg.Obj.C65_java_memo_partial",
    "Gpeg.Obj.C65_false",
    "Gpeg.Obj.C65_first_false"
   ],
   "note": "False of the code (C65_false; after one edit C65_first_false); proved for sessions whose edits are Tight, for every session when the bytecode has a certificate that memoized parts are not nested, and for the first reparse of every pattern without positive lookahead."
  },
  {
   "property": "C66",
   "status": "partial",
   "theorems": [
    "Gpeg.LazyLog.C66_all_live_partial",
    "Gpeg.LazyLog.C66_all_values_partial",
    "Gpeg.LazyLog.C66_all_false",
    "Gpeg.LazyLog.C66_size_partial",
    "Gpeg.LazyLog.C66_size_false"
   ],
   "note": "False of the code: an edit that removes an entry can lose others (witness C66_all_false). Proved: only live values and none twice for the histories of C29, exactly the live values and Size = number of keys for the histories of C30. The comment of Size, which says number of intervals, is wrong (C66_size_false)."
  },
  {
   "property": "C67",
   "status": "proved",
   "theorems": [
    "Gpeg.Linerope.C67_each"
   ],
   "note": ""
  },
  {
   "property": "C69",
   "status": "partial",
   "theorems": [
    "Gpeg.Linerope.C69_script",
    "Gpeg.Linerope.C69_snapshot_new",
    "Gpeg.Linerope.C69_snapshot_partial",
    "Gpeg.Linerope.C69_snapshot_false",
    "Gpeg.Linerope.C69_self_insert_false",
    "Gpeg.Linerope.C69_split_false"
   ],
   "note": "Contents of ropes and buffers for all scripts: proved. Slices handed out stay unchanged only if they are not part of a leaf with room; otherwise false (witness), as is inserting a slice of the rope into itself and editing a rope after SplitAt. Ropes that share nodes are not modelled."
  },
  {
   "property": "C68",
   "status": "proved",
   "theorems": [
    "Gpeg.Linerope.C68_single_edits"
   ],
   "note": ""
  },
  {
   "property": "C70",
   "status": "partial",
   "theorems": [
    "Gpeg.C70_unshared_partial",
    "Gpeg.C70_false"
   ],
   "note": "False of the code when two grammars share a non-terminal object (witness). Proved for all sequences of Compile calls where different grammars have different objects; rules have no grammars inside."
  },
  {
   "property": "C71",
   "status": "partial",
   "theorems": [
    "Gpeg.C71_shared_table_partial",
    "Gpeg.C71_alone"
   ],
   "note": "Under the hypotheses of C27, for runs that stop without a table (C55 gives this for well-formed patterns), and for captures as values: what the code does to capture objects and slices of captures outside of the mutex (C44, C65) is not modelled. Edits and ExecInterval during the parses are excluded."
  },
  {
   "property": "C72",
   "status": "partial",
   "theorems": [
    "Gpeg.C72_counter",
    "Gpeg.C72_supply",
    "Gpeg.C72_serial_partial",
    "Gpeg.C72_false"
   ],
   "note": "C72_counter and C72_supply are complete. Goroutines: calls of NewLabel that do not overlap, with a sequentially consistent counter; for overlapping calls the property is false (C72_false). The counter memoId is given: other goroutines do not compile or build memoized patterns meanwhile."
  },
  {
   "property": "C73",
   "status": "partial",
   "theorems": [
    "Gpeg.C73_ids",
    "Gpeg.C73_shared_partial",
    "Gpeg.C73_false"
   ],
   "note": "C73_ids is complete. Several programs: each node of a pattern is used once, patterns have no errors or checkers, and no Memo call gets an id that a compilation took; for those the property is false (C73_false)."
  },
  {
   "property": "C74",
   "status": "partial",
   "theorems": [
    "Gpeg.C74_once_partial",
    "Gpeg.C74_count_partial",
    "Gpeg.C74_total_partial",
    "Gpeg.C74_exec_partial",
    "Gpeg.C74_false"
   ],
   "note": "For the patterns of C27 (memoized parts call no checker and report no error) and for memoized patterns other than repetitions, whose chain of partial results is looked up by a different rule. Without the exception for results that are not kept the property is false (C74_false)."
  },
  {
   "property": "C75",
   "status": "partial",
   "theorems": [
    "Gpeg.C75_found_partial",
    "Gpeg.C75_reparse_partial",
    "Gpeg.C75_false"
   ],
   "note": "False of the code when an edit touches something that is kept (C75_false). Proved for everything in front of what edits have touched (so for everything when they touch nothing kept), for any clients of the table and for a parse, an edit and a parse with any bytecode; all edits but the first keep or increase the length."
  },
  {
   "property": "C76",
   "status": "partial",
   "theorems": [
    "Gpeg.Re.C76_text_partial",
    "Gpeg.Re.C76_compile_partial",
    "Gpeg.Re.C76_grammar_partial",
    "Gpeg.Re.C76_grammar_false",
    "Gpeg.Re.C76_class_false",
    "Gpeg.Re.C76_false"
   ],
   "note": "False of the code for grammars, classes, captures, stacked operators and other patterns (C76_grammar_false, C76_class_false, C76_false). Proved for all other patterns, as far as their literals are printable ASCII, and for the definitions of a grammar below the first line."
  },
  {
   "property": "C77",
   "status": "partial",
   "theorems": [
    "Gpeg.C77_tokens",
    "Gpeg.C77_reparse_partial",
    "Gpeg.C77_false"
   ],
   "note": "Proved for all texts without a table and with tables of parses of the text, and for the first reparse. False of the code for later reparses (C77_false)."
  },
  {
   "property": "C78",
   "status": "proved",
   "theorems": [
    "Gpeg.C78_peg"
   ],
   "note": "For all texts."
  },
  {
   "property": "C79",
   "status": "partial",
   "theorems": [
    "Gpeg.C79_peg_re_partial",
    "Gpeg.C79_re_peg",
    "Gpeg.C79_self",
    "Gpeg.C79_files",
    "Gpeg.C79_files_false"
   ],
   "note": "From the file to re: for texts without octal escapes of 200 and above, [] and [^. From re to the file: for all grammars without the additions of re."
  },
  {
   "property": "C80",
   "status": "partial",
   "theorems": [
    "Gpeg.C80_session_partial",
    "Gpeg.C80_first",
    "Gpeg.C80_panic_false",
    "Gpeg.C80_false"
   ],
   "note": "For sessions whose parses return the tokens of the text; C80_first: so for the first edit, and for the second if every iteration made one. False of the code afterwards (C80_false), and the function panics on texts without newline (C80_panic_false)."
  },
  {
   "property": "C81",
   "status": "partial",
   "theorems": [
    "Gpeg.C81_listing_partial",
    "Gpeg.C81_false"
   ],
   "note": "For programs without checkers, unresolved calls and assertions with several conditions; false of the code for CheckBegin and for such assertions (C81_false)."
  },
  {
   "property": "C82",
   "status": "partial",
   "theorems": [
    "Gpeg.LazyLog.C82_threshold_partial",
    "Gpeg.LazyLog.C82_repaired",
    "Gpeg.LazyLog.C82_false"
   ],
   "note": "False of the code (C82_false: remove loses intervals); proved for the code when no edit meets a live interval, and for all histories with one line of remove repaired."
  },
  {
   "property": "C83",
   "status": "partial",
   "theorems": [
    "Gpeg.LazyLog.C83_lazy_partial",
    "Gpeg.LazyLog.C83_answers_partial",
    "Gpeg.LazyLog.C83_repaired",
    "Gpeg.LazyLog.C83_pos_false"
   ],
   "note": "False of the code (C83_pos_false, C29_false); proved for histories without Pos whose edits meet no live interval, and for all histories without Pos with one line of remove repaired."
  },
  {
   "property": "C84",
   "status": "proved",
   "theorems": [
    "Gpeg.C84_string",
    "Gpeg.C84_prefix",
    "Gpeg.C84_false"
   ],
   "note": "C84_false: the text does not tell the children a client sees, because of dummies."
  },
  {
   "property": "C85",
   "status": "proved",
   "theorems": [
    "Gpeg.C85_sweep",
    "Gpeg.C85_size",
    "Gpeg.C85_same"
   ],
   "note": ""
  },
  {
   "property": "C86",
   "status": "partial",
   "theorems": [
    "Gpeg.C86_eager_partial",
    "Gpeg.C86_lazy_partial",
    "Gpeg.C86_misses_partial",
    "Gpeg.C86_pos_false"
   ],
   "note": "For memoized parts as in C28. False of the code as it is (C86_pos_false)."
  },
  {
   "property": "C87",
   "status": "partial",
   "theorems": [
    "Gpeg.C87_gpeg",
    "Gpeg.C87_regexp_partial",
    "Gpeg.C87_code_partial",
    "Gpeg.C87_language_partial"
   ],
   "note": "C87_gpeg: texts that are accepted though not in the syntax are left out, as in C56; the statements about any two patterns leave out checkers and assertions with several conditions, whose listings do not tell them (C81_false)"
  }
 ]
}