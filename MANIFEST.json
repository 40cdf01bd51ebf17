{
 "claims": [
  {
   "property": "C01",
   "status": "proved",
   "theorems": [
    "Lexertl.Props.C01_longest_match_earliest_rule",
    "Lexertl.Props.C01_lookup_total"
   ],
   "note": "All character widths (code points: charsets whose ranges are faithful, see C33), id types with npos >= 263, fewer byte charsets per lexer state than npos - 2."
  },
  {
   "property": "C02",
   "status": "proved",
   "theorems": [
    "Lexertl.Props.C02_no_match_reported",
    "Lexertl.Props.C02_reported_only_if_no_match"
   ],
   "note": "Same fragment as C01; the converse holds with skip/continue/push/pop rules."
  },
  {
   "property": "C03",
   "status": "proved",
   "theorems": [
    "Lexertl.Props.C03_insert_range_is_union",
    "Lexertl.Props.C03_insert_token_is_union",
    "Lexertl.Props.C03_constructors"
   ],
   "note": ""
  },
  {
   "property": "C04",
   "status": "proved",
   "theorems": [
    "Lexertl.Props.C04_negate_is_complement",
    "Lexertl.Props.C04_negate_involutive",
    "Lexertl.Props.C04_any_iff_full"
   ],
   "note": ""
  },
  {
   "property": "C05",
   "status": "proved",
   "theorems": [
    "Lexertl.Props.C05_intersect_splits"
   ],
   "note": ""
  },
  {
   "property": "C06",
   "status": "proved",
   "theorems": [
    "Lexertl.Props.C06_remove_is_difference"
   ],
   "note": ""
  },
  {
   "property": "C07",
   "status": "proved",
   "theorems": [
    "Lexertl.Props.C07_built_wellformed",
    "Lexertl.Props.C07_equality_is_set_equality"
   ],
   "note": ""
  },
  {
   "property": "C08",
   "status": "proved",
   "theorems": [
    "Lexertl.Props.C08_alphabet_partition_exact"
   ],
   "note": ""
  },
  {
   "property": "C09",
   "status": "proved",
   "theorems": [
    "Lexertl.Props.C09_transition_sets"
   ],
   "note": "For every node store and every list of positions that are end nodes or leaves with meaningful charsets."
  },
  {
   "property": "C10",
   "status": "proved",
   "theorems": [
    "Lexertl.Props.C10_repetition"
   ],
   "note": ""
  },
  {
   "property": "C11",
   "status": "proved",
   "theorems": [
    "Lexertl.Props.C11_copy"
   ],
   "note": "For every tree the parser builds from a regex over charsets of any character width (node::copy is only ever applied to such trees)."
  },
  {
   "property": "C12",
   "status": "proved",
   "theorems": [
    "Lexertl.Props.C12_grammar_decides_matches",
    "Lexertl.Props.C12_grammar_unambiguous"
   ],
   "note": "Stated through what the built lexer matches; for every character type; greedy, anchor-free regexes."
  },
  {
   "property": "C13",
   "status": "proved",
   "theorems": [
    "Lexertl.Props.C13_address_independent",
    "Lexertl.Props.C13_build_terminates",
    "Lexertl.Props.C13_texts_terminate",
    "Lexertl.Props.C13_build_defined_partial",
    "Lexertl.Props.C13_build_terminates_partial"
   ],
   "note": "Address independence for all rule sets; termination for all rule sets the tokeniser can produce. The _partial theorems add that there is no undefined behaviour, for the rule sets of C43 and C35."
  },
  {
   "property": "C14",
   "status": "proved",
   "theorems": [
    "Lexertl.Props.C14_built_tables",
    "Lexertl.Props.C14_call_safe",
    "Lexertl.Props.C14_calls_ready",
    "Lexertl.Props.C14_built_lexing_safe",
    "Lexertl.Props.C14_scan_bound_exact",
    "Lexertl.Props.C14_pop_needs_recursive"
   ],
   "note": "For every rule set the parser accepts: lazy, anchored and compressed ones too."
  },
  {
   "property": "C15",
   "status": "proved",
   "theorems": [
    "Lexertl.Props.C15_tokens_in_order",
    "Lexertl.Props.C15_token_shape",
    "Lexertl.Props.C15_tokens_tile_input",
    "Lexertl.Props.C15_all_input_covered",
    "Lexertl.Props.C15_continued_text_dropped"
   ],
   "note": "For every table. C15_continued_text_dropped is a concrete lexer where text matched by a continue rule belongs to no token."
  },
  {
   "property": "C16",
   "status": "proved",
   "theorems": [
    "Lexertl.Props.C16_lookup_terminates",
    "Lexertl.Props.C16_lookup_progresses",
    "Lexertl.Props.C16_reports_end",
    "Lexertl.Props.C16_number_of_calls",
    "Lexertl.Props.C16_start_rows",
    "Lexertl.Props.C16_tables_terminate"
   ],
   "note": "For every table; C16_start_rows gives a condition on tables that excludes empty matches."
  },
  {
   "property": "C17",
   "status": "proved",
   "theorems": [
    "Lexertl.Props.C17_empty_skip_never_returns"
   ],
   "note": ""
  },
  {
   "property": "C18",
   "status": "proved",
   "theorems": [
    "Lexertl.Props.C18_skip_never_returned",
    "Lexertl.Props.C18_skip_is_invisible",
    "Lexertl.Props.C18_continue_extends"
   ],
   "note": ""
  },
  {
   "property": "C19",
   "status": "proved",
   "theorems": [
    "Lexertl.Props.C19_push",
    "Lexertl.Props.C19_pop",
    "Lexertl.Props.C19_underflow",
    "Lexertl.Props.C19_history",
    "Lexertl.Props.C19_pop_matches_push"
   ],
   "note": ""
  },
  {
   "property": "C20",
   "status": "proved",
   "theorems": [
    "Lexertl.Props.C20_minimise_ends",
    "Lexertl.Props.C20_minimise_same",
    "Lexertl.Props.C20_minimise_same_calls",
    "Lexertl.Props.C20_minimise_built"
   ],
   "note": "For every well-formed table, hence (C14) every built one."
  },
  {
   "property": "C21",
   "status": "partial",
   "theorems": [
    "Lexertl.Props.C21_minimise_partial",
    "Lexertl.Props.C21_minimise_erases",
    "Lexertl.Props.C21_merges_tokens"
   ],
   "note": "Every char machine whose states exist: terminates, leaves no equal states, transitions, end flags, user ids and next states are kept. The code loses ids and stack operations as soon as two states are equal, which is proved too."
  },
  {
   "property": "C22",
   "status": "proved",
   "theorems": [
    "Lexertl.Props.C22_round_trip",
    "Lexertl.Props.C22_same_tables",
    "Lexertl.Props.C22_wrong_sizes",
    "Lexertl.Props.C22_truncated",
    "Lexertl.Props.C22_byte_ids"
   ],
   "note": "Id types of 2 to 8 bytes. C22_byte_ids: it fails for one byte ids. C22_truncated: an incomplete text is not noticed."
  },
  {
   "property": "C23",
   "status": "proved",
   "theorems": [
    "Lexertl.Props.C23_encode",
    "Lexertl.Props.C23_decode",
    "Lexertl.Props.C23_decode_exact",
    "Lexertl.Props.C23_round_trip",
    "Lexertl.Props.C23_overlong",
    "Lexertl.Props.C23_surrogates"
   ],
   "note": "All code points up to 10FFFF. The last two record that the decoder is laxer than the standard."
  },
  {
   "property": "C24",
   "status": "proved",
   "theorems": [
    "Lexertl.Props.C24_encode",
    "Lexertl.Props.C24_decode",
    "Lexertl.Props.C24_decode_exact",
    "Lexertl.Props.C24_round_trip",
    "Lexertl.Props.C24_surrogates"
   ],
   "note": "All Unicode scalar values; C24_surrogates: surrogate code points are written but not read back."
  },
  {
   "property": "C25",
   "status": "proved",
   "theorems": [
    "Lexertl.Props.C25_utf8_safe",
    "Lexertl.Props.C25_utf16_safe",
    "Lexertl.Props.C25_utf8_ends",
    "Lexertl.Props.C25_utf16_ends"
   ],
   "note": "Every input, also after exceptions."
  },
  {
   "property": "C26",
   "status": "proved",
   "theorems": [
    "Lexertl.Props.C26_reverses",
    "Lexertl.Props.C26_involution"
   ],
   "note": "Every value width."
  },
  {
   "property": "C27",
   "status": "proved",
   "theorems": [
    "Lexertl.Props.C27_replaces",
    "Lexertl.Props.C27_empty_map",
    "Lexertl.Props.C27_returns",
    "Lexertl.Props.C27_other_eoi_never_returns",
    "Lexertl.Props.C27_continued_text_lost",
    "Lexertl.Props.C27_text_replaces_unmatched",
    "Lexertl.Props.C27_pointer_overwrites"
   ],
   "note": "End of input with the default id 0, inserting output iterators or strings. The last four theorems show what happens otherwise."
  },
  {
   "property": "C28",
   "status": "proved",
   "theorems": [
    "Lexertl.Props.C28_throw_leaves_destination",
    "Lexertl.Props.C28_success_replaces_destination",
    "Lexertl.Props.C28_outcomes_partial",
    "Lexertl.Props.C28_outcomes_any_partial"
   ],
   "note": "The first two theorems are the property, for all rule sets. The outcomes theorems additionally list the possible outcomes, the second one for rule sets with $ (as far as C35 goes) and non-greedy operators."
  },
  {
   "property": "C29",
   "status": "proved",
   "theorems": [
    "Lexertl.Props.C29_built_without_empty",
    "Lexertl.Props.C29_zero_length_exception",
    "Lexertl.Props.C29_texts",
    "Lexertl.Props.C29_no_empty_tokens",
    "Lexertl.Props.C29_no_empty_tokens_any_partial",
    "Lexertl.Props.C29_dollar_empty_token",
    "Lexertl.Props.C29_built_without_empty_partial",
    "Lexertl.Props.C29_zero_length_exception_partial",
    "Lexertl.Props.C29_no_empty_tokens_partial"
   ],
   "note": "For rules of every kind (anchors anywhere, non-greedy operators, all character types), as tokens or as texts given to a rules object; only the number of byte charsets of a lexer state must fit id_type (an id equal to the null token would turn a charset into the empty text). The consequence is proved for anchor-free rules; for rules with anchors the _any theorem says what holds, and C29_dollar_empty_token that a*$ is accepted and returns empty tokens for ever."
  },
  {
   "property": "C30",
   "status": "partial",
   "theorems": [
    "Lexertl.Props.C30_built_without_suppressed_partial",
    "Lexertl.Props.C30_suppressed_exception_partial",
    "Lexertl.Props.C30_built_without_suppressed_any_partial",
    "Lexertl.Props.C30_suppressed_exception_any_partial",
    "Lexertl.Props.C30_can_win_iff_best",
    "Lexertl.Props.C30_cut_off_rule"
   ],
   "note": "Proved for rule sets over all character widths, with ^, with $ as far as C35 goes and with non-greedy operators: build returns only if each rule is the first to match some text, and throws only if some rule is not. Missing: $ in other places and charsets over code points that span three or more planes. With non-greedy operators being the first to match a text is not enough to be reported, so the property itself fails there."
  },
  {
   "property": "C31",
   "status": "proved",
   "theorems": [
    "Lexertl.Props.C31_names_and_ids_inverse",
    "Lexertl.Props.C31_names_exist",
    "Lexertl.Props.C31_initial_is_zero",
    "Lexertl.Props.C31_push_state_returns_id",
    "Lexertl.Props.C31_push_state_known",
    "Lexertl.Props.C31_push_state_new",
    "Lexertl.Props.C31_names_stable",
    "Lexertl.Props.C31_overflow"
   ],
   "note": "As long as the states fit id_type; C31_overflow shows what happens beyond (the refused state is inserted, names alias)."
  },
  {
   "property": "C32",
   "status": "proved",
   "theorems": [
    "Lexertl.Props.C32_refused_push_unchanged",
    "Lexertl.Props.C32_refused_push_named_unchanged",
    "Lexertl.Props.C32_push_appends",
    "Lexertl.Props.C32_push_named_appends",
    "Lexertl.Props.C32_states_named",
    "Lexertl.Props.C32_state_texts",
    "Lexertl.Props.C32_refused_macro_stays",
    "Lexertl.Props.C32_loose_names"
   ],
   "note": "C32_refused_macro_stays: insert_macro does not have the property; a refused macro stays, empty, and using it is undefined behaviour."
  },
  {
   "property": "C33",
   "status": "partial",
   "theorems": [
    "Lexertl.Props.C33_slices_16_bit",
    "Lexertl.Props.C33_slices_24_bit_two_planes_partial",
    "Lexertl.Props.C33_slices_24_bit_partial",
    "Lexertl.Props.C33_three_planes",
    "Lexertl.Props.C33_three_planes_wrong",
    "Lexertl.Props.C33_wrong_tokens"
   ],
   "note": "16 bit characters: exact, for all charsets. Code points: exact for ranges within two neighbouring planes, exact on code points for ranges from below 256 to the end; for other ranges over three or more planes C33_three_planes gives what the code accepts and C33_three_planes_wrong and C33_wrong_tokens that this is not the charset."
  },
  {
   "property": "C34",
   "status": "proved",
   "theorems": [
    "Lexertl.Props.C34_bol_rules",
    "Lexertl.Props.C34_bol_no_match"
   ],
   "note": "Rules r and ^r. For expressions such as ^a|b, where only some alternatives start with ^, C43 gives the exact behaviour (LineMatch), which differs from the natural one."
  },
  {
   "property": "C35",
   "status": "partial",
   "theorems": [
    "Lexertl.Props.C35_lookup_allowed_partial",
    "Lexertl.Props.C35_lookup_refines_partial",
    "Lexertl.Props.C35_only_before_line_end_partial",
    "Lexertl.Props.C35_taken_at_line_end_partial",
    "Lexertl.Props.C35_line_end_rule_takes_more",
    "Lexertl.Props.C35_build_undefined",
    "Lexertl.Props.C35_wide_build_undefined",
    "Lexertl.Props.C35_wide_other_rule_matters",
    "Lexertl.Props.C35_shared_rows"
   ],
   "note": "Proved for characters of all widths and states whose $ rules have the form r$, match no common text and no text ending in CR before $, and where no rule continues such a text with CR or LF; with 16 bit characters and code points this is asked of characters that share a byte with CR or LF too, and some rule must name a character below 256 (code points: 65536). Outside these conditions the property is false of the code: C35_line_end_rule_takes_more (a text that no rule matches is reported), C35_wide_other_rule_matters (an unrelated rule changes the match), C35_build_undefined and C35_wide_build_undefined (building is undefined behaviour). Missing: which of the excluded rule sets do work."
  },
  {
   "property": "C36",
   "status": "proved",
   "theorems": [
    "Lexertl.Props.C36_end_iff",
    "Lexertl.Props.C36_not_end_usable",
    "Lexertl.Props.C36_reaches_end",
    "Lexertl.Props.C36_equal_iterators_agree",
    "Lexertl.Props.C36_equality_ignores_stack"
   ],
   "note": "For every table. C36_equality_ignores_stack: recursive iterators that compare equal may differ."
  },
  {
   "property": "C37",
   "status": "proved",
   "theorems": [
    "Lexertl.Props.C37_same_machine",
    "Lexertl.Props.C37_skips_empty_states",
    "Lexertl.Props.C37_plain_states_push"
   ],
   "note": "Every machine fit for lookup, which is every built one by C14_built_tables: same states, ids and transitions. The other theorems show two surprises: lexer states without an alphabet are skipped, and states that end no token are marked as pushing."
  },
  {
   "property": "C38",
   "status": "partial",
   "theorems": [
    "Lexertl.Props.C38_follows_text_partial",
    "Lexertl.Props.C38_memcpy",
    "Lexertl.Props.C38_reads_all",
    "Lexertl.Props.C38_empty_stream",
    "Lexertl.Props.C38_stream_iterator_equals_end",
    "Lexertl.Props.C38_no_increment",
    "Lexertl.Props.C38_assign_from_stream_iterator",
    "Lexertl.Props.C38_assign_to_stream_iterator",
    "Lexertl.Props.C38_dangling_client",
    "Lexertl.Props.C38_overlapping_memcpy",
    "Lexertl.Props.C38_leak"
   ],
   "note": "Every non-empty stream, buffer size, increment other than 0 and history of proper operations, memcpy taken to copy overlapping ranges. The property fails in the excluded cases, as the last theorems show."
  },
  {
   "property": "C39",
   "status": "proved",
   "theorems": [
    "Lexertl.Props.C39_icase_char",
    "Lexertl.Props.C39_icase_range",
    "Lexertl.Props.C39_icase_wide",
    "Lexertl.Props.C39_neighbours_not_folded"
   ],
   "note": "8 bit characters with a locale that changes ASCII letters only; range bounds as characters or escapes. C39_icase_wide: wider characters take what the tables have. C39_neighbours_not_folded: with the library's table, letters whose cases are neighbouring code points are not folded."
  },
  {
   "property": "C40",
   "status": "partial",
   "theorems": [
    "Lexertl.Props.C40_hex",
    "Lexertl.Props.C40_octal",
    "Lexertl.Props.C40_hex_refused_partial",
    "Lexertl.Props.C40_octal_refused",
    "Lexertl.Props.C40_hex_wraps"
   ],
   "note": "Any number of digits. Values that fit are taken exactly; octal values that do not fit are refused; hexadecimal values are refused if they do not fit modulo 2^64. C40_hex_wraps: beyond 2^64 the claim is false of the code."
  },
  {
   "property": "C41",
   "status": "proved",
   "theorems": [
    "Lexertl.Props.C41_quoted_literal"
   ],
   "note": "Every non-empty text; the lexer takes exactly this text."
  },
  {
   "property": "C42",
   "status": "proved",
   "theorems": [
    "Lexertl.Props.C42_reset_is_fresh",
    "Lexertl.Props.C42_clear_is_fresh",
    "Lexertl.Props.C42_lex_again"
   ],
   "note": "For every table and every result object."
  },
  {
   "property": "C43",
   "status": "proved",
   "theorems": [
    "Lexertl.Props.C43_lookup_refines_rules"
   ],
   "note": ""
  },
  {
   "property": "C44",
   "status": "proved",
   "theorems": [
    "Lexertl.Props.C44_built_only_if_in_grammar"
   ],
   "note": ""
  },
  {
   "property": "C45",
   "status": "proved",
   "theorems": [
    "Lexertl.Props.C45_texts_to_safe_lexer",
    "Lexertl.Props.C45_texts_in_grammar",
    "Lexertl.Props.C45_texts_to_tokens"
   ],
   "note": "The third theorem is for texts without $ and non-greedy operators; the first two are for all texts."
  },
  {
   "property": "C46",
   "status": "proved",
   "theorems": [
    "Lexertl.Props.C46_push_total",
    "Lexertl.Props.C46_push_named_total",
    "Lexertl.Props.C46_insert_macro_total",
    "Lexertl.Props.C46_self_reference"
   ],
   "note": "Repeat counts below 2^64 and not written with superfluous zeros. Unicode property texts and case folding tables are parameters, assumed sane (TokEnvOk)."
  },
  {
   "property": "C47",
   "status": "proved",
   "theorems": [
    "Lexertl.Props.C47_utf16_to_utf8",
    "Lexertl.Props.C47_utf8_to_utf16"
   ],
   "note": ""
  },
  {
   "property": "C48",
   "status": "proved",
   "theorems": [
    "Lexertl.Props.C48_utf8_back",
    "Lexertl.Props.C48_utf16_back",
    "Lexertl.Props.C48_minus_unsafe"
   ],
   "note": "Well-formed text. C48_minus_unsafe: over malformed text moving back reads outside."
  },
  {
   "property": "C49",
   "status": "proved",
   "theorems": [
    "Lexertl.Props.C49_meaning_unique",
    "Lexertl.Props.C49_push",
    "Lexertl.Props.C49_macro",
    "Lexertl.Props.C49_program_lexes",
    "Lexertl.Props.C49_text_decides",
    "Lexertl.Props.C49_comment_before_caret",
    "Lexertl.Props.C49_minus_one_option",
    "Lexertl.Props.C49_anchored_macro_bare"
   ],
   "note": "Texts of the grammar in Spec/Reads. Macros without ^ and $; C49_program_lexes for rules without non-greedy operators and anchors. The last three theorems record surprises that are part of the meaning."
  },
  {
   "property": "C50",
   "status": "partial",
   "theorems": [
    "Lexertl.Props.C50_longest_unless_lazy_partial",
    "Lexertl.Props.C50_reported_only_if_no_match_partial",
    "Lexertl.Props.C35_lookup_allowed_partial",
    "Lexertl.Props.C50_eager_never_cut_partial",
    "Lexertl.Props.C50_others_cut",
    "Lexertl.Props.C50_not_shortest"
   ],
   "note": "What lookup returns is always matched by the rule, and unless the first rule to match it has a non-greedy operator it is the longest match. C50_eager_never_cut: rules such as numbers, identifiers and white space are never cut short by rules with non-greedy operators (single byte characters, no ^); C50_others_cut: rules such as keywords can be. C50_not_shortest: a non-greedy operator does not always give the shortest match; C56 has a class of rules for which it does. Missing: what C35 leaves out."
  },
  {
   "property": "C51",
   "status": "partial",
   "theorems": [
    "Lexertl.Props.C51_generated_same_partial",
    "Lexertl.Props.C51_generated_no_more_partial",
    "Lexertl.Props.C51_generated_tokens_partial",
    "Lexertl.Props.C51_texts_generated_partial",
    "Lexertl.Props.C51_dollar_differs",
    "Lexertl.Props.C51_pointers_dollar_undefined",
    "Lexertl.Props.C51_pointers_lose_rules",
    "Lexertl.Props.C51_underflow_undefined"
   ],
   "note": "Every machine fit for lookup (every built one) whose features say what it contains, without $ rules; with pointers and ^ rules, every lexer state must have a ^ rule. The property fails in the excluded cases, as the last four theorems show. The text of the function is not modelled, only what it does."
  },
  {
   "property": "C52",
   "status": "proved",
   "theorems": [
    "Lexertl.Props.C52_flags_irrelevant",
    "Lexertl.Props.C52_flags_irrelevant_calls",
    "Lexertl.Props.C52_texts_flags_irrelevant"
   ],
   "note": "Machines whose features say what they contain (FeaturesSay): by C55, those built from rules."
  },
  {
   "property": "C53",
   "status": "proved",
   "theorems": [
    "Lexertl.Props.C53_takes",
    "Lexertl.Props.C53_takes_code_points",
    "Lexertl.Props.C53_means",
    "Lexertl.Props.C53_brackets",
    "Lexertl.Props.C53_too_wide",
    "Lexertl.Props.C53_unknown",
    "Lexertl.Props.C53_posix",
    "Lexertl.Props.C53_posix_print"
   ],
   "note": "All 557 names, texts of the tables as in the files. TextTakes for 32 bit characters and id types of 16 bits or more; narrower ones where the property has no wider characters. C53_posix: the classes alnum, alpha, cntrl, digit, lower and upper of wide characters; C53_posix_print: print takes exactly the characters that are not printed."
  },
  {
   "property": "C54",
   "status": "partial",
   "theorems": [
    "Lexertl.Props.C54_at_most_one_partial",
    "Lexertl.Props.C54_scripts_and_categories",
    "Lexertl.Props.C54_blocks",
    "Lexertl.Props.C54_groups",
    "Lexertl.Props.C54_letters_without_category"
   ],
   "note": "At most one category, block and script for every character; characters with a script have a category and the other way round, except private use, surrogates and the letters of C54_letters_without_category, which have none: there the claim is false of the tables. Agreement with the Unicode standard itself is not expressible without its data."
  },
  {
   "property": "C55",
   "status": "partial",
   "theorems": [
    "Lexertl.Props.C55_features_say",
    "Lexertl.Props.C55_recorded_partial",
    "Lexertl.Props.C55_texts_features_partial",
    "Lexertl.Props.C55_bits",
    "Lexertl.Props.C55_only_recorded",
    "Lexertl.Props.C55_texts_only",
    "Lexertl.Props.C55_named_bol_lost"
   ],
   "note": "Any calls, any texts. Excluded: lexer states with both a ^ rule and a rule with a non-greedy operator, where the claim is false (C55_named_bol_lost: push with lexer state names looks for the ^ in the last part of a split regex)."
  },
  {
   "property": "C56",
   "status": "proved",
   "theorems": [
    "Lexertl.Props.C56_ends_at_first_closing",
    "Lexertl.Props.C56_skipped_to_first_closing",
    "Lexertl.Props.C56_matches"
   ],
   "note": "ClosedAt has the hypotheses on the text; the conclusion determines the outcome of the call, for every fuel. C56_matches: what such a rule matches. Machines with single byte characters; in general non-greedy operators do not give the shortest match (C50_not_shortest)."
  },
  {
   "property": "C57",
   "status": "partial",
   "theorems": [
    "Lexertl.Props.C57_shows_file",
    "Lexertl.Props.C57_touches_only_its_own",
    "Lexertl.Props.C57_unmaps",
    "Lexertl.Props.C57_releases_partial",
    "Lexertl.Props.C57_lost_descriptor",
    "Lexertl.Props.C57_descriptor_zero",
    "Lexertl.Props.C57_wide_pages_stay"
   ],
   "note": "The first two sentences for every character type, the third for char only, where the object never got descriptor 0 and was not opened again after an open that got a descriptor but no mapping; in these cases it is false, as the last three theorems show. POSIX version; the file does not change while it is mapped."
  },
  {
   "property": "C58",
   "status": "partial",
   "theorems": [
    "Lexertl.Props.C58_charset_reads_back_partial",
    "Lexertl.Props.C58_determines_partial",
    "Lexertl.Props.C58_prints",
    "Lexertl.Props.C58_single_dollar",
    "Lexertl.Props.C58_bracket_inside",
    "Lexertl.Props.C58_bracket_ends_range",
    "Lexertl.Props.C58_number_runs_on",
    "Lexertl.Props.C58_char32_decimal",
    "Lexertl.Props.C58_same_dump"
   ],
   "note": "The first sentence in full, for machines whose transitions have characters. The other two for charsets printed with hexadecimal numbers in which no range ends in - ] ^, a ] is first, no number is followed by a digit, and that are not a single $; for others they are false, as the last six theorems show."
  },
  {
   "property": "C59",
   "status": "partial",
   "theorems": [
    "Lexertl.Props.C59_push_partial",
    "Lexertl.Props.C59_program_lexes_partial",
    "Lexertl.Props.C59_states_lex_partial",
    "Lexertl.Props.C59_shortened_shortest",
    "Lexertl.Props.C59_last_operator_joins_alternatives",
    "Lexertl.Props.C59_last_operator_loses_text",
    "Lexertl.Props.C59_padded_zero"
   ],
   "note": "Rules without ^ and $; with several lexer states too (C59_states_lex_partial). A non-greedy operator that is the last part of a regex is replaced by the fewest repetitions it allows (Shortened in Spec/Lazy; C59_shortened_shortest: this keeps the shortest matches), and the claim holds for the resulting regexes. Excluded: operators that are last in one of several alternatives, where the claim is false (the last two theorems), a last {0,m}?, and a regex that is only r?? or r*?."
  },
  {
   "property": "C60",
   "status": "partial",
   "theorems": [
    "Lexertl.Props.C60_program_lexes_partial",
    "Lexertl.Props.C60_caret_alternative"
   ],
   "note": "Rules without non-greedy operators, ^ only first, $ as far as C35 goes. At the start of a line a rule with words starting with ^ matches only by these (LineMatch)."
  },
  {
   "property": "C61",
   "status": "proved",
   "theorems": [
    "Lexertl.Props.C61_program_lexes",
    "Lexertl.Props.C61_token_and_state",
    "Lexertl.Props.C61_program_lexes_dollar_partial"
   ],
   "note": "Greedy rules, ^ only first; without $ in full, with $ as far as C35 goes (the last theorem). The rules the texts mean are spelled out by StateProgram (Spec/StateProgram), what lookup has to do with them by Lex (Spec/Lexer)."
  },
  {
   "property": "C62",
   "status": "partial",
   "theorems": [
    "Lexertl.Props.C62_direct_build",
    "Lexertl.Props.C62_accepts",
    "Lexertl.Props.C62_texts",
    "Lexertl.Props.C62_throw_leaves_destination",
    "Lexertl.Props.C62_many_rows_ub",
    "Lexertl.Props.C62_nfa_loses_texts"
   ],
   "note": "Single byte characters, is_dfa true. In full except where the number of rows exceeds what id_type can count: there the build of the state machine throws and that of the char state machine reads outside the table (C62_many_rows_ub). With is_dfa false the claim is false (C62_nfa_loses_texts)."
  },
  {
   "property": "C63",
   "status": "partial",
   "theorems": [
    "Lexertl.Props.C63_text",
    "Lexertl.Props.C63_cells",
    "Lexertl.Props.C63_determines",
    "Lexertl.Props.C63_names_partial",
    "Lexertl.Props.C63_empty_ub"
   ],
   "note": "In full except the last sentence, which holds for at most ten lexer states (C63_names_partial): with more, the arrays of tables with pointers are declared with the lexer state in hexadecimal and used with it in decimal. C63_empty_ub: a machine without lexer states reads outside a vector. The text is taken apart by cTokens (Spec/CText); the stream is taken to be in decimal mode when generate is called."
  },
  {
   "property": "C64",
   "status": "partial",
   "theorems": [
    "Lexertl.Props.C64_graph_partial",
    "Lexertl.Props.C64_state_machine_partial",
    "Lexertl.Props.C64_nodes",
    "Lexertl.Props.C64_label",
    "Lexertl.Props.C64_less_than_breaks",
    "Lexertl.Props.C64_same_graph",
    "Lexertl.Props.C64_anchors_missing",
    "Lexertl.Props.C64_pop_leads_nowhere"
   ],
   "note": "Machines for whose charsets no <, > or & is written: otherwise the text is not a DOT graph (C64_less_than_breaks). The last sentence is false: labels are ambiguous (C64_same_graph), the states for line starts and line ends are not shown (C64_anchors_missing), and a rule that pops is drawn as leading to a lexer state that does not exist (C64_pop_leads_nowhere). Text is taken apart by dotTokens (Spec/Dot)."
  },
  {
   "property": "C65",
   "status": "proved",
   "theorems": [
    "Lexertl.Props.C65_wc_counts",
    "Lexertl.Props.C65_lone_cr_is_a_word"
   ],
   "note": "Single byte characters and the C locale; int of 32 bits. Reading the file is C57. C65_lone_cr_is_a_word: the alternative \\r of the rule for newlines never takes effect on its own."
  },
  {
   "property": "C66",
   "status": "partial",
   "theorems": [
    "Lexertl.Props.C66_calc_accepts",
    "Lexertl.Props.C66_calc_value_partial",
    "Lexertl.Props.C66_one_reading",
    "Lexertl.Props.C66_wrong_values"
   ],
   "note": "Single byte characters and the C locale; int of 32 bits. Which texts are taken and the absence of other undefined behaviour: for all texts. The value: proved for expressions in which, on each level of parentheses, only the first term may be a product without signs or a signed operand, and only the last a product with a sign at its front. For others the program is wrong (C66_wrong_values: 1-2*3-4 gives -1), so the property as stated is false."
  },
  {
   "property": "C67",
   "status": "proved",
   "theorems": [
    "Lexertl.Props.C67_json_accepts"
   ],
   "note": "Texts are sequences of code points (the UTF iterators are C23, C25 and C47); input as a JSON text of RFC 8259 with an object or array on top. The rule set of the example is fixed; its machine is shown to exist by evaluation in the kernel, everything else for all texts."
  },
  {
   "property": "C68",
   "status": "proved",
   "theorems": [
    "Lexertl.Props.C68_nested_one_token",
    "Lexertl.Props.C68_unclosed"
   ],
   "note": "Rule sets as in C43 (greedy, without $)."
  },
  {
   "property": "C69",
   "status": "partial",
   "theorems": [
    "Lexertl.Props.C69_ocaml_prints_partial",
    "Lexertl.Props.C69_nothing_lost",
    "Lexertl.Props.C69_literals_wrong"
   ],
   "note": "Everything but the last sentence, for all texts of bytes; kinds of tokens are defined in Spec/Ocaml. The last sentence is false of the code (C69_literals_wrong): no OCaml string is ever printed as a string, a character literal is never one token, and 1+2 is an integer. Single byte characters and the C locale; the machine is shown to exist by evaluation in the kernel, everything else for all texts."
  },
  {
   "property": "C70",
   "status": "proved",
   "theorems": [
    "Lexertl.Props.C70_position",
    "Lexertl.Props.C70_position_never",
    "Lexertl.Props.C70_rest",
    "Lexertl.Props.C70_beyond"
   ],
   "note": "Every machine, without hypotheses on it; faults included (C70_position). The result object must lie in its input."
  },
  {
   "property": "C71",
   "status": "proved",
   "theorems": [
    "Lexertl.Props.C71_last_rule",
    "Lexertl.Props.C71_order",
    "Lexertl.Props.C71_other_states",
    "Lexertl.Props.C71_same_texts",
    "Lexertl.Props.C71_suppressed",
    "Lexertl.Props.C71_order_all",
    "Lexertl.Props.C71_suppressed_all",
    "Lexertl.Props.C71_any",
    "Lexertl.Props.C71_any_order",
    "Lexertl.Props.C71_any_texts",
    "Lexertl.Props.C71_any_suppressed",
    "Lexertl.Props.C71_any_calls"
   ],
   "note": "Rule sets as in C01 (charsets of code points as there)."
  },
  {
   "property": "C72",
   "status": "proved",
   "theorems": [
    "Lexertl.Props.C72_lookahead",
    "Lexertl.Props.C72_any_token",
    "Lexertl.Props.C72_any"
   ],
   "note": "Rule sets as in C01 (charsets of code points as there). C72_lookahead: one token of plain rules, and that a call returns. C72_any_token: every lexer whose rules do not continue tokens; C72_any: every lexer, exceptions included."
  },
  {
   "property": "C73",
   "status": "proved",
   "theorems": [
    "Lexertl.Props.C73_cut",
    "Lexertl.Props.C73_any_token",
    "Lexertl.Props.C73_any_end"
   ],
   "note": "Rule sets as in C01 (charsets of code points as there). C73_cut: all calls, lexers of one lexer state, followed with Lexer.Upto (Spec/Cut). C73_any_token and C73_any_end: single calls of any lexer."
  },
  {
   "property": "C74",
   "status": "proved",
   "theorems": [
    "Lexertl.Props.C74_classes",
    "Lexertl.Props.C74_icase",
    "Lexertl.Props.C74_classes_all",
    "Lexertl.Props.C74_icase_all",
    "Lexertl.Props.C74_any",
    "Lexertl.Props.C74_icase_states",
    "Lexertl.Props.C74_any_calls"
   ],
   "note": "Rule sets as in C01 (charsets of code points as there). C74_icase starts from the texts of the rules (programs as in C49); wider characters are excluded there, for C39_neighbours_not_folded shows that the claim is false of them."
  },
  {
   "property": "C75",
   "status": "proved",
   "theorems": [
    "Lexertl.Props.C75_numbers",
    "Lexertl.Props.C75_calls"
   ],
   "note": "Rule sets as in C43 (greedy, without $). The translation is spelled out in Spec/Rename; calls that return or throw, for each of them the outcome of the other lexer follows."
  }
 ]
}