import Verif.Props.AllCalls
import Verif.Props.Alphabet
import Verif.Props.AnyCalls
import Verif.Props.AnyCase
import Verif.Props.AnyLookahead
import Verif.Props.AnyRules
import Verif.Props.Build
import Verif.Props.BuildAny
import Verif.Props.Calc
import Verif.Props.Calls
import Verif.Props.Charsets
import Verif.Props.Classes
import Verif.Props.Comments
import Verif.Props.Csm
import Verif.Props.CsmBuild
import Verif.Props.Cut
import Verif.Props.CutStates
import Verif.Props.Dot
import Verif.Props.Dump
import Verif.Props.Eager
import Verif.Props.Eol
import Verif.Props.Example
import Verif.Props.Features
import Verif.Props.Findings
import Verif.Props.GenText
import Verif.Props.Generated
import Verif.Props.Json
import Verif.Props.Lazy
import Verif.Props.LazyStates
import Verif.Props.Lexing
import Verif.Props.Lookahead
import Verif.Props.MemoryFile
import Verif.Props.Nested
import Verif.Props.Ocaml
import Verif.Props.Regexes
import Verif.Props.Rename
import Verif.Props.Replace
import Verif.Props.Resume
import Verif.Props.RuleOrder
import Verif.Props.Rules
import Verif.Props.Serialise
import Verif.Props.StateNames
import Verif.Props.StateTexts
import Verif.Props.States
import Verif.Props.Stream
import Verif.Props.Syntax
import Verif.Props.Tables
import Verif.Props.Texts
import Verif.Props.Unicode
import Verif.Props.Utf
import Verif.Props.Wc
import Verif.Props.Wide

/-
The axioms each theorem of `MANIFEST.json` depends on (printed while building).
-/
#print axioms Lexertl.Props.C01_longest_match_earliest_rule
#print axioms Lexertl.Props.C01_lookup_total
#print axioms Lexertl.Props.C02_no_match_reported
#print axioms Lexertl.Props.C02_reported_only_if_no_match
#print axioms Lexertl.Props.C03_insert_range_is_union
#print axioms Lexertl.Props.C03_insert_token_is_union
#print axioms Lexertl.Props.C03_constructors
#print axioms Lexertl.Props.C04_negate_is_complement
#print axioms Lexertl.Props.C04_negate_involutive
#print axioms Lexertl.Props.C04_any_iff_full
#print axioms Lexertl.Props.C05_intersect_splits
#print axioms Lexertl.Props.C06_remove_is_difference
#print axioms Lexertl.Props.C07_built_wellformed
#print axioms Lexertl.Props.C07_equality_is_set_equality
#print axioms Lexertl.Props.C08_alphabet_partition_exact
#print axioms Lexertl.Props.C09_transition_sets
#print axioms Lexertl.Props.C10_repetition
#print axioms Lexertl.Props.C11_copy
#print axioms Lexertl.Props.C12_grammar_decides_matches
#print axioms Lexertl.Props.C12_grammar_unambiguous
#print axioms Lexertl.Props.C13_address_independent
#print axioms Lexertl.Props.C13_build_terminates
#print axioms Lexertl.Props.C13_texts_terminate
#print axioms Lexertl.Props.C13_build_defined_partial
#print axioms Lexertl.Props.C13_build_terminates_partial
#print axioms Lexertl.Props.C14_built_tables
#print axioms Lexertl.Props.C14_call_safe
#print axioms Lexertl.Props.C14_calls_ready
#print axioms Lexertl.Props.C14_built_lexing_safe
#print axioms Lexertl.Props.C14_scan_bound_exact
#print axioms Lexertl.Props.C14_pop_needs_recursive
#print axioms Lexertl.Props.C15_tokens_in_order
#print axioms Lexertl.Props.C15_token_shape
#print axioms Lexertl.Props.C15_tokens_tile_input
#print axioms Lexertl.Props.C15_all_input_covered
#print axioms Lexertl.Props.C15_continued_text_dropped
#print axioms Lexertl.Props.C16_lookup_terminates
#print axioms Lexertl.Props.C16_lookup_progresses
#print axioms Lexertl.Props.C16_reports_end
#print axioms Lexertl.Props.C16_number_of_calls
#print axioms Lexertl.Props.C16_start_rows
#print axioms Lexertl.Props.C16_tables_terminate
#print axioms Lexertl.Props.C17_empty_skip_never_returns
#print axioms Lexertl.Props.C18_skip_never_returned
#print axioms Lexertl.Props.C18_skip_is_invisible
#print axioms Lexertl.Props.C18_continue_extends
#print axioms Lexertl.Props.C19_push
#print axioms Lexertl.Props.C19_pop
#print axioms Lexertl.Props.C19_underflow
#print axioms Lexertl.Props.C19_history
#print axioms Lexertl.Props.C19_pop_matches_push
#print axioms Lexertl.Props.C20_minimise_ends
#print axioms Lexertl.Props.C20_minimise_same
#print axioms Lexertl.Props.C20_minimise_same_calls
#print axioms Lexertl.Props.C20_minimise_built
#print axioms Lexertl.Props.C21_minimise_partial
#print axioms Lexertl.Props.C21_minimise_erases
#print axioms Lexertl.Props.C21_merges_tokens
#print axioms Lexertl.Props.C22_round_trip
#print axioms Lexertl.Props.C22_same_tables
#print axioms Lexertl.Props.C22_wrong_sizes
#print axioms Lexertl.Props.C22_truncated
#print axioms Lexertl.Props.C22_byte_ids
#print axioms Lexertl.Props.C23_encode
#print axioms Lexertl.Props.C23_decode
#print axioms Lexertl.Props.C23_decode_exact
#print axioms Lexertl.Props.C23_round_trip
#print axioms Lexertl.Props.C23_overlong
#print axioms Lexertl.Props.C23_surrogates
#print axioms Lexertl.Props.C24_encode
#print axioms Lexertl.Props.C24_decode
#print axioms Lexertl.Props.C24_decode_exact
#print axioms Lexertl.Props.C24_round_trip
#print axioms Lexertl.Props.C24_surrogates
#print axioms Lexertl.Props.C25_utf8_safe
#print axioms Lexertl.Props.C25_utf16_safe
#print axioms Lexertl.Props.C25_utf8_ends
#print axioms Lexertl.Props.C25_utf16_ends
#print axioms Lexertl.Props.C26_reverses
#print axioms Lexertl.Props.C26_involution
#print axioms Lexertl.Props.C27_replaces
#print axioms Lexertl.Props.C27_empty_map
#print axioms Lexertl.Props.C27_returns
#print axioms Lexertl.Props.C27_other_eoi_never_returns
#print axioms Lexertl.Props.C27_continued_text_lost
#print axioms Lexertl.Props.C27_text_replaces_unmatched
#print axioms Lexertl.Props.C27_pointer_overwrites
#print axioms Lexertl.Props.C28_throw_leaves_destination
#print axioms Lexertl.Props.C28_success_replaces_destination
#print axioms Lexertl.Props.C28_outcomes_partial
#print axioms Lexertl.Props.C28_outcomes_any_partial
#print axioms Lexertl.Props.C29_built_without_empty
#print axioms Lexertl.Props.C29_zero_length_exception
#print axioms Lexertl.Props.C29_texts
#print axioms Lexertl.Props.C29_no_empty_tokens
#print axioms Lexertl.Props.C29_no_empty_tokens_any_partial
#print axioms Lexertl.Props.C29_dollar_empty_token
#print axioms Lexertl.Props.C29_built_without_empty_partial
#print axioms Lexertl.Props.C29_zero_length_exception_partial
#print axioms Lexertl.Props.C29_no_empty_tokens_partial
#print axioms Lexertl.Props.C30_built_without_suppressed_partial
#print axioms Lexertl.Props.C30_suppressed_exception_partial
#print axioms Lexertl.Props.C30_built_without_suppressed_any_partial
#print axioms Lexertl.Props.C30_suppressed_exception_any_partial
#print axioms Lexertl.Props.C30_can_win_iff_best
#print axioms Lexertl.Props.C30_cut_off_rule
#print axioms Lexertl.Props.C31_names_and_ids_inverse
#print axioms Lexertl.Props.C31_names_exist
#print axioms Lexertl.Props.C31_initial_is_zero
#print axioms Lexertl.Props.C31_push_state_returns_id
#print axioms Lexertl.Props.C31_push_state_known
#print axioms Lexertl.Props.C31_push_state_new
#print axioms Lexertl.Props.C31_names_stable
#print axioms Lexertl.Props.C31_overflow
#print axioms Lexertl.Props.C32_refused_push_unchanged
#print axioms Lexertl.Props.C32_refused_push_named_unchanged
#print axioms Lexertl.Props.C32_push_appends
#print axioms Lexertl.Props.C32_push_named_appends
#print axioms Lexertl.Props.C32_states_named
#print axioms Lexertl.Props.C32_state_texts
#print axioms Lexertl.Props.C32_refused_macro_stays
#print axioms Lexertl.Props.C32_loose_names
#print axioms Lexertl.Props.C33_slices_16_bit
#print axioms Lexertl.Props.C33_slices_24_bit_two_planes_partial
#print axioms Lexertl.Props.C33_slices_24_bit_partial
#print axioms Lexertl.Props.C33_three_planes
#print axioms Lexertl.Props.C33_three_planes_wrong
#print axioms Lexertl.Props.C33_wrong_tokens
#print axioms Lexertl.Props.C34_bol_rules
#print axioms Lexertl.Props.C34_bol_no_match
#print axioms Lexertl.Props.C35_lookup_allowed_partial
#print axioms Lexertl.Props.C35_lookup_refines_partial
#print axioms Lexertl.Props.C35_only_before_line_end_partial
#print axioms Lexertl.Props.C35_taken_at_line_end_partial
#print axioms Lexertl.Props.C35_line_end_rule_takes_more
#print axioms Lexertl.Props.C35_build_undefined
#print axioms Lexertl.Props.C35_wide_build_undefined
#print axioms Lexertl.Props.C35_wide_other_rule_matters
#print axioms Lexertl.Props.C35_shared_rows
#print axioms Lexertl.Props.C36_end_iff
#print axioms Lexertl.Props.C36_not_end_usable
#print axioms Lexertl.Props.C36_reaches_end
#print axioms Lexertl.Props.C36_equal_iterators_agree
#print axioms Lexertl.Props.C36_equality_ignores_stack
#print axioms Lexertl.Props.C37_same_machine
#print axioms Lexertl.Props.C37_skips_empty_states
#print axioms Lexertl.Props.C37_plain_states_push
#print axioms Lexertl.Props.C38_follows_text_partial
#print axioms Lexertl.Props.C38_memcpy
#print axioms Lexertl.Props.C38_reads_all
#print axioms Lexertl.Props.C38_empty_stream
#print axioms Lexertl.Props.C38_stream_iterator_equals_end
#print axioms Lexertl.Props.C38_no_increment
#print axioms Lexertl.Props.C38_assign_from_stream_iterator
#print axioms Lexertl.Props.C38_assign_to_stream_iterator
#print axioms Lexertl.Props.C38_dangling_client
#print axioms Lexertl.Props.C38_overlapping_memcpy
#print axioms Lexertl.Props.C38_leak
#print axioms Lexertl.Props.C39_icase_char
#print axioms Lexertl.Props.C39_icase_range
#print axioms Lexertl.Props.C39_icase_wide
#print axioms Lexertl.Props.C39_neighbours_not_folded
#print axioms Lexertl.Props.C40_hex
#print axioms Lexertl.Props.C40_octal
#print axioms Lexertl.Props.C40_hex_refused_partial
#print axioms Lexertl.Props.C40_octal_refused
#print axioms Lexertl.Props.C40_hex_wraps
#print axioms Lexertl.Props.C41_quoted_literal
#print axioms Lexertl.Props.C42_reset_is_fresh
#print axioms Lexertl.Props.C42_clear_is_fresh
#print axioms Lexertl.Props.C42_lex_again
#print axioms Lexertl.Props.C43_lookup_refines_rules
#print axioms Lexertl.Props.C44_built_only_if_in_grammar
#print axioms Lexertl.Props.C45_texts_to_safe_lexer
#print axioms Lexertl.Props.C45_texts_in_grammar
#print axioms Lexertl.Props.C45_texts_to_tokens
#print axioms Lexertl.Props.C46_push_total
#print axioms Lexertl.Props.C46_push_named_total
#print axioms Lexertl.Props.C46_insert_macro_total
#print axioms Lexertl.Props.C46_self_reference
#print axioms Lexertl.Props.C47_utf16_to_utf8
#print axioms Lexertl.Props.C47_utf8_to_utf16
#print axioms Lexertl.Props.C48_utf8_back
#print axioms Lexertl.Props.C48_utf16_back
#print axioms Lexertl.Props.C48_minus_unsafe
#print axioms Lexertl.Props.C49_meaning_unique
#print axioms Lexertl.Props.C49_push
#print axioms Lexertl.Props.C49_macro
#print axioms Lexertl.Props.C49_program_lexes
#print axioms Lexertl.Props.C49_text_decides
#print axioms Lexertl.Props.C49_comment_before_caret
#print axioms Lexertl.Props.C49_minus_one_option
#print axioms Lexertl.Props.C49_anchored_macro_bare
#print axioms Lexertl.Props.C50_longest_unless_lazy_partial
#print axioms Lexertl.Props.C50_reported_only_if_no_match_partial
#print axioms Lexertl.Props.C50_eager_never_cut_partial
#print axioms Lexertl.Props.C50_others_cut
#print axioms Lexertl.Props.C50_not_shortest
#print axioms Lexertl.Props.C51_generated_same_partial
#print axioms Lexertl.Props.C51_generated_no_more_partial
#print axioms Lexertl.Props.C51_generated_tokens_partial
#print axioms Lexertl.Props.C51_texts_generated_partial
#print axioms Lexertl.Props.C51_dollar_differs
#print axioms Lexertl.Props.C51_pointers_dollar_undefined
#print axioms Lexertl.Props.C51_pointers_lose_rules
#print axioms Lexertl.Props.C51_underflow_undefined
#print axioms Lexertl.Props.C52_flags_irrelevant
#print axioms Lexertl.Props.C52_flags_irrelevant_calls
#print axioms Lexertl.Props.C52_texts_flags_irrelevant
#print axioms Lexertl.Props.C53_takes
#print axioms Lexertl.Props.C53_takes_code_points
#print axioms Lexertl.Props.C53_means
#print axioms Lexertl.Props.C53_brackets
#print axioms Lexertl.Props.C53_too_wide
#print axioms Lexertl.Props.C53_unknown
#print axioms Lexertl.Props.C53_posix
#print axioms Lexertl.Props.C53_posix_print
#print axioms Lexertl.Props.C54_at_most_one_partial
#print axioms Lexertl.Props.C54_scripts_and_categories
#print axioms Lexertl.Props.C54_blocks
#print axioms Lexertl.Props.C54_groups
#print axioms Lexertl.Props.C54_letters_without_category
#print axioms Lexertl.Props.C55_features_say
#print axioms Lexertl.Props.C55_recorded_partial
#print axioms Lexertl.Props.C55_texts_features_partial
#print axioms Lexertl.Props.C55_bits
#print axioms Lexertl.Props.C55_only_recorded
#print axioms Lexertl.Props.C55_texts_only
#print axioms Lexertl.Props.C55_named_bol_lost
#print axioms Lexertl.Props.C56_ends_at_first_closing
#print axioms Lexertl.Props.C56_skipped_to_first_closing
#print axioms Lexertl.Props.C56_matches
#print axioms Lexertl.Props.C57_shows_file
#print axioms Lexertl.Props.C57_touches_only_its_own
#print axioms Lexertl.Props.C57_unmaps
#print axioms Lexertl.Props.C57_releases_partial
#print axioms Lexertl.Props.C57_lost_descriptor
#print axioms Lexertl.Props.C57_descriptor_zero
#print axioms Lexertl.Props.C57_wide_pages_stay
#print axioms Lexertl.Props.C58_charset_reads_back_partial
#print axioms Lexertl.Props.C58_determines_partial
#print axioms Lexertl.Props.C58_prints
#print axioms Lexertl.Props.C58_single_dollar
#print axioms Lexertl.Props.C58_bracket_inside
#print axioms Lexertl.Props.C58_bracket_ends_range
#print axioms Lexertl.Props.C58_number_runs_on
#print axioms Lexertl.Props.C58_char32_decimal
#print axioms Lexertl.Props.C58_same_dump
#print axioms Lexertl.Props.C59_push_partial
#print axioms Lexertl.Props.C59_program_lexes_partial
#print axioms Lexertl.Props.C59_states_lex_partial
#print axioms Lexertl.Props.C59_shortened_shortest
#print axioms Lexertl.Props.C59_last_operator_joins_alternatives
#print axioms Lexertl.Props.C59_last_operator_loses_text
#print axioms Lexertl.Props.C59_padded_zero
#print axioms Lexertl.Props.C60_program_lexes_partial
#print axioms Lexertl.Props.C60_caret_alternative
#print axioms Lexertl.Props.C61_program_lexes
#print axioms Lexertl.Props.C61_token_and_state
#print axioms Lexertl.Props.C61_program_lexes_dollar_partial
#print axioms Lexertl.Props.C62_direct_build
#print axioms Lexertl.Props.C62_accepts
#print axioms Lexertl.Props.C62_texts
#print axioms Lexertl.Props.C62_throw_leaves_destination
#print axioms Lexertl.Props.C62_many_rows_ub
#print axioms Lexertl.Props.C62_nfa_loses_texts
#print axioms Lexertl.Props.C63_text
#print axioms Lexertl.Props.C63_cells
#print axioms Lexertl.Props.C63_determines
#print axioms Lexertl.Props.C63_names_partial
#print axioms Lexertl.Props.C63_empty_ub
#print axioms Lexertl.Props.C64_graph_partial
#print axioms Lexertl.Props.C64_state_machine_partial
#print axioms Lexertl.Props.C64_nodes
#print axioms Lexertl.Props.C64_label
#print axioms Lexertl.Props.C64_less_than_breaks
#print axioms Lexertl.Props.C64_same_graph
#print axioms Lexertl.Props.C64_anchors_missing
#print axioms Lexertl.Props.C64_pop_leads_nowhere
#print axioms Lexertl.Props.C65_wc_counts
#print axioms Lexertl.Props.C65_lone_cr_is_a_word
#print axioms Lexertl.Props.C66_calc_accepts
#print axioms Lexertl.Props.C66_calc_value_partial
#print axioms Lexertl.Props.C66_one_reading
#print axioms Lexertl.Props.C66_wrong_values
#print axioms Lexertl.Props.C67_json_accepts
#print axioms Lexertl.Props.C68_nested_one_token
#print axioms Lexertl.Props.C68_unclosed
#print axioms Lexertl.Props.C69_ocaml_prints_partial
#print axioms Lexertl.Props.C69_nothing_lost
#print axioms Lexertl.Props.C69_literals_wrong
#print axioms Lexertl.Props.C70_position
#print axioms Lexertl.Props.C70_position_never
#print axioms Lexertl.Props.C70_rest
#print axioms Lexertl.Props.C70_beyond
#print axioms Lexertl.Props.C71_last_rule
#print axioms Lexertl.Props.C71_order
#print axioms Lexertl.Props.C71_other_states
#print axioms Lexertl.Props.C71_same_texts
#print axioms Lexertl.Props.C71_suppressed
#print axioms Lexertl.Props.C71_order_all
#print axioms Lexertl.Props.C71_suppressed_all
#print axioms Lexertl.Props.C71_any
#print axioms Lexertl.Props.C71_any_order
#print axioms Lexertl.Props.C71_any_texts
#print axioms Lexertl.Props.C71_any_suppressed
#print axioms Lexertl.Props.C71_any_calls
#print axioms Lexertl.Props.C72_lookahead
#print axioms Lexertl.Props.C72_any_token
#print axioms Lexertl.Props.C72_any
#print axioms Lexertl.Props.C73_cut
#print axioms Lexertl.Props.C73_any_token
#print axioms Lexertl.Props.C73_any_end
#print axioms Lexertl.Props.C74_classes
#print axioms Lexertl.Props.C74_icase
#print axioms Lexertl.Props.C74_classes_all
#print axioms Lexertl.Props.C74_icase_all
#print axioms Lexertl.Props.C74_any
#print axioms Lexertl.Props.C74_icase_states
#print axioms Lexertl.Props.C74_any_calls
#print axioms Lexertl.Props.C75_numbers
#print axioms Lexertl.Props.C75_calls
