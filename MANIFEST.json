{
 "claims": [
  {
   "property": "C01",
   "status": "proved",
   "theorems": [
    "PP.C01_failed_match_consumes_nothing"
   ],
   "note": ""
  },
  {
   "property": "C02",
   "status": "proved",
   "theorems": [
    "PP.C02_positions_stay_in_source"
   ],
   "note": ""
  },
  {
   "property": "C03",
   "status": "proved",
   "theorems": [
    "PP.C03_no_internal_panic",
    "PP.C03_parse_no_internal_panic",
    "PP.C03_only_key_exhaustion"
   ],
   "note": ""
  },
  {
   "property": "C04",
   "status": "proved",
   "theorems": [
    "PP.C04_memoised_agrees_with_peg"
   ],
   "note": ""
  },
  {
   "property": "C05",
   "status": "proved",
   "theorems": [
    "PP.C05_peg_result_is_computed",
    "PP.C05_peg_result_is_computed_small",
    "PP.C05_returns_iff_peg_defined"
   ],
   "note": ""
  },
  {
   "property": "C06",
   "status": "proved",
   "theorems": [
    "PP.C06_tree_is_the_peg_tree",
    "PP.C06_parse_returns_the_peg_tree"
   ],
   "note": ""
  },
  {
   "property": "C07",
   "status": "proved",
   "theorems": [
    "PP.C07_calls_terminate",
    "PP.C07_parse_terminates",
    "PP.C07_plain_parse_terminates",
    "PP.C07_peg_is_total",
    "PP.C07_certificate_sound",
    "PP.C07_example3_terminates",
    "PP.C07_examples_terminate"
   ],
   "note": ""
  },
  {
   "property": "C08",
   "status": "proved",
   "theorems": [
    "PP.C08_dsl_parse_is_total",
    "PP.C08_dsl_parse_terminates",
    "PP.C08_dsl_recognition_total"
   ],
   "note": ""
  },
  {
   "property": "C09",
   "status": "proved",
   "theorems": [
    "PP.C09_packrat_bound",
    "PP.C09_each_pair_evaluated_at_most_once"
   ],
   "note": ""
  },
  {
   "property": "C10",
   "status": "proved",
   "theorems": [
    "PP.C10_and_predicate",
    "PP.C10_not_predicate"
   ],
   "note": ""
  },
  {
   "property": "C11",
   "status": "proved",
   "theorems": [
    "PP.C11_zero_or_more_is_greedy",
    "PP.C11_one_or_more_is_greedy",
    "PP.C11_greedy_end_unique"
   ],
   "note": ""
  },
  {
   "property": "C12",
   "status": "proved",
   "theorems": [
    "PP.C12_empty_repetition_never_returns",
    "PP.C12_plain_empty_repetition_never_returns",
    "PP.C12_optional_in_star_hangs"
   ],
   "note": ""
  },
  {
   "property": "C13",
   "status": "proved",
   "theorems": [
    "PP.C13_terminal",
    "PP.C13_range",
    "PP.C13_string",
    "PP.C13_terminals_return"
   ],
   "note": ""
  },
  {
   "property": "C14",
   "status": "proved",
   "theorems": [
    "PP.C14_choice_is_prioritised",
    "PP.C14_sequence"
   ],
   "note": ""
  },
  {
   "property": "C15",
   "status": "proved",
   "theorems": [
    "PP.C15_inline_is_transparent",
    "PP.C15_inline_preserves_termination"
   ],
   "note": ""
  },
  {
   "property": "C16",
   "status": "proved",
   "theorems": [
    "PP.C16_node_graph_is_a_forest",
    "PP.C16_parse_tree_is_a_forest"
   ],
   "note": ""
  },
  {
   "property": "C17",
   "status": "proved",
   "theorems": [
    "PP.C17_only_real_matches"
   ],
   "note": ""
  },
  {
   "property": "C18",
   "status": "proved",
   "theorems": [
    "PP.C18_nodes_are_derivations"
   ],
   "note": ""
  },
  {
   "property": "C19",
   "status": "proved",
   "theorems": [
    "PP.C19_eq_iff_same_tree",
    "PP.C19_eq_is_equivalence",
    "PP.C19_parse_results_are_comparable"
   ],
   "note": ""
  },
  {
   "property": "C20",
   "status": "proved",
   "theorems": [
    "PP.C20_children_start_within_parent",
    "PP.C20_child_may_end_after_parent",
    "PP.C20_failed_alternative_leaves_duplicate_child"
   ],
   "note": ""
  },
  {
   "property": "C21",
   "status": "proved",
   "theorems": [
    "PP.C21_asking_again_same_answer",
    "PP.C21_answer_is_stable"
   ],
   "note": ""
  },
  {
   "property": "C22",
   "status": "proved",
   "theorems": [
    "PP.C22_direct_left_recursion_is_iteration",
    "PP.C22_parse_is_iteration",
    "PP.C22_iteration_is_computed",
    "PP.C22_left_recursive_call",
    "PP.C22_over_plain_rules",
    "PP.C22_example6"
   ],
   "note": ""
  },
  {
   "property": "C23",
   "status": "proved",
   "theorems": [
    "PP.C23_no_new_match_inside_growth",
    "PP.C23_self_reference_never_extends",
    "PP.C23_parenthesised_recursion_fails",
    "PP.C23_two_layers_parse_parentheses"
   ],
   "note": ""
  },
  {
   "property": "C24",
   "status": "proved",
   "theorems": [
    "PP.C24_accepted_text_is_derivable"
   ],
   "note": ""
  },
  {
   "property": "C25",
   "status": "proved",
   "theorems": [
    "PP.Gen.C25_detector_flags_left_recursion",
    "PP.Gen.C25_cycle_is_involved"
   ],
   "note": ""
  },
  {
   "property": "C26",
   "status": "proved",
   "theorems": [
    "PP.Gen.C26_detector_order_independent",
    "PP.Gen.C26_generator_order_independent"
   ],
   "note": ""
  },
  {
   "property": "C27",
   "status": "proved",
   "theorems": [
    "PP.Gen.C27_detected_recursion_terminates",
    "PP.Gen.C27_hidden_recursion_never_returns",
    "PP.Gen.C27_last_alternative_hangs",
    "PP.Gen.C27_recursion_behind_optional_hangs"
   ],
   "note": ""
  },
  {
   "property": "C28",
   "status": "proved",
   "theorems": [
    "PP.Gen.C28_detector_panics_iff_dangling"
   ],
   "note": ""
  },
  {
   "property": "C29",
   "status": "proved",
   "theorems": [
    "PP.Gen.C29_symbol_table"
   ],
   "note": ""
  },
  {
   "property": "C30",
   "status": "proved",
   "theorems": [
    "PP.Gen.C30_rules_enum",
    "PP.Gen.C30_variants_distinct",
    "PP.Gen.C30_variants_collide"
   ],
   "note": ""
  },
  {
   "property": "C31",
   "status": "proved",
   "theorems": [
    "PP.Gen.C31_generated_code_is_scoped"
   ],
   "note": ""
  },
  {
   "property": "C32",
   "status": "proved",
   "theorems": [
    "PP.Gen.C32_generated_code_denotes_grammar"
   ],
   "note": ""
  },
  {
   "property": "C33",
   "status": "proved",
   "theorems": [
    "PP.Gen.C33_empty_terminal_code",
    "PP.Gen.C33_empty_terminal_matches_two_quotes",
    "PP.Gen.C33_written_meaning_matches_empty"
   ],
   "note": ""
  },
  {
   "property": "C34",
   "status": "proved",
   "theorems": [
    "PP.Gen.C34_bounds_exact",
    "PP.Gen.C34_escaped_bound_is_backslash",
    "PP.Gen.C34_empty_or_decimal_bound_panics"
   ],
   "note": ""
  },
  {
   "property": "C35",
   "status": "proved",
   "theorems": [
    "PP.Gen.C35_rejects_iff_not_a_grammar",
    "PP.Gen.C35_error_line",
    "PP.Gen.C35_generator_terminates",
    "PP.Gen.C35_empty_file_is_accepted"
   ],
   "note": ""
  },
  {
   "property": "C36",
   "status": "proved",
   "theorems": [
    "PP.Gen.C36_names",
    "PP.Gen.C36_hex",
    "PP.Gen.C36_integers",
    "PP.Gen.C36_string_terminals",
    "PP.Gen.C36_terminals"
   ],
   "note": ""
  },
  {
   "property": "C37",
   "status": "proved",
   "theorems": [
    "PP.Gen.C37_comment_text",
    "PP.Gen.C37_empty_comment_panics"
   ],
   "note": ""
  },
  {
   "property": "C38",
   "status": "proved",
   "theorems": [
    "PP.Gen.C38_parse_reads_back",
    "PP.Gen.C38_generator_tree",
    "PP.Gen.C38_round_trip"
   ],
   "note": ""
  },
  {
   "property": "C39",
   "status": "proved",
   "theorems": [
    "PP.Run.C39_handwritten_files_survive",
    "PP.Run.C39_handwritten_files_survive_all_runs"
   ],
   "note": ""
  },
  {
   "property": "C40",
   "status": "proved",
   "theorems": [
    "PP.Run.C40_failed_generation_touches_nothing",
    "PP.Run.C40_main_touches_no_file",
    "PP.Run.C40_panicking_generation_touches_nothing"
   ],
   "note": ""
  },
  {
   "property": "C41",
   "status": "proved",
   "theorems": [
    "PP.C41_unique_lines",
    "PP.C41_longest_prefix"
   ],
   "note": ""
  },
  {
   "property": "C42",
   "status": "proved",
   "theorems": [
    "PP.C42_get_char",
    "PP.C42_get_string_none",
    "PP.C42_get_string_some",
    "PP.C42_get_string_panics",
    "PP.C42_get_string_ascii",
    "PP.C42_get_multiple_chars",
    "PP.C42_get_multiple_chars_never_reaches_the_end"
   ],
   "note": ""
  },
  {
   "property": "C43",
   "status": "proved",
   "theorems": [
    "PP.C43_get_char_truncated",
    "PP.C43_parse_truncates",
    "PP.C43_tail_is_ignored",
    "PP.C43_four_gib_is_empty"
   ],
   "note": ""
  },
  {
   "property": "C44",
   "status": "proved",
   "theorems": [
    "PP.C44_memo_last_write_wins",
    "PP.C44_heads",
    "PP.C44_head_operations_need_a_head"
   ],
   "note": ""
  },
  {
   "property": "C45",
   "status": "proved",
   "theorems": [
    "PP.C45_connect_appends",
    "PP.C45_connect_front_prepends",
    "PP.C45_connect_if_not_connected",
    "PP.C45_connect_if_not_connected_idempotent",
    "PP.C45_disconnect_undoes_connect",
    "PP.C45_disconnect_absent",
    "PP.C45_disconnect_removes_last",
    "PP.C45_connect_ok_iff"
   ],
   "note": ""
  },
  {
   "property": "C46",
   "status": "proved",
   "theorems": [
    "PP.C46_print",
    "PP.C46_no_error_line",
    "PP.C46_parse_results_are_printable"
   ],
   "note": ""
  },
  {
   "property": "C47",
   "status": "proved",
   "theorems": [
    "PP.C47_example5_consumes",
    "PP.C47_example5_terminates",
    "PP.C47_example5_tree"
   ],
   "note": ""
  },
  {
   "property": "C48",
   "status": "proved",
   "theorems": [
    "PP.C48_longest_run",
    "PP.C48_right_and_left_recursion_agree",
    "PP.C48_terminates"
   ],
   "note": ""
  },
  {
   "property": "C49",
   "status": "proved",
   "theorems": [
    "PP.C49_parse_result_consistent"
   ],
   "note": ""
  },
  {
   "property": "C50",
   "status": "proved",
   "theorems": [
    "PP.C50_growth_iterations_bounded",
    "PP.C50_growth_iterations_bounded_any_body"
   ],
   "note": ""
  },
  {
   "property": "C51",
   "status": "proved",
   "theorems": [
    "PP.C51_left_recursion_never_matches_empty",
    "PP.C51_nullable_left_recursion_fails"
   ],
   "note": ""
  },
  {
   "property": "C52",
   "status": "proved",
   "theorems": [
    "PP.C52_returned_tree_is_exponential",
    "PP.C52_recognition_is_polynomial",
    "PP.C52_parse_fails_from_depth_32",
    "PP.C52_returned_tree_size"
   ],
   "note": ""
  },
  {
   "property": "C53",
   "status": "proved",
   "theorems": [
    "PP.Gen.C53_generator_panics_iff"
   ],
   "note": ""
  },
  {
   "property": "C54",
   "status": "proved",
   "theorems": [
    "PP.Gen.C54_generated_code_links",
    "PP.Gen.C54_generated_parser_computes_peg",
    "PP.Gen.C54_accepted_text_is_derivable"
   ],
   "note": ""
  },
  {
   "property": "C55",
   "status": "proved",
   "theorems": [
    "PP.Run.C55_result_of_a_run",
    "PP.Run.C55_regeneration_is_deterministic"
   ],
   "note": ""
  },
  {
   "property": "C56",
   "status": "proved",
   "theorems": [
    "PP.Run.C56_self_generation_empties_the_core",
    "PP.Run.C56_success_although_nothing_was_written",
    "PP.Run.C56_broken_off_run_leaves_empty_file_for_good"
   ],
   "note": ""
  },
  {
   "property": "C57",
   "status": "proved",
   "theorems": [
    "PP.Run.C57_imports_are_the_hooks_written",
    "PP.Run.C57_hook_used_twice_is_imported_twice"
   ],
   "note": ""
  },
  {
   "property": "C58",
   "status": "proved",
   "theorems": [
    "PP.C58_parse_tree_nests_left",
    "PP.C58_start_rule_nests_left"
   ],
   "note": ""
  },
  {
   "property": "C59",
   "status": "proved",
   "theorems": [
    "PP.C59_example6_tree"
   ],
   "note": ""
  },
  {
   "property": "C60",
   "status": "proved",
   "theorems": [
    "PP.C60_same_answer_again",
    "PP.C60_regrown_tree_is_wrong"
   ],
   "note": ""
  },
  {
   "property": "C61",
   "status": "proved",
   "theorems": [
    "PP.C61_certified_tree_is_linear",
    "PP.C61_certified_parse_is_total",
    "PP.C61_dsl_tree_is_linear"
   ],
   "note": ""
  },
  {
   "property": "C62",
   "status": "proved",
   "theorems": [
    "PP.C62_group_tree_nests_left",
    "PP.C62_group_parse_is_iteration",
    "PP.C62_iteration_is_parsed",
    "PP.C62_example1",
    "PP.C62_example3",
    "PP.C62_example4",
    "PP.C62_example7",
    "PP.C62_example8",
    "PP.C62_example9"
   ],
   "note": "grammars with a certificate of GroupLR; start rules that enter the recursion at most once (Solo)"
  },
  {
   "property": "C63",
   "status": "proved",
   "theorems": [
    "PP.C63_example7_consumes",
    "PP.C63_example7_tree",
    "PP.C63_example7_terminates",
    "PP.C63_example8_consumes",
    "PP.C63_example8_tree",
    "PP.C63_example8_terminates",
    "PP.C63_example9_consumes",
    "PP.C63_example9_tree",
    "PP.C63_example9_terminates"
   ],
   "note": ""
  },
  {
   "property": "C64",
   "status": "proved",
   "theorems": [
    "PP.C64_longest_sum",
    "PP.C64_evaluates",
    "PP.C64_unique_reading",
    "PP.C64_computes",
    "PP.C64_exact",
    "PP.C64_debug_is_exact"
   ],
   "note": ""
  },
  {
   "property": "C65",
   "status": "proved",
   "theorems": [
    "PP.C65_longest_expression",
    "PP.C65_evaluates",
    "PP.C65_unique_reading",
    "PP.C65_computes",
    "PP.C65_exact",
    "PP.C65_debug_is_exact"
   ],
   "note": ""
  },
  {
   "property": "C66",
   "status": "proved",
   "theorems": [
    "PP.C66_longest_expression",
    "PP.C66_evaluates",
    "PP.C66_unique_reading",
    "PP.C66_computes",
    "PP.C66_exact",
    "PP.C66_debug_is_exact",
    "PP.C66_debug_truncates_exponents"
   ],
   "note": ""
  },
  {
   "property": "C67",
   "status": "proved",
   "theorems": [
    "PP.C67_no_borrow_conflict",
    "PP.C67_parse_without_flags",
    "PP.C67_parse_no_borrow_panic",
    "PP.C67_rule_call_under_a_borrow_panics",
    "PP.C67_tidy_hooks",
    "PP.C67_example11",
    "PP.C67_example11_held_user_state"
   ],
   "note": ""
  },
  {
   "property": "C68",
   "status": "proved",
   "theorems": [
    "PP.Gen.C68_dsl_bootstraps",
    "PP.Gen.C68_example1",
    "PP.Gen.C68_example2",
    "PP.Gen.C68_example3",
    "PP.Gen.C68_example4",
    "PP.Gen.C68_example5",
    "PP.Gen.C68_example6",
    "PP.Gen.C68_example7",
    "PP.Gen.C68_example8",
    "PP.Gen.C68_example9",
    "PP.Gen.C68_example10",
    "PP.Gen.C68_example11"
   ],
   "note": ""
  },
  {
   "property": "C69",
   "status": "proved",
   "theorems": [
    "PP.Gen.C69_json_regenerates",
    "PP.Gen.C69_json_file_does_not_compile",
    "PP.C69_json_tree_is_linear",
    "PP.C69_json_language",
    "PP.C69_json_has_no_escapes"
   ],
   "note": ""
  },
  {
   "property": "C70",
   "status": "proved",
   "theorems": [
    "PP.C70_limits_change_no_answer",
    "PP.C70_depth_is_linear",
    "PP.C70_depth_at_least_tree_height",
    "PP.C70_json_nesting_needs_depth",
    "PP.C70_json_depth",
    "PP.C70_dsl_depth"
   ],
   "note": ""
  },
  {
   "property": "C71",
   "status": "proved",
   "theorems": [
    "PP.C71_store_layout",
    "PP.C71_store_is_the_peg_layout",
    "PP.C71_same_tree_same_store",
    "PP.C71_printout"
   ],
   "note": ""
  },
  {
   "property": "C72",
   "status": "proved",
   "theorems": [
    "PP.C72_exit_status",
    "PP.C72_output",
    "PP.C72_message",
    "PP.C72_four_gib",
    "PP.C72_json_program"
   ],
   "note": ""
  },
  {
   "property": "C73",
   "status": "proved",
   "theorems": [
    "PP.C73_accepts",
    "PP.C73_rejects",
    "PP.C73_covers",
    "PP.C73_evaluates"
   ],
   "note": ""
  },
  {
   "property": "C74",
   "status": "proved",
   "theorems": [
    "PP.Gen.C74_generated_text_is_the_grammar",
    "PP.Gen.C74_generated_text_compiles_iff",
    "PP.Gen.C74_unusable_text_does_not_compile",
    "PP.Gen.C74_set_name_does_not_compile",
    "PP.Gen.C74_compiled_text_computes_peg",
    "PP.Gen.C74_generator_accepts_unusable",
    "PP.Gen.C74_string_text_becomes_code"
   ],
   "note": ""
  },
  {
   "property": "C75",
   "status": "proved",
   "theorems": [
    "PP.Gen.C75_dsl_text",
    "PP.Gen.C75_dsl_up_to_date",
    "PP.Gen.C75_example1_text",
    "PP.Gen.C75_example1_up_to_date",
    "PP.Gen.C75_example2_text",
    "PP.Gen.C75_example2_up_to_date",
    "PP.Gen.C75_example3_text",
    "PP.Gen.C75_example3_up_to_date",
    "PP.Gen.C75_example4_text",
    "PP.Gen.C75_example4_up_to_date",
    "PP.Gen.C75_example5_text",
    "PP.Gen.C75_example5_up_to_date",
    "PP.Gen.C75_example6_text",
    "PP.Gen.C75_example6_up_to_date",
    "PP.Gen.C75_example7_text",
    "PP.Gen.C75_example7_up_to_date",
    "PP.Gen.C75_example8_text",
    "PP.Gen.C75_example8_up_to_date",
    "PP.Gen.C75_example9_text",
    "PP.Gen.C75_example9_up_to_date",
    "PP.Gen.C75_example10_text",
    "PP.Gen.C75_example10_up_to_date",
    "PP.Gen.C75_example11_text",
    "PP.Gen.C75_example11_up_to_date"
   ],
   "note": ""
  },
  {
   "property": "C76",
   "status": "proved",
   "theorems": [
    "PP.Mini.C76_dsl_executed",
    "PP.Mini.C76_example1_executed",
    "PP.Mini.C76_example2_executed",
    "PP.Mini.C76_example3_executed",
    "PP.Mini.C76_example4_executed",
    "PP.Mini.C76_example5_executed",
    "PP.Mini.C76_example6_executed",
    "PP.Mini.C76_example7_executed",
    "PP.Mini.C76_example8_executed",
    "PP.Mini.C76_example9_executed",
    "PP.Mini.C76_example10_executed"
   ],
   "note": ""
  },
  {
   "property": "C77",
   "status": "proved",
   "theorems": [
    "PP.Mini.C77_generated_crate_executed",
    "PP.Mini.C77_generated_crate_computes_peg",
    "PP.Mini.C77_accepted_text_is_derivable",
    "PP.Mini.C77_execution_ends",
    "PP.Mini.C77_hidden_recursion_never_returns",
    "PP.Mini.C77_last_alternative_hangs"
   ],
   "note": ""
  },
  {
   "property": "C78",
   "status": "proved",
   "theorems": [
    "PP.Mini.C78_example11_executed",
    "PP.Mini.C78_example11_unique_lines"
   ],
   "note": ""
  },
  {
   "property": "C79",
   "status": "proved",
   "theorems": [
    "PP.Mini.C79_generated_crate_executed",
    "PP.Mini.C79_accepted_text_is_derivable",
    "PP.Mini.C79_execution_ends",
    "PP.Mini.C79_linked_rules_executed",
    "PP.Mini.C79_example11_from_its_grammar_file"
   ],
   "note": ""
  },
  {
   "property": "C80",
   "status": "proved",
   "theorems": [
    "PP.C80_clearing_again",
    "PP.C80_tree_follows_grammar",
    "PP.C80_store_rules",
    "PP.C80_inlined_leave_no_node"
   ],
   "note": ""
  },
  {
   "property": "C81",
   "status": "proved",
   "theorems": [
    "PP.Mini.C81_example1_executed",
    "PP.Mini.C81_example2_executed",
    "PP.Mini.C81_example3_executed",
    "PP.Mini.C81_example4_executed",
    "PP.Mini.C81_example1_calculates",
    "PP.Mini.C81_example3_calculates",
    "PP.Mini.C81_example4_calculates",
    "PP.Mini.C81_example1_exact",
    "PP.Mini.C81_example3_exact",
    "PP.Mini.C81_example4_exact",
    "PP.Mini.C81_example2_echoes"
   ],
   "note": ""
  },
  {
   "property": "C82",
   "status": "proved",
   "theorems": [
    "PP.Mini.C82_names_and_set_order_are_invisible",
    "PP.Mini.C82_linked_parsers_agree",
    "PP.Mini.C82_linked_rules_executed",
    "PP.Mini.C82_linked_hooked_rules_executed",
    "PP.Mini.C82_dsl_remade",
    "PP.Mini.C82_example1_remade",
    "PP.Mini.C82_example2_remade",
    "PP.Mini.C82_example3_remade",
    "PP.Mini.C82_example4_remade",
    "PP.Mini.C82_example5_remade",
    "PP.Mini.C82_example6_remade",
    "PP.Mini.C82_example7_remade",
    "PP.Mini.C82_example8_remade",
    "PP.Mini.C82_example9_remade",
    "PP.Mini.C82_example10_remade",
    "PP.Mini.C82_example11_remade",
    "PP.Mini.C82_example5_from_its_grammar_file"
   ],
   "note": ""
  },
  {
   "property": "C83",
   "status": "proved",
   "theorems": [
    "PP.Gen.C83_writing_is_invisible",
    "PP.Gen.C83_renamed_crates_agree",
    "PP.Gen.C83_layout_and_order_are_invisible",
    "PP.Gen.C83_rewritten_file_works",
    "PP.Gen.C83_layout_is_invisible_to_hooks"
   ],
   "note": ""
  },
  {
   "property": "C84",
   "status": "proved",
   "theorems": [
    "PP.Rs.C84_to_string_executed"
   ],
   "note": ""
  },
  {
   "property": "C85",
   "status": "proved",
   "theorems": [
    "PP.Rs.C85_symbol_table_executed"
   ],
   "note": ""
  },
  {
   "property": "C86",
   "status": "proved",
   "theorems": [
    "PP.Rs.C86_constructor_executed",
    "PP.Rs.C86_expression_executed"
   ],
   "note": ""
  },
  {
   "property": "C87",
   "status": "proved",
   "theorems": [
    "PP.Rs.C87_detector_executed"
   ],
   "note": ""
  },
  {
   "property": "C88",
   "status": "proved",
   "theorems": [
    "PP.Rs.C88_dsl_made",
    "PP.Rs.C88_example1_made",
    "PP.Rs.C88_example2_made",
    "PP.Rs.C88_example3_made",
    "PP.Rs.C88_example4_made",
    "PP.Rs.C88_example5_made",
    "PP.Rs.C88_example6_made",
    "PP.Rs.C88_example7_made",
    "PP.Rs.C88_example8_made",
    "PP.Rs.C88_example9_made",
    "PP.Rs.C88_example10_made",
    "PP.Rs.C88_example11_made",
    "PP.Rs.C88_generator_executed",
    "PP.Rs.C88_executed_panics_iff"
   ],
   "note": ""
  },
  {
   "property": "C89",
   "status": "proved",
   "theorems": [
    "PP.C89_generate_parser_executed",
    "PP.C89_outcomes",
    "PP.C89_outcomes_without_hex"
   ],
   "note": ""
  },
  {
   "property": "C90",
   "status": "proved",
   "theorems": [
    "PP.C90_every_generation",
    "PP.C90_bootstrap",
    "PP.C90_compiled_computes_peg",
    "PP.C90_compiled_is_sound",
    "PP.C90_compiled_ends",
    "PP.C90_compiled_with_hooks_is_sound",
    "PP.C90_dsl_remade",
    "PP.C90_example1_remade",
    "PP.C90_example2_remade",
    "PP.C90_example3_remade",
    "PP.C90_example4_remade",
    "PP.C90_example5_remade",
    "PP.C90_example6_remade",
    "PP.C90_example7_remade",
    "PP.C90_example8_remade",
    "PP.C90_example9_remade",
    "PP.C90_example10_remade",
    "PP.C90_example11_remade",
    "PP.C90_example5_from_its_grammar_file",
    "PP.C90_example11_from_its_grammar_file"
   ],
   "note": ""
  },
  {
   "property": "C91",
   "status": "proved",
   "theorems": [
    "PP.TestMacro.C91_stem",
    "PP.TestMacro.C91_expansion_fails_iff",
    "PP.TestMacro.C91_one_test_per_file",
    "PP.TestMacro.C91_clash_iff",
    "PP.TestMacro.C91_test_passes_iff",
    "PP.TestMacro.C91_test_stays_red",
    "PP.TestMacro.C91_green_files_are_not_rejected",
    "PP.TestMacro.C91_empty_file"
   ],
   "note": ""
  },
  {
   "property": "C92",
   "status": "proved",
   "theorems": [
    "PP.C92_example1_remade",
    "PP.C92_example2_remade",
    "PP.C92_example3_remade",
    "PP.C92_example4_remade",
    "PP.C92_example1_from_its_grammar_file",
    "PP.C92_example2_from_its_grammar_file",
    "PP.C92_example3_from_its_grammar_file",
    "PP.C92_example4_from_its_grammar_file"
   ],
   "note": ""
  },
  {
   "property": "C93",
   "status": "proved",
   "theorems": [
    "PP.Run.C93_crate_on_disk_is_compiled",
    "PP.Run.C93_crate_on_disk",
    "PP.Run.C93_crate_on_disk_computes_peg",
    "PP.Run.C93_update_parsers",
    "PP.Run.C93_update_parsers_runs"
   ],
   "note": ""
  },
  {
   "property": "C94",
   "status": "proved",
   "theorems": [
    "PP.Mini.C94_generated_crate_by_hand",
    "PP.Mini.C94_by_hand_computes_peg",
    "PP.Mini.C94_by_hand_is_sound",
    "PP.Mini.C94_dsl_by_hand",
    "PP.Mini.C94_example1_by_hand",
    "PP.Mini.C94_example2_by_hand",
    "PP.Mini.C94_example3_by_hand",
    "PP.Mini.C94_example4_by_hand",
    "PP.Mini.C94_example5_by_hand",
    "PP.Mini.C94_example6_by_hand",
    "PP.Mini.C94_example7_by_hand",
    "PP.Mini.C94_example8_by_hand",
    "PP.Mini.C94_example9_by_hand",
    "PP.Mini.C94_example10_by_hand",
    "PP.Mini.C94_example11_by_hand"
   ],
   "note": ""
  },
  {
   "property": "C95",
   "status": "proved",
   "theorems": [
    "PP.Mini.C95_generated_crate_sessions",
    "PP.Mini.C95_sessions_compute_peg",
    "PP.Mini.C95_sessions_are_sound",
    "PP.Mini.C95_dsl_sessions",
    "PP.Mini.C95_example1_sessions",
    "PP.Mini.C95_example2_sessions",
    "PP.Mini.C95_example3_sessions",
    "PP.Mini.C95_example4_sessions",
    "PP.Mini.C95_example5_sessions",
    "PP.Mini.C95_example6_sessions",
    "PP.Mini.C95_example7_sessions",
    "PP.Mini.C95_example8_sessions",
    "PP.Mini.C95_example9_sessions",
    "PP.Mini.C95_example10_sessions",
    "PP.Mini.C95_sessions_end",
    "PP.Mini.C95_hooked_crate_sessions",
    "PP.Mini.C95_hooked_sessions_are_sound",
    "PP.Mini.C95_example11_sessions",
    "PP.Mini.C95_example10_runs_of_ones",
    "PP.Mini.C95_example5_iteration",
    "PP.Mini.C95_example6_iteration"
   ],
   "note": ""
  },
  {
   "property": "C96",
   "status": "proved",
   "theorems": [
    "PP.C96_calls_nest_linearly",
    "PP.C96_parse_nests_linearly",
    "PP.C96_example5_depth",
    "PP.C96_example6_depth",
    "PP.C96_example11_depth"
   ],
   "note": ""
  },
  {
   "property": "C97",
   "status": "proved",
   "theorems": [
    "PP.Mini.C97_generated_crate_stores",
    "PP.Mini.C97_dsl_stores",
    "PP.Mini.C97_example1_stores",
    "PP.Mini.C97_example2_stores",
    "PP.Mini.C97_example3_stores",
    "PP.Mini.C97_example4_stores",
    "PP.Mini.C97_example5_stores",
    "PP.Mini.C97_example6_stores",
    "PP.Mini.C97_example7_stores",
    "PP.Mini.C97_example8_stores",
    "PP.Mini.C97_example9_stores",
    "PP.Mini.C97_example10_stores",
    "PP.Mini.C97_example11_stores",
    "PP.Mini.C97_keys_stay_valid",
    "PP.Mini.C97_no_duplicate_children"
   ],
   "note": ""
  }
 ]
}