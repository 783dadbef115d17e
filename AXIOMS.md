# Axioms

The axioms each theorem of MANIFEST.json depends on, as printed by `#print axioms`.

## none (4 theorems)

C21_delete_resets, C39_lookup_order, C39_no_section, C69_unique

## `propext` (59 theorems)

C09_has_section_missing, C16_nested_is_lifo, C20_held_was_assigned, C22_assigned_dict_is_shared, C22_raw_option, C23_new_files_are_read, C24_bad_value, C25_no_files, C25_duplicate_option, C25_first_assignment_too_late, C26_no_text, C28_level_after_unroll, C28_quiet, C28_base_class_unroll, C28_as_at_level_zero, C35_listing, C35_sections_names, C35_force_parses_all, C35_parse_missing_only, C35_raw, C37_shared_data_start_empty, C37_empty_name, C38_message, C39_percent, C45_joined, C46_once, C46_concat, C47_operations, C48_no_list, C48_lookup_raises, C49_text, C49_header_only, C49_incomplete, C49_parse_raises, C50_class, C52_computed_once, C53_constructor, C54_host_unique, C54_computed_once, C55_system, C58_command, C60_missing_file, C60_args_stay, C63_reply, C68_lookup_raises, C68_no_list, C69_bad_arguments, C70_assign, C70_apply_raises, C70_script_known, C70_script_new, C70_script_raises, C70_apply_then_script, C70_write, C70_operations, C75_plain, C75_performs_some, C77_neutral, C77_no_reading

## `Quot.sound`, `propext` (134 theorems)

C01_parse_resolves, C01_resolved_exists_unique, C01_merge_onto_existing, C01_parse_is_replay, C01_dict_get, C01_dict_set, C01_dict_keys, C02_keys_are_closure, C02_parse_keys, C03_terminates, C03_depth_irrelevant, C03_default_loop_never_succeeds, C03_default_loop_diverges, C04_level5_never_succeeds, C04_cycle_event, C05_keys_stay_distinct, C06_other_sections_untouched, C06_new_entries_are_visited, C09_options_missing, C10_same_operation, C10_public_wins, C10_ambiguous_event, C11_strip_quotes, C12_handlers_in_order, C12_hooks_are_optional, C13_default_is_overridden, C13_default_itself_twice, C13_without_default, C15_missing_never_succeeds, C15_first_failure, C15_use_parameters, C16_log_is_nested, C16_log_is_nested_noinit, C16_chronicle_is_the_unrolling, C16_exact_log, C17_debug_level_is_invisible, C17_warning_flags_are_invisible, C17_no_log_at_level_zero, C17_notices, C17_silence, C18_event_bad_arguments, C18_event_case_insensitive, C19_rejections, C22_containers_are_independent, C22_other_objects_invisible, C22_slots_are_typed, C24_delimiters_reset, C24_brand_new, C25_partial_read, C26_missing, C26_own_missing, C28_level_step, C28_level_history, C28_prints_nothing, C33_only_relevant_sections_matter, C33_section_order_irrelevant, C34_lower_level_same_success, C35_sections, C35_options, C36_set_effect, C37_last_result, C37_history, C39_value_iff, C39_option_order, C39_plain, C39_escape_roundtrip, C39_circular_reference_raises, C43_last_file_wins, C43_section_order, C45_demand, C47_list_unique, C47_failed_parse, C48_program, C49_lines_or_incomplete, C49_interpreter, C49_write, C49_run, C50_split, C50_listed, C51_key_unique, C52_unique, C53_unique, C56_list, C59_write, C59_not_written, C59_own_file, C62_lmod, C63_load_env_args, C63_saved_args, C63_flags_words, C63_main_save, C64_lines, C65_refused, C65_no_python, C65_no_arguments, C65_failed, C65_no_location, C66_refused, C66_help, C66_no_source, C66_failed, C67_own_options, C67_shared_kept, C67_marks, C67_lookup_known, C67_sets, C68_shown, C69_lines, C69_bad_entry, C70_loaded, C70_level_step, C70_level, C71_marked, C71_readable, C75_one_reading, C75_written, C75_performs_one, C75_script, C75_script_illegible, C77_one_reading, C80_parse, C80_own, C80_one_dict, C81_columns, C81_each_key, C81_refused, C83_data, C83_parse, C84_data, C84_parse, C85_swap, C85_again, C85_parse, C87_system

## `Classical.choice`, `Quot.sound`, `propext` (281 theorems)

C04_cycles_met_iff, C04_one_notice_per_cycle, C05_reparse_same_data, C05_reparse_succeeds, C05_history, C07_answer_is_resolved, C07_same_as_fresh, C07_items_all, C08_parsed_once, C08_failed_access_stores_prefix, C09_first_access_raises, C09_missing_section, C10_routing, C10_not_an_operation, C10_dash_is_underscore, C10_ambiguous_never_succeeds, C11_strip, C11_stored_iff_unclaimed, C11_values_are_cleaned, C11_links, C14_return_codes, C18_event_decision, C18_event_monotone, C18_event_extremes, C18_parser_events_agree, C19_settings_after_history, C19_level_in_range, C20_accepts_iff, C20_rejected_unchanged, C20_holds_total, C20_read_after_history, C21_unbound_iff, C23_parsed_sections_keep_old_data, C23_access_marks, C23_other_sections_are_new, C23_untouched, C25_missing_file, C25_never_assigned, C26_text, C26_section, C26_when, C26_own_text, C26_own_section, C27_round_trip, C27_idempotent, C29_assert_section_exact, C30_assert_file_exact, C31_split_iff_words, C31_split_refuses, C31_quoted_words, C31_use_quoted, C31_use_bare, C32_nonblank_key_has_operation, C32_blank_key, C36_set_then_get, C36_set_missing_section, C38_known_iff, C38_known_order, C38_listed_never_stored, C38_hooks_by_option, C40_level_after_history, C40_message, C41_lazy_loading, C42_text_is_read, C43_files_in_order, C44_duplicate_section, C44_duplicate_option, C44_missing_header, C44_continued_bare_option, C44_empty_key, C44_empty_key_spoils, C45_exact, C45_no_empty, C45_others, C45_entry_gone, C46_expansion, C46_no_reference, C47_actions, C47_history, C48_apply, C48_history, C49_same_as_apply, C49_history, C50_values, C50_failures, C50_from_file, C51_key_of_value, C51_inverse, C52_constructor, C52_environment, C53_from_file, C53_history, C53_selected, C53_conflict, C53_bad_flag, C53_shared_option, C53_default, C53_idempotent, C54_system, C54_failures, C54_after_exit, C55_history, C55_environment, C55_failures, C55_stripped, C56_complete, C56_failures, C56_validate, C56_validate_names, C56_validate_raises, C56_history, C56_history_valid, C56_options_history, C56_for_options, C56_after_failed_validation, C57_action, C57_script, C57_both_scripts, C57_same_as_apply, C58_path_entry, C58_path_entry_differs, C58_unset_variable, C58_unset_reference, C58_empty_argument, C58_local_name, C58_hash, C58_reach, C59_read_back, C60_gen_config, C60_gen_config_fails, C60_drift, C60_args, C60_load_env, C60_load_env_fails, C61_apply, C61_new, C61_unhandled, C61_check_once, C61_write, C61_write_applied, C61_sourced, C61_main, C61_list, C62_module, C62_words, C62_changes, C62_apply, C63_target, C63_flags, C63_fragment, C63_fragment_again, C63_main_list, C63_main_fragment, C63_main_flags, C64_format, C64_list, C64_flags, C64_flags_bad, C64_environments, C64_list_config_flags, C64_list_configs, C64_list_envs, C65_no_script, C65_interactive, C65_ci, C65_ci_exit, C65_program, C66_save_failed, C66_loads, C66_ci, C66_program, C67_parse, C67_depth, C67_determined, C67_plain, C67_lookups_end, C67_same_again, C68_listing_unique, C68_listing, C68_lacks, C68_apply_and_script, C68_history, C69_values_hidden, C69_only_mentioned, C70_step, C70_origin, C70_apply, C70_apply_known, C70_apply_unknown_section, C70_apply_new, C70_listing, C70_script_then_apply, C70_after_delims, C70_after_files, C71_long, C71_short, C71_quiet, C71_agrees, C71_arguments, C71_hint, C72_loadenv, C72_genconfig, C72_one_reading, C72_refused, C72_order, C72_ci_mode, C72_genconfig_files, C72_genconfig_refused, C72_loadenv_files, C72_handover, C72_handover_usual, C73_files, C73_load_env, C73_list, C73_nothing, C73_source, C74_flags, C74_fragment, C74_save, C74_list, C74_nothing, C74_source, C75_every_text, C75_legible_or_not, C75_apply, C75_history, C75_same_as_apply, C76_answers, C76_breaks, C76_one_answer, C77_same_iff, C77_command, C77_set, C77_set_only, C77_differs, C77_escaped_reference, C77_script, C77_both_scripts, C77_same_as_apply, C78_list, C78_apply, C78_script, C78_stuck, C78_one_outcome, C79_only_prints, C79_one_trace, C79_exact, C79_empty, C79_levels, C79_notices, C79_quiet, C81_log, C81_page, C81_width, C81_no_log, C81_whole, C81_parse, C82_environment, C82_canonical, C82_two_systems, C86_operations, C86_apply, C86_rearranged, C86_any_order, C87_words, C87_order, C87_extra, C88_constructor, C88_environment, C88_system, C89_apply, C89_same_object, C90_operation, C90_history, C90_setenvironment, C90_load_env, C90_gen_config, C91_operation, C91_history, C91_setenvironment, C91_setenvironment_history
