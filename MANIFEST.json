{
 "claims": [
  {
   "property": "C01",
   "status": "proved",
   "theorems": [
    "CPE.Props.C01_parse_resolves",
    "CPE.Props.C01_resolved_exists_unique",
    "CPE.Props.C01_merge_onto_existing",
    "CPE.Props.C01_parse_is_replay",
    "CPE.Props.C01_dict_get",
    "CPE.Props.C01_dict_set",
    "CPE.Props.C01_dict_keys"
   ],
   "note": ""
  },
  {
   "property": "C02",
   "status": "proved",
   "theorems": [
    "CPE.Props.C02_keys_are_closure",
    "CPE.Props.C02_parse_keys"
   ],
   "note": ""
  },
  {
   "property": "C03",
   "status": "proved",
   "theorems": [
    "CPE.Props.C03_terminates",
    "CPE.Props.C03_depth_irrelevant",
    "CPE.Props.C03_default_loop_never_succeeds",
    "CPE.Props.C03_default_loop_diverges"
   ],
   "note": "depth bound: number of sections + 3 nested calls"
  },
  {
   "property": "C04",
   "status": "proved",
   "theorems": [
    "CPE.Props.C04_cycles_met_iff",
    "CPE.Props.C04_one_notice_per_cycle",
    "CPE.Props.C04_level5_never_succeeds",
    "CPE.Props.C04_cycle_event"
   ],
   "note": ""
  },
  {
   "property": "C05",
   "status": "proved",
   "theorems": [
    "CPE.Props.C05_reparse_same_data",
    "CPE.Props.C05_reparse_succeeds",
    "CPE.Props.C05_keys_stay_distinct",
    "CPE.Props.C05_history"
   ],
   "note": ""
  },
  {
   "property": "C06",
   "status": "proved",
   "theorems": [
    "CPE.Props.C06_other_sections_untouched",
    "CPE.Props.C06_new_entries_are_visited"
   ],
   "note": ""
  },
  {
   "property": "C07",
   "status": "proved",
   "theorems": [
    "CPE.Props.C07_answer_is_resolved",
    "CPE.Props.C07_same_as_fresh",
    "CPE.Props.C07_items_all"
   ],
   "note": "sections of the file; histories may contain failures and edits on other sections"
  },
  {
   "property": "C08",
   "status": "proved",
   "theorems": [
    "CPE.Props.C08_parsed_once",
    "CPE.Props.C08_failed_access_stores_prefix"
   ],
   "note": ""
  },
  {
   "property": "C09",
   "status": "proved",
   "theorems": [
    "CPE.Props.C09_has_section_missing",
    "CPE.Props.C09_options_missing",
    "CPE.Props.C09_first_access_raises",
    "CPE.Props.C09_missing_section"
   ],
   "note": ""
  },
  {
   "property": "C10",
   "status": "proved",
   "theorems": [
    "CPE.Props.C10_routing",
    "CPE.Props.C10_not_an_operation",
    "CPE.Props.C10_same_operation",
    "CPE.Props.C10_dash_is_underscore",
    "CPE.Props.C10_public_wins",
    "CPE.Props.C10_ambiguous_never_succeeds",
    "CPE.Props.C10_ambiguous_event"
   ],
   "note": ""
  },
  {
   "property": "C11",
   "status": "proved",
   "theorems": [
    "CPE.Props.C11_strip",
    "CPE.Props.C11_strip_quotes",
    "CPE.Props.C11_stored_iff_unclaimed",
    "CPE.Props.C11_values_are_cleaned",
    "CPE.Props.C11_links"
   ],
   "note": ""
  },
  {
   "property": "C12",
   "status": "proved",
   "theorems": [
    "CPE.Props.C12_handlers_in_order",
    "CPE.Props.C12_hooks_are_optional"
   ],
   "note": ""
  },
  {
   "property": "C13",
   "status": "proved",
   "theorems": [
    "CPE.Props.C13_default_is_overridden",
    "CPE.Props.C13_default_itself_twice",
    "CPE.Props.C13_without_default"
   ],
   "note": ""
  },
  {
   "property": "C14",
   "status": "proved",
   "theorems": [
    "CPE.Props.C14_return_codes"
   ],
   "note": ""
  },
  {
   "property": "C15",
   "status": "proved",
   "theorems": [
    "CPE.Props.C15_missing_never_succeeds",
    "CPE.Props.C15_first_failure",
    "CPE.Props.C15_use_parameters"
   ],
   "note": ""
  },
  {
   "property": "C16",
   "status": "proved",
   "theorems": [
    "CPE.Props.C16_log_is_nested",
    "CPE.Props.C16_log_is_nested_noinit",
    "CPE.Props.C16_nested_is_lifo",
    "CPE.Props.C16_chronicle_is_the_unrolling",
    "CPE.Props.C16_exact_log"
   ],
   "note": ""
  },
  {
   "property": "C17",
   "status": "proved",
   "theorems": [
    "CPE.Props.C17_debug_level_is_invisible",
    "CPE.Props.C17_warning_flags_are_invisible",
    "CPE.Props.C17_no_log_at_level_zero",
    "CPE.Props.C17_notices",
    "CPE.Props.C17_silence"
   ],
   "note": ""
  },
  {
   "property": "C18",
   "status": "proved",
   "theorems": [
    "CPE.Props.C18_event_decision",
    "CPE.Props.C18_event_bad_arguments",
    "CPE.Props.C18_event_case_insensitive",
    "CPE.Props.C18_event_monotone",
    "CPE.Props.C18_event_extremes",
    "CPE.Props.C18_parser_events_agree"
   ],
   "note": ""
  },
  {
   "property": "C19",
   "status": "proved",
   "theorems": [
    "CPE.Props.C19_settings_after_history",
    "CPE.Props.C19_level_in_range",
    "CPE.Props.C19_rejections"
   ],
   "note": ""
  },
  {
   "property": "C20",
   "status": "proved",
   "theorems": [
    "CPE.Props.C20_accepts_iff",
    "CPE.Props.C20_rejected_unchanged",
    "CPE.Props.C20_holds_total",
    "CPE.Props.C20_read_after_history",
    "CPE.Props.C20_held_was_assigned"
   ],
   "note": "arbitrary cast/transform/validator callables"
  },
  {
   "property": "C21",
   "status": "proved",
   "theorems": [
    "CPE.Props.C21_unbound_iff",
    "CPE.Props.C21_delete_resets"
   ],
   "note": ""
  },
  {
   "property": "C22",
   "status": "proved",
   "theorems": [
    "CPE.Props.C22_containers_are_independent",
    "CPE.Props.C22_other_objects_invisible",
    "CPE.Props.C22_assigned_dict_is_shared",
    "CPE.Props.C22_slots_are_typed",
    "CPE.Props.C22_raw_option"
   ],
   "note": "container items are strings"
  },
  {
   "property": "C23",
   "status": "proved",
   "theorems": [
    "CPE.Props.C23_new_files_are_read",
    "CPE.Props.C23_parsed_sections_keep_old_data",
    "CPE.Props.C23_access_marks",
    "CPE.Props.C23_other_sections_are_new",
    "CPE.Props.C23_untouched"
   ],
   "note": "histories may contain failures and changes on disk"
  },
  {
   "property": "C24",
   "status": "proved",
   "theorems": [
    "CPE.Props.C24_delimiters_reset",
    "CPE.Props.C24_brand_new",
    "CPE.Props.C24_bad_value"
   ],
   "note": "equality with a new object for every later history, shown by a two-run relation"
  },
  {
   "property": "C25",
   "status": "proved",
   "theorems": [
    "CPE.Props.C25_no_files",
    "CPE.Props.C25_missing_file",
    "CPE.Props.C25_duplicate_option",
    "CPE.Props.C25_partial_read",
    "CPE.Props.C25_first_assignment_too_late",
    "CPE.Props.C25_never_assigned"
   ],
   "note": ""
  },
  {
   "property": "C26",
   "status": "proved",
   "theorems": [
    "CPE.Props.C26_text",
    "CPE.Props.C26_section",
    "CPE.Props.C26_missing",
    "CPE.Props.C26_no_text",
    "CPE.Props.C26_when",
    "CPE.Props.C26_own_text",
    "CPE.Props.C26_own_section",
    "CPE.Props.C26_own_missing"
   ],
   "note": "C26_when (exactly when a text exists, and otherwise which exception) assumes that DEFAULT does not lead to another section of the file by `use`; the form of the text needs no such assumption"
  },
  {
   "property": "C27",
   "status": "proved",
   "theorems": [
    "CPE.Props.C27_round_trip",
    "CPE.Props.C27_idempotent"
   ],
   "note": "values that begin or end with white space (only possible inside quotes) are excluded by PlainValue: they do not read back"
  },
  {
   "property": "C28",
   "status": "proved",
   "theorems": [
    "CPE.Props.C28_level_after_unroll",
    "CPE.Props.C28_quiet",
    "CPE.Props.C28_base_class_unroll",
    "CPE.Props.C28_level_step",
    "CPE.Props.C28_level_history",
    "CPE.Props.C28_as_at_level_zero",
    "CPE.Props.C28_prints_nothing"
   ],
   "note": ""
  },
  {
   "property": "C29",
   "status": "proved",
   "theorems": [
    "CPE.Props.C29_assert_section_exact"
   ],
   "note": ""
  },
  {
   "property": "C30",
   "status": "proved",
   "theorems": [
    "CPE.Props.C30_assert_file_exact"
   ],
   "note": ""
  },
  {
   "property": "C31",
   "status": "proved",
   "theorems": [
    "CPE.Props.C31_split_iff_words",
    "CPE.Props.C31_split_refuses",
    "CPE.Props.C31_quoted_words",
    "CPE.Props.C31_use_quoted",
    "CPE.Props.C31_use_bare"
   ],
   "note": "tokenizer pinned against a word grammar"
  },
  {
   "property": "C32",
   "status": "proved",
   "theorems": [
    "CPE.Props.C32_nonblank_key_has_operation",
    "CPE.Props.C32_blank_key"
   ],
   "note": ""
  },
  {
   "property": "C33",
   "status": "proved",
   "theorems": [
    "CPE.Props.C33_only_relevant_sections_matter",
    "CPE.Props.C33_section_order_irrelevant"
   ],
   "note": ""
  },
  {
   "property": "C34",
   "status": "proved",
   "theorems": [
    "CPE.Props.C34_lower_level_same_success"
   ],
   "note": ""
  },
  {
   "property": "C35",
   "status": "proved",
   "theorems": [
    "CPE.Props.C35_listing",
    "CPE.Props.C35_sections_names",
    "CPE.Props.C35_force_parses_all",
    "CPE.Props.C35_parse_missing_only",
    "CPE.Props.C35_sections",
    "CPE.Props.C35_options",
    "CPE.Props.C35_raw"
   ],
   "note": ""
  },
  {
   "property": "C36",
   "status": "proved",
   "theorems": [
    "CPE.Props.C36_set_effect",
    "CPE.Props.C36_set_then_get",
    "CPE.Props.C36_set_missing_section"
   ],
   "note": ""
  },
  {
   "property": "C37",
   "status": "proved",
   "theorems": [
    "CPE.Props.C37_shared_data_start_empty",
    "CPE.Props.C37_last_result",
    "CPE.Props.C37_empty_name",
    "CPE.Props.C37_history"
   ],
   "note": ""
  },
  {
   "property": "C38",
   "status": "proved",
   "theorems": [
    "CPE.Props.C38_known_iff",
    "CPE.Props.C38_known_order",
    "CPE.Props.C38_listed_never_stored",
    "CPE.Props.C38_hooks_by_option",
    "CPE.Props.C38_message"
   ],
   "note": "listed-never-stored is for method names without a dash, as any method defined with def"
  },
  {
   "property": "C39",
   "status": "proved",
   "theorems": [
    "CPE.Props.C39_value_iff",
    "CPE.Props.C39_lookup_order",
    "CPE.Props.C39_option_order",
    "CPE.Props.C39_no_section",
    "CPE.Props.C39_plain",
    "CPE.Props.C39_percent",
    "CPE.Props.C39_escape_roundtrip",
    "CPE.Props.C39_circular_reference_raises"
   ],
   "note": "option names are compared as written (optionxform = str)"
  },
  {
   "property": "C40",
   "status": "proved",
   "theorems": [
    "CPE.Props.C40_level_after_history",
    "CPE.Props.C40_message"
   ],
   "note": ""
  },
  {
   "property": "C41",
   "status": "proved",
   "theorems": [
    "CPE.Props.C41_lazy_loading"
   ],
   "note": ""
  },
  {
   "property": "C42",
   "status": "proved",
   "theorems": [
    "CPE.Props.C42_text_is_read"
   ],
   "note": "the grammar (Spec/IniDoc) is a relation between texts and documents, the configuration is read off the document; the reader is the standard library's configparser._read, modelled line by line"
  },
  {
   "property": "C43",
   "status": "proved",
   "theorems": [
    "CPE.Props.C43_files_in_order",
    "CPE.Props.C43_last_file_wins",
    "CPE.Props.C43_section_order"
   ],
   "note": ""
  },
  {
   "property": "C44",
   "status": "proved",
   "theorems": [
    "CPE.Props.C44_duplicate_section",
    "CPE.Props.C44_duplicate_option",
    "CPE.Props.C44_missing_header",
    "CPE.Props.C44_continued_bare_option",
    "CPE.Props.C44_empty_key",
    "CPE.Props.C44_empty_key_spoils"
   ],
   "note": ""
  },
  {
   "property": "C45",
   "status": "proved",
   "theorems": [
    "CPE.Props.C45_demand",
    "CPE.Props.C45_exact",
    "CPE.Props.C45_no_empty",
    "CPE.Props.C45_others",
    "CPE.Props.C45_entry_gone",
    "CPE.Props.C45_joined"
   ],
   "note": "the search for an executable and os.environ's refusal of a name or value are abstract/modelled by class of exception"
  },
  {
   "property": "C46",
   "status": "proved",
   "theorems": [
    "CPE.Props.C46_expansion",
    "CPE.Props.C46_no_reference",
    "CPE.Props.C46_once",
    "CPE.Props.C46_concat"
   ],
   "note": ""
  },
  {
   "property": "C47",
   "status": "proved",
   "theorems": [
    "CPE.Props.C47_list_unique",
    "CPE.Props.C47_actions",
    "CPE.Props.C47_failed_parse",
    "CPE.Props.C47_history",
    "CPE.Props.C47_operations"
   ],
   "note": "assumes that no option of the file is named after the hooks initialize and finalize"
  },
  {
   "property": "C48",
   "status": "proved",
   "theorems": [
    "CPE.Props.C48_program",
    "CPE.Props.C48_apply",
    "CPE.Props.C48_no_list",
    "CPE.Props.C48_lookup_raises",
    "CPE.Props.C48_history"
   ],
   "note": "the texts in actions are readable from a Python literal in double quotes (no quote, backslash, line end or NUL); the module command is an arbitrary function of arguments and environment"
  },
  {
   "property": "C49",
   "status": "proved",
   "theorems": [
    "CPE.Props.C49_text",
    "CPE.Props.C49_header_only",
    "CPE.Props.C49_incomplete",
    "CPE.Props.C49_lines_or_incomplete",
    "CPE.Props.C49_parse_raises",
    "CPE.Props.C49_interpreter",
    "CPE.Props.C49_write",
    "CPE.Props.C49_run",
    "CPE.Props.C49_same_as_apply",
    "CPE.Props.C49_history"
   ],
   "note": "the headers of the scripts are opaque texts; running is modelled for Python scripts, of bash scripts the text is specified"
  },
  {
   "property": "C50",
   "status": "proved",
   "theorems": [
    "CPE.Props.C50_values",
    "CPE.Props.C50_failures",
    "CPE.Props.C50_from_file",
    "CPE.Props.C50_split",
    "CPE.Props.C50_listed",
    "CPE.Props.C50_class"
   ],
   "note": "a line of blanks only that no comment follows shows up as an empty value; this is how the code behaves and is part of the theorem"
  },
  {
   "property": "C51",
   "status": "proved",
   "theorems": [
    "CPE.Props.C51_key_of_value",
    "CPE.Props.C51_key_unique",
    "CPE.Props.C51_inverse"
   ],
   "note": ""
  },
  {
   "property": "C52",
   "status": "proved",
   "theorems": [
    "CPE.Props.C52_constructor",
    "CPE.Props.C52_unique",
    "CPE.Props.C52_environment",
    "CPE.Props.C52_computed_once"
   ],
   "note": "for names and aliases without regular expression metacharacters other than '.'; the regular expression engine is abstract for the others"
  },
  {
   "property": "C53",
   "status": "proved",
   "theorems": [
    "CPE.Props.C53_constructor",
    "CPE.Props.C53_from_file",
    "CPE.Props.C53_history",
    "CPE.Props.C53_selected",
    "CPE.Props.C53_unique",
    "CPE.Props.C53_conflict",
    "CPE.Props.C53_bad_flag",
    "CPE.Props.C53_shared_option",
    "CPE.Props.C53_default",
    "CPE.Props.C53_idempotent"
   ],
   "note": "idempotence assumes that no option is called SELECT_ONE or SELECT_MANY"
  },
  {
   "property": "C54",
   "status": "proved",
   "theorems": [
    "CPE.Props.C54_system",
    "CPE.Props.C54_host_unique",
    "CPE.Props.C54_failures",
    "CPE.Props.C54_computed_once",
    "CPE.Props.C54_after_exit"
   ],
   "note": "patterns with metacharacters other than '.' are decided by an abstract regular expression engine"
  },
  {
   "property": "C55",
   "status": "proved",
   "theorems": [
    "CPE.Props.C55_history",
    "CPE.Props.C55_system",
    "CPE.Props.C55_environment",
    "CPE.Props.C55_failures",
    "CPE.Props.C55_stripped"
   ],
   "note": "the composition of the tools of C50-C52 and C54; the command line and the top level file are not modelled"
  },
  {
   "property": "C56",
   "status": "proved",
   "theorems": [
    "CPE.Props.C56_complete",
    "CPE.Props.C56_failures",
    "CPE.Props.C56_validate",
    "CPE.Props.C56_validate_names",
    "CPE.Props.C56_validate_raises",
    "CPE.Props.C56_history",
    "CPE.Props.C56_history_valid",
    "CPE.Props.C56_options_history",
    "CPE.Props.C56_for_options",
    "CPE.Props.C56_after_failed_validation",
    "CPE.Props.C56_list"
   ],
   "note": "the options read after the validation are those of C26; the command line is not modelled"
  },
  {
   "property": "C57",
   "status": "proved",
   "theorems": [
    "CPE.Props.C57_action",
    "CPE.Props.C57_script",
    "CPE.Props.C57_both_scripts",
    "CPE.Props.C57_same_as_apply"
   ],
   "note": "Bash is modelled from its manual for the constructs the script uses; see DESIGN.md"
  },
  {
   "property": "C58",
   "status": "proved",
   "theorems": [
    "CPE.Props.C58_command",
    "CPE.Props.C58_path_entry",
    "CPE.Props.C58_path_entry_differs",
    "CPE.Props.C58_unset_variable",
    "CPE.Props.C58_unset_reference",
    "CPE.Props.C58_empty_argument",
    "CPE.Props.C58_local_name",
    "CPE.Props.C58_hash",
    "CPE.Props.C58_reach"
   ],
   "note": "divergences between the two languages, in the same model of Bash as C57"
  },
  {
   "property": "C59",
   "status": "proved",
   "theorems": [
    "CPE.Props.C59_write",
    "CPE.Props.C59_not_written",
    "CPE.Props.C59_read_back",
    "CPE.Props.C59_own_file"
   ],
   "note": "the stream is modelled by its content and the exception that refuses a write"
  },
  {
   "property": "C60",
   "status": "proved",
   "theorems": [
    "CPE.Props.C60_gen_config",
    "CPE.Props.C60_gen_config_fails",
    "CPE.Props.C60_missing_file",
    "CPE.Props.C60_drift",
    "CPE.Props.C60_args",
    "CPE.Props.C60_args_stay",
    "CPE.Props.C60_load_env",
    "CPE.Props.C60_load_env_fails"
   ],
   "note": "the sections are those of C26 (DEFAULT must not lead back to them); the command line is given, Path.resolve is an arbitrary function"
  },
  {
   "property": "C61",
   "status": "proved",
   "theorems": [
    "CPE.Props.C61_apply",
    "CPE.Props.C61_new",
    "CPE.Props.C61_unhandled",
    "CPE.Props.C61_check_once",
    "CPE.Props.C61_write",
    "CPE.Props.C61_write_applied",
    "CPE.Props.C61_sourced",
    "CPE.Props.C61_main",
    "CPE.Props.C61_list"
   ],
   "note": "the texts of the actions are ones that can be read back (Clean); sourcing is for actions on which Bash and Python agree (C57), in the same model of Bash; writing a file succeeds"
  },
  {
   "property": "C62",
   "status": "proved",
   "theorems": [
    "CPE.Props.C62_module",
    "CPE.Props.C62_words",
    "CPE.Props.C62_changes",
    "CPE.Props.C62_lmod",
    "CPE.Props.C62_apply"
   ],
   "note": "what the programs print and what executing it does is arbitrary; C62_apply is for texts that can be read back (Clean) and for modulecmd"
  },
  {
   "property": "C63",
   "status": "proved",
   "theorems": [
    "CPE.Props.C63_target",
    "CPE.Props.C63_flags",
    "CPE.Props.C63_fragment",
    "CPE.Props.C63_fragment_again",
    "CPE.Props.C63_reply",
    "CPE.Props.C63_load_env_args",
    "CPE.Props.C63_saved_args",
    "CPE.Props.C63_flags_words",
    "CPE.Props.C63_main_list",
    "CPE.Props.C63_main_save",
    "CPE.Props.C63_main_fragment",
    "CPE.Props.C63_main_flags"
   ],
   "note": "SetProgramOptionsCMake.gen_option_list is an arbitrary function of the configuration and the generator; writing succeeds and directories exist; the pattern expansion of the shell is left out"
  },
  {
   "property": "C64",
   "status": "proved",
   "theorems": [
    "CPE.Props.C64_lines",
    "CPE.Props.C64_format",
    "CPE.Props.C64_list",
    "CPE.Props.C64_flags",
    "CPE.Props.C64_flags_bad",
    "CPE.Props.C64_environments",
    "CPE.Props.C64_list_config_flags",
    "CPE.Props.C64_list_configs",
    "CPE.Props.C64_list_envs"
   ],
   "note": "the kind contains no line feed; names, options, aliases and paths are each on one line where the theorem says so"
  },
  {
   "property": "C65",
   "status": "proved",
   "theorems": [
    "CPE.Props.C65_refused",
    "CPE.Props.C65_no_python",
    "CPE.Props.C65_no_arguments",
    "CPE.Props.C65_failed",
    "CPE.Props.C65_no_location",
    "CPE.Props.C65_no_script",
    "CPE.Props.C65_interactive",
    "CPE.Props.C65_ci",
    "CPE.Props.C65_ci_exit",
    "CPE.Props.C65_program"
   ],
   "note": "none of the script's own variables is exported in the calling shell; arguments without file name patterns; USER and the paths are single words"
  },
  {
   "property": "C66",
   "status": "proved",
   "theorems": [
    "CPE.Props.C66_refused",
    "CPE.Props.C66_help",
    "CPE.Props.C66_no_source",
    "CPE.Props.C66_failed",
    "CPE.Props.C66_save_failed",
    "CPE.Props.C66_loads",
    "CPE.Props.C66_ci",
    "CPE.Props.C66_program"
   ],
   "note": "the same conditions on the calling shell; C66_program: arguments and options are words without patterns, and loading keeps the two exported variables"
  },
  {
   "property": "C67",
   "status": "proved",
   "theorems": [
    "CPE.Props.C67_parse",
    "CPE.Props.C67_depth",
    "CPE.Props.C67_determined",
    "CPE.Props.C67_plain",
    "CPE.Props.C67_lookups_end",
    "CPE.Props.C67_own_options",
    "CPE.Props.C67_shared_kept",
    "CPE.Props.C67_marks",
    "CPE.Props.C67_lookup_known",
    "CPE.Props.C67_same_again",
    "CPE.Props.C67_sets"
   ],
   "note": "C67_parse and C67_plain: links of the DEFAULT section lead to no other section (handlers may parse any section); handlers that rebind data_shared are in C80; a handler that edits data_internal is not modelled"
  },
  {
   "property": "C68",
   "status": "proved",
   "theorems": [
    "CPE.Props.C68_listing_unique",
    "CPE.Props.C68_shown",
    "CPE.Props.C68_listing",
    "CPE.Props.C68_lookup_raises",
    "CPE.Props.C68_no_list",
    "CPE.Props.C68_lacks",
    "CPE.Props.C68_apply_and_script",
    "CPE.Props.C68_history"
   ],
   "note": "the repr of an action that is no dict of a known shape is a parameter"
  },
  {
   "property": "C69",
   "status": "proved",
   "theorems": [
    "CPE.Props.C69_lines",
    "CPE.Props.C69_unique",
    "CPE.Props.C69_values_hidden",
    "CPE.Props.C69_only_mentioned",
    "CPE.Props.C69_bad_arguments",
    "CPE.Props.C69_bad_entry"
   ],
   "note": ""
  },
  {
   "property": "C70",
   "status": "proved",
   "theorems": [
    "CPE.Props.C70_step",
    "CPE.Props.C70_assign",
    "CPE.Props.C70_origin",
    "CPE.Props.C70_apply",
    "CPE.Props.C70_apply_raises",
    "CPE.Props.C70_apply_known",
    "CPE.Props.C70_apply_unknown_section",
    "CPE.Props.C70_apply_new",
    "CPE.Props.C70_script_known",
    "CPE.Props.C70_script_new",
    "CPE.Props.C70_script_raises",
    "CPE.Props.C70_listing",
    "CPE.Props.C70_apply_then_script",
    "CPE.Props.C70_script_then_apply",
    "CPE.Props.C70_after_delims",
    "CPE.Props.C70_after_files",
    "CPE.Props.C70_loaded",
    "CPE.Props.C70_write",
    "CPE.Props.C70_operations",
    "CPE.Props.C70_level_step",
    "CPE.Props.C70_level"
   ],
   "note": "configurations without options that would call a hook of the object itself (NoHookOptions), as in C46-C50"
  },
  {
   "property": "C71",
   "status": "proved",
   "theorems": [
    "CPE.Props.C71_long",
    "CPE.Props.C71_short",
    "CPE.Props.C71_quiet",
    "CPE.Props.C71_agrees",
    "CPE.Props.C71_arguments",
    "CPE.Props.C71_marked",
    "CPE.Props.C71_readable",
    "CPE.Props.C71_hint"
   ],
   "note": "the call stack is an argument (the result of traceback.format_stack()); classes whose constructor raises an instance of the class itself are left out"
  },
  {
   "property": "C72",
   "status": "proved",
   "theorems": [
    "CPE.Props.C72_loadenv",
    "CPE.Props.C72_genconfig",
    "CPE.Props.C72_one_reading",
    "CPE.Props.C72_refused",
    "CPE.Props.C72_order",
    "CPE.Props.C72_ci_mode",
    "CPE.Props.C72_genconfig_files",
    "CPE.Props.C72_genconfig_refused",
    "CPE.Props.C72_loadenv_files",
    "CPE.Props.C72_handover",
    "CPE.Props.C72_handover_usual"
   ],
   "note": "argparse is modelled as far as the two parsers use it; left out, because versions of Python differ, are the word `--` and an equals sign behind a flag in a word with a single dash; the exit code is not modelled"
  },
  {
   "property": "C73",
   "status": "proved",
   "theorems": [
    "CPE.Props.C73_files",
    "CPE.Props.C73_load_env",
    "CPE.Props.C73_list",
    "CPE.Props.C73_nothing",
    "CPE.Props.C73_source"
   ],
   "note": "the hypotheses that the files can be read say so through the documents in them (C55); actions that cannot be written in Bash are excluded as in C61"
  },
  {
   "property": "C74",
   "status": "proved",
   "theorems": [
    "CPE.Props.C74_flags",
    "CPE.Props.C74_fragment",
    "CPE.Props.C74_save",
    "CPE.Props.C74_list",
    "CPE.Props.C74_nothing",
    "CPE.Props.C74_source"
   ],
   "note": "gen_option_list of SetProgramOptionsCMake is a parameter; which exception is raised is not claimed if several files are at fault; a build name that load_env.py would take for an option is excluded (C72_handover says when)"
  },
  {
   "property": "C75",
   "status": "proved",
   "theorems": [
    "CPE.Props.C75_one_reading",
    "CPE.Props.C75_every_text",
    "CPE.Props.C75_written",
    "CPE.Props.C75_plain",
    "CPE.Props.C75_performs_one",
    "CPE.Props.C75_performs_some",
    "CPE.Props.C75_legible_or_not",
    "CPE.Props.C75_apply",
    "CPE.Props.C75_history",
    "CPE.Props.C75_script",
    "CPE.Props.C75_script_illegible",
    "CPE.Props.C75_same_as_apply"
   ],
   "note": "a value other than the last one that takes its closing quote is not covered: Python then reads on in the next value"
  },
  {
   "property": "C76",
   "status": "proved",
   "theorems": [
    "CPE.Props.C76_answers",
    "CPE.Props.C76_breaks",
    "CPE.Props.C76_one_answer"
   ],
   "note": "the base class (handler_use only); subclasses with handlers of their own: C01, C10, C16"
  },
  {
   "property": "C77",
   "status": "proved",
   "theorems": [
    "CPE.Props.C77_one_reading",
    "CPE.Props.C77_same_iff",
    "CPE.Props.C77_neutral",
    "CPE.Props.C77_command",
    "CPE.Props.C77_set",
    "CPE.Props.C77_set_only",
    "CPE.Props.C77_no_reading",
    "CPE.Props.C77_differs",
    "CPE.Props.C77_escaped_reference",
    "CPE.Props.C77_script",
    "CPE.Props.C77_both_scripts",
    "CPE.Props.C77_same_as_apply"
   ],
   "note": "Bash is modelled from its manual; a value that ends in an odd number of backslashes takes the closing quote of its word and is outside the model of Bash (for Python: C75)"
  },
  {
   "property": "C78",
   "status": "proved",
   "theorems": [
    "CPE.Props.C78_list",
    "CPE.Props.C78_apply",
    "CPE.Props.C78_script",
    "CPE.Props.C78_stuck",
    "CPE.Props.C78_one_outcome"
   ],
   "note": "exception control level 2 to 4; no key begins with initialize or finalize; values whose literal the model of Python does not cover (e.g. named escapes) are excluded as in C75"
  },
  {
   "property": "C79",
   "status": "proved",
   "theorems": [
    "CPE.Props.C79_only_prints",
    "CPE.Props.C79_one_trace",
    "CPE.Props.C79_exact",
    "CPE.Props.C79_empty",
    "CPE.Props.C79_levels",
    "CPE.Props.C79_notices",
    "CPE.Props.C79_quiet"
   ],
   "note": "texts that Python computes for data (repr of a string, str of data_shared and data_internal) are arbitrary functions; C79_exact has the conditions of C03 under which a parse ends"
  },
  {
   "property": "C80",
   "status": "proved",
   "theorems": [
    "CPE.Props.C80_parse",
    "CPE.Props.C80_own",
    "CPE.Props.C80_one_dict"
   ],
   "note": "C80_parse has the conditions of C03 under which a parse ends"
  },
  {
   "property": "C81",
   "status": "proved",
   "theorems": [
    "CPE.Props.C81_log",
    "CPE.Props.C81_page",
    "CPE.Props.C81_width",
    "CPE.Props.C81_columns",
    "CPE.Props.C81_each_key",
    "CPE.Props.C81_no_log",
    "CPE.Props.C81_whole",
    "CPE.Props.C81_refused",
    "CPE.Props.C81_parse"
   ],
   "note": "a dict that is logged is taken not to be changed afterwards; the events of a parse are those of C16"
  },
  {
   "property": "C82",
   "status": "proved",
   "theorems": [
    "CPE.Props.C82_environment",
    "CPE.Props.C82_canonical",
    "CPE.Props.C82_two_systems"
   ],
   "note": "names and aliases of ordinary characters and '.'; that the conditions are needed is shown by examples, not proved to be the weakest"
  },
  {
   "property": "C83",
   "status": "proved",
   "theorems": [
    "CPE.Props.C83_data",
    "CPE.Props.C83_parse"
   ],
   "note": "what the new file has is said by Spec/Move; the values that are read are assumed to be the same, so no %(...)s across the cut; DEFAULT must not lead to the section parsed (C03)"
  },
  {
   "property": "C84",
   "status": "proved",
   "theorems": [
    "CPE.Props.C84_data",
    "CPE.Props.C84_parse"
   ],
   "note": "what the renamed file has is said by Spec/Rename; exceptions are compared by type, as in the model; DEFAULT must not lead to the section parsed (C03)"
  },
  {
   "property": "C85",
   "status": "proved",
   "theorems": [
    "CPE.Props.C85_swap",
    "CPE.Props.C85_again",
    "CPE.Props.C85_parse"
   ],
   "note": "the new file and what an option may write are said by Spec/Order; an example shows that the order matters if both can write a key; the order of handler calls is not compared"
  },
  {
   "property": "C86",
   "status": "proved",
   "theorems": [
    "CPE.Props.C86_operations",
    "CPE.Props.C86_apply",
    "CPE.Props.C86_rearranged",
    "CPE.Props.C86_any_order"
   ],
   "note": "Spec/Apart says when two actions are apart and what is assumed of the system; the lookups of the two sections are assumed not to raise anything but KeyError, as in C48; examples show that both orders are met and that the order matters if a value refers to the other variable"
  },
  {
   "property": "C87",
   "status": "proved",
   "theorems": [
    "CPE.Props.C87_words",
    "CPE.Props.C87_order",
    "CPE.Props.C87_extra",
    "CPE.Props.C87_system"
   ],
   "note": "results and failures are compared, no correctness of the section is assumed; examples show selections that are not the defaults and a clash"
  },
  {
   "property": "C88",
   "status": "proved",
   "theorems": [
    "CPE.Props.C88_constructor",
    "CPE.Props.C88_environment",
    "CPE.Props.C88_system"
   ],
   "note": "Spec/Reorder says what a reordered section is and what a tie is; an example shows that the order matters if there is a tie"
  },
  {
   "property": "C89",
   "status": "proved",
   "theorems": [
    "CPE.Props.C89_apply",
    "CPE.Props.C89_same_object"
   ],
   "note": "Spec/Twice says which actions are meant; an example applies a section twice with one object, another shows that appending does not have the property"
  },
  {
   "property": "C90",
   "status": "proved",
   "theorems": [
    "CPE.Props.C90_operation",
    "CPE.Props.C90_history",
    "CPE.Props.C90_setenvironment",
    "CPE.Props.C90_load_env",
    "CPE.Props.C90_gen_config"
   ],
   "note": "Spec/Comments says when texts differ in comments, in blank lines where no value goes on, in blanks at the ends of lines, and in line ends only; line numbers in the messages of errors are not modelled"
  },
  {
   "property": "C91",
   "status": "proved",
   "theorems": [
    "CPE.Props.C91_operation",
    "CPE.Props.C91_history",
    "CPE.Props.C91_setenvironment",
    "CPE.Props.C91_setenvironment_history"
   ],
   "note": "what a file says is that of Spec/IniDoc, as in C42 and C43; the example cuts a file with two sections in two and unrolls both"
  }
 ]
}