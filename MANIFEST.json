{
 "claims": [
  {
   "property": "C01",
   "status": "proved",
   "theorems": [
    "CC.C01_ancestors",
    "CC.C01_depth",
    "CC.C01_exhausted",
    "CC.C01_spec_functional",
    "CC.C01_walk"
   ],
   "note": ""
  },
  {
   "property": "C02",
   "status": "proved",
   "theorems": [
    "CC.C02_next",
    "CC.C02_not_both"
   ],
   "note": ""
  },
  {
   "property": "C03",
   "status": "proved",
   "theorems": [
    "CC.C03_no_duplicates"
   ],
   "note": ""
  },
  {
   "property": "C04",
   "status": "proved",
   "theorems": [
    "CC.C04_from_process",
    "CC.C04_option",
    "CC.C04_process_irrelevant",
    "CC.C04_rule_total"
   ],
   "note": ""
  },
  {
   "property": "C05",
   "status": "proved",
   "theorems": [
    "CC.C05_nearest_wins"
   ],
   "note": ""
  },
  {
   "property": "C06",
   "status": "proved",
   "theorems": [
    "CC.C06_arrays_joined"
   ],
   "note": ""
  },
  {
   "property": "C07",
   "status": "proved",
   "theorems": [
    "CC.C07_commands_joined",
    "CC.C07_program"
   ],
   "note": ""
  },
  {
   "property": "C08",
   "status": "proved",
   "theorems": [
    "CC.C08_load_fails_iff",
    "CC.C08_merge_fails_iff"
   ],
   "note": ""
  },
  {
   "property": "C09",
   "status": "proved",
   "theorems": [
    "CC.C09_local",
    "CC.C09_only_one",
    "CC.C09_union"
   ],
   "note": ""
  },
  {
   "property": "C10",
   "status": "proved",
   "theorems": [
    "CC.C10_assoc",
    "CC.C10_empty_file",
    "CC.C10_neutral"
   ],
   "note": ""
  },
  {
   "property": "C11",
   "status": "proved",
   "theorems": [
    "CC.C11_elements",
    "CC.C11_keys_cover",
    "CC.C11_scalar"
   ],
   "note": ""
  },
  {
   "property": "C12",
   "status": "proved",
   "theorems": [
    "CC.C12_all_read",
    "CC.C12_broken",
    "CC.C12_no_files",
    "CC.C12_no_panic"
   ],
   "note": ""
  },
  {
   "property": "C13",
   "status": "proved",
   "theorems": [
    "CC.C13_base_dir",
    "CC.C13_config",
    "CC.C13_join",
    "CC.C13_target"
   ],
   "note": ""
  },
  {
   "property": "C14",
   "status": "partial",
   "theorems": [
    "CC.C14_from_unresolved_partial",
    "CC.C14_home_fails",
    "CC.C14_no_panic_partial",
    "CC.C14_target_fails"
   ],
   "note": "False if CARGO_HOME is the root directory or empty, and for targets not ending in a file name (negations proved: panics). Proved otherwise; C66_panics_iff and C66_resolvable_iff give the exact condition."
  },
  {
   "property": "C15",
   "status": "proved",
   "theorems": [
    "CC.C15_env"
   ],
   "note": ""
  },
  {
   "property": "C16",
   "status": "partial",
   "theorems": [
    "CC.C16_config",
    "CC.C16_no_panic_fails",
    "CC.C16_no_panic_partial",
    "CC.C16_panics_iff",
    "CC.C16_spec_file",
    "CC.C16_stem_unique",
    "CC.C16_triple"
   ],
   "note": "False for targets with a slash that do not end in a file name, which panic (negation proved). Proved otherwise; C66_panics_iff and C66_resolvable_iff give the exact condition."
  },
  {
   "property": "C17",
   "status": "proved",
   "theorems": [
    "CC.C17_eq_iff",
    "CC.C17_equal_same",
    "CC.C17_hash",
    "CC.C17_order",
    "CC.C17_round_trip"
   ],
   "note": ""
  },
  {
   "property": "C18",
   "status": "proved",
   "theorems": [
    "CC.C18_dropped",
    "CC.C18_given",
    "CC.C18_load",
    "CC.C18_lookup",
    "CC.C18_map",
    "CC.C18_no_influence",
    "CC.C18_options",
    "CC.C18_process"
   ],
   "note": ""
  },
  {
   "property": "C19",
   "status": "proved",
   "theorems": [
    "CC.C19_load",
    "CC.C19_order"
   ],
   "note": ""
  },
  {
   "property": "C20",
   "status": "proved",
   "theorems": [
    "CC.C20_incremental",
    "CC.C20_list",
    "CC.C20_prog",
    "CC.C20_scalar",
    "CC.C20_two_variables"
   ],
   "note": ""
  },
  {
   "property": "C21",
   "status": "proved",
   "theorems": [
    "CC.C21_disabled",
    "CC.C21_enabled",
    "CC.C21_never_empty"
   ],
   "note": ""
  },
  {
   "property": "C22",
   "status": "proved",
   "theorems": [
    "CC.C22_sources",
    "CC.C22_suppressed"
   ],
   "note": ""
  },
  {
   "property": "C23",
   "status": "proved",
   "theorems": [
    "CC.C23_fails_iff",
    "CC.C23_no_panic"
   ],
   "note": ""
  },
  {
   "property": "C24",
   "status": "partial",
   "theorems": [
    "CC.C24_cargo_new_vcs_fails",
    "CC.C24_cargo_new_vcs_ignored",
    "CC.C24_honoured_partial"
   ],
   "note": "False for CARGO_CARGO_NEW_VCS, which is ignored (negation proved). Proved for every other setting."
  },
  {
   "property": "C25",
   "status": "proved",
   "theorems": [
    "CC.C25_browser",
    "CC.C25_idempotent",
    "CC.C25_local"
   ],
   "note": ""
  },
  {
   "property": "C26",
   "status": "proved",
   "theorems": [
    "CC.C26_alias",
    "CC.C26_present",
    "CC.C26_protocol",
    "CC.C26_registries",
    "CC.C26_untouched"
   ],
   "note": ""
  },
  {
   "property": "C27",
   "status": "proved",
   "theorems": [
    "CC.C27_asked",
    "CC.C27_linker",
    "CC.C27_matching",
    "CC.C27_query"
   ],
   "note": ""
  },
  {
   "property": "C28",
   "status": "proved",
   "theorems": [
    "CC.C28_blank",
    "CC.C28_query",
    "CC.C28_runner"
   ],
   "note": ""
  },
  {
   "property": "C29",
   "status": "proved",
   "theorems": [
    "CC.C29_env",
    "CC.C29_query",
    "CC.C29_rustflags"
   ],
   "note": ""
  },
  {
   "property": "C30",
   "status": "proved",
   "theorems": [
    "CC.C30_env",
    "CC.C30_query",
    "CC.C30_rustdocflags"
   ],
   "note": ""
  },
  {
   "property": "C31",
   "status": "proved",
   "theorems": [
    "CC.C31_error",
    "CC.C31_fails"
   ],
   "note": ""
  },
  {
   "property": "C32",
   "status": "proved",
   "theorems": [
    "CC.C32_env_name",
    "CC.C32_flags",
    "CC.C32_linker",
    "CC.C32_only",
    "CC.C32_runner",
    "CC.C32_shared_iff"
   ],
   "note": ""
  },
  {
   "property": "C33",
   "status": "proved",
   "theorems": [
    "CC.C33_history",
    "CC.C33_loaded",
    "CC.C33_stable",
    "CC.C33_views"
   ],
   "note": ""
  },
  {
   "property": "C34",
   "status": "proved",
   "theorems": [
    "CC.C34_command",
    "CC.C34_none",
    "CC.C34_once"
   ],
   "note": ""
  },
  {
   "property": "C35",
   "status": "partial",
   "theorems": [
    "CC.C35_accepted_iff_partial",
    "CC.C35_accepts",
    "CC.C35_double_comma_fails",
    "CC.C35_rejects_partial",
    "CC.C35_two_roots_fails"
   ],
   "note": "False as stated: several formulas separated by commas and repeated commas are accepted (negations proved). Proved: every expression of the grammar is accepted, the exact accepted language, and that accepted texts with one formula and without superfluous commas belong to the grammar."
  },
  {
   "property": "C36",
   "status": "partial",
   "theorems": [
    "CC.C36_last_root",
    "CC.C36_value",
    "CC.C36_value_checked",
    "CC.C36_wide_fails"
   ],
   "note": "Proved for every expression of the grammar with at most 255 functions among the operands of a function (always the case with overflow checks); fails beyond that without overflow checks (negation proved)."
  },
  {
   "property": "C37",
   "status": "partial",
   "theorems": [
    "CC.C37_eval",
    "CC.C37_panics_iff",
    "CC.C37_parse",
    "CC.C37_parse_checked_partial",
    "CC.C37_wide_fails"
   ],
   "note": "Never panics without overflow checks; with overflow checks 256 functions in one operand list panic (negation proved), fewer than 256 opening parentheses do not; C37_panics_iff says exactly when."
  },
  {
   "property": "C38",
   "status": "proved",
   "theorems": [
    "CC.C38_spacing",
    "CC.C38_white_space"
   ],
   "note": ""
  },
  {
   "property": "C39",
   "status": "proved",
   "theorems": [
    "CC.C39_display",
    "CC.C39_span"
   ],
   "note": ""
  },
  {
   "property": "C40",
   "status": "proved",
   "theorems": [
    "CC.C40_flag",
    "CC.C40_pair"
   ],
   "note": ""
  },
  {
   "property": "C41",
   "status": "proved",
   "theorems": [
    "CC.C41_decides",
    "CC.C41_known",
    "CC.C41_sound"
   ],
   "note": ""
  },
  {
   "property": "C42",
   "status": "proved",
   "theorems": [
    "CC.C42_contents",
    "CC.C42_malformed",
    "CC.C42_no_panic"
   ],
   "note": ""
  },
  {
   "property": "C43",
   "status": "proved",
   "theorems": [
    "CC.C43_cargo_version",
    "CC.C43_host",
    "CC.C43_major_minor",
    "CC.C43_otherwise_error",
    "CC.C43_rustc_version",
    "CC.C43_unique"
   ],
   "note": ""
  },
  {
   "property": "C44",
   "status": "proved",
   "theorems": [
    "CC.C44_cargo_version",
    "CC.C44_host",
    "CC.C44_rustc_version"
   ],
   "note": ""
  },
  {
   "property": "C45",
   "status": "proved",
   "theorems": [
    "CC.C45_option",
    "CC.C45_rule_unique",
    "CC.C45_tools"
   ],
   "note": ""
  },
  {
   "property": "C46",
   "status": "partial",
   "theorems": [
    "CC.C46_fails",
    "CC.C46_first_partial",
    "CC.C46_flaky_fails",
    "CC.C46_panics_iff",
    "CC.C46_release",
    "CC.C46_steady_partial"
   ],
   "note": "False in builds with debug assertions (two negations proved: tools without a host line; a compiler that appears later). Proved: never without debug assertions, never for the first query, and never for any sequence of queries if the tools are steady and print a host line with the version; C46_panics_iff says exactly in which states a query panics."
  },
  {
   "property": "C47",
   "status": "proved",
   "theorems": [
    "CC.C47_line",
    "CC.C47_option",
    "CC.C47_sibling",
    "CC.C47_stable",
    "CC.C47_unique"
   ],
   "note": ""
  },
  {
   "property": "C48",
   "status": "partial",
   "theorems": [
    "CC.C48_fails",
    "CC.C48_reported",
    "CC.C48_same_compiler_partial",
    "CC.C48_succeeds_iff"
   ],
   "note": "False if a compiler is given with ResolveOptions::rustc, which rustc_version ignores (negation proved). Proved: what rustc_version asks, when it succeeds, and that it is the compiler of Config::rustc otherwise."
  },
  {
   "property": "C49",
   "status": "proved",
   "theorems": [
    "CC.C49_cli",
    "CC.C49_config",
    "CC.C49_configured",
    "CC.C49_given",
    "CC.C49_host",
    "CC.C49_never_empty"
   ],
   "note": ""
  },
  {
   "property": "C50",
   "status": "partial",
   "theorems": [
    "CC.C50_decode",
    "CC.C50_encode",
    "CC.C50_encode_fails_iff",
    "CC.C50_message",
    "CC.C50_pieces",
    "CC.C50_reencode",
    "CC.C50_roundtrip_fails",
    "CC.C50_roundtrip_iff",
    "CC.C50_roundtrip_partial"
   ],
   "note": "The round trip fails for an empty list and for a leading empty flag (negation proved); exact condition proved."
  },
  {
   "property": "C51",
   "status": "proved",
   "theorems": [
    "CC.C51_encode_fails_iff",
    "CC.C51_message",
    "CC.C51_reads_words",
    "CC.C51_reencode",
    "CC.C51_roundtrip",
    "CC.C51_roundtrip_iff",
    "CC.C51_split_words",
    "CC.C51_white_space",
    "CC.C51_words",
    "CC.C51_wordsIn"
   ],
   "note": ""
  },
  {
   "property": "C52",
   "status": "proved",
   "theorems": [
    "CC.C52_flags_respelled",
    "CC.C52_readable",
    "CC.C52_reads",
    "CC.C52_round_trip",
    "CC.C52_stable",
    "CC.C52_writes",
    "CC.C52_writes_only"
   ],
   "note": ""
  },
  {
   "property": "C53",
   "status": "proved",
   "theorems": [
    "CC.C53_easy",
    "CC.C53_easy_progress",
    "CC.C53_empty",
    "CC.C53_progress",
    "CC.C53_section"
   ],
   "note": ""
  },
  {
   "property": "C54",
   "status": "proved",
   "theorems": [
    "CC.C54_color",
    "CC.C54_frequency",
    "CC.C54_protocol",
    "CC.C54_vcs",
    "CC.C54_when"
   ],
   "note": ""
  },
  {
   "property": "C55",
   "status": "partial",
   "theorems": [
    "CC.C55_debug",
    "CC.C55_debug_easy_partial",
    "CC.C55_debug_easy_tables",
    "CC.C55_debug_tables",
    "CC.C55_easy_debug_leaks",
    "CC.C55_env",
    "CC.C55_load",
    "CC.C55_load_with_options",
    "CC.C55_merge",
    "CC.C55_queries"
   ],
   "note": "Proved in full for the unresolved config and registry tables, merge errors, loading, environment and all queries (non-interference). Debug of easy::Config as a whole shows the kept environment and with it tokens in variables: C55_easy_debug_leaks; C55_debug_easy_partial shows this is the only channel."
  },
  {
   "property": "C56",
   "status": "proved",
   "theorems": [
    "CC.C56_array",
    "CC.C56_string",
    "CC.C56_toml"
   ],
   "note": ""
  },
  {
   "property": "C57",
   "status": "proved",
   "theorems": [
    "CC.C57_browser",
    "CC.C57_build_target",
    "CC.C57_determined",
    "CC.C57_directories",
    "CC.C57_entries",
    "CC.C57_env",
    "CC.C57_lists",
    "CC.C57_plain",
    "CC.C57_programs",
    "CC.C57_target_tables"
   ],
   "note": ""
  },
  {
   "property": "C58",
   "status": "proved",
   "theorems": [
    "CC.C58_definition_eq_iff",
    "CC.C58_equivalence",
    "CC.C58_value_eq_iff"
   ],
   "note": ""
  },
  {
   "property": "C59",
   "status": "proved",
   "theorems": [
    "CC.C59_output_trimmed",
    "CC.C59_succeeds_iff"
   ],
   "note": ""
  },
  {
   "property": "C60",
   "status": "proved",
   "theorems": [
    "CC.C60_cargo"
   ],
   "note": ""
  },
  {
   "property": "C61",
   "status": "proved",
   "theorems": [
    "CC.C61_reported",
    "CC.C61_succeeds_iff"
   ],
   "note": ""
  },
  {
   "property": "C62",
   "status": "proved",
   "theorems": [
    "CC.C62_accepted_iff",
    "CC.C62_rejected_iff"
   ],
   "note": ""
  },
  {
   "property": "C63",
   "status": "proved",
   "theorems": [
    "CC.C63_linker",
    "CC.C63_runner",
    "CC.C63_rustdocflags",
    "CC.C63_rustflags",
    "CC.C63_tables"
   ],
   "note": ""
  },
  {
   "property": "C64",
   "status": "partial",
   "theorems": [
    "CC.C64_home_fails",
    "CC.C64_no_panic_partial",
    "CC.C64_succeeds_iff_partial"
   ],
   "note": "Proved unless CARGO_HOME is the root directory or empty, in which case a query may panic (negation proved). C70 says exactly when, without this condition."
  },
  {
   "property": "C65",
   "status": "partial",
   "theorems": [
    "CC.C65_round_trip_partial",
    "CC.C65_spec_fails",
    "CC.C65_targets",
    "CC.C65_written",
    "CC.C65_written_only"
   ],
   "note": "What is written is proved in full. Reloading: proved for all settings and all targets asked for by their triple; the settings of targets with a spec file are lost (negation proved)."
  },
  {
   "property": "C66",
   "status": "proved",
   "theorems": [
    "CC.C66_fails_iff",
    "CC.C66_panics_iff",
    "CC.C66_resolvable_iff",
    "CC.C66_succeeds_iff"
   ],
   "note": ""
  },
  {
   "property": "C67",
   "status": "partial",
   "theorems": [
    "CC.C67_browser_fails",
    "CC.C67_cause_partial",
    "CC.C67_first_file",
    "CC.C67_merge",
    "CC.C67_merge_fails",
    "CC.C67_order",
    "CC.C67_protocol_fails",
    "CC.C67_shown"
   ],
   "note": "False for two variables that are not named and for the second file of a disagreement (negations proved). Proved: which defect is reported, its message, and that it names the file or variable otherwise."
  },
  {
   "property": "C68",
   "status": "proved",
   "theorems": [
    "CC.C68_display",
    "CC.C68_invalid",
    "CC.C68_other",
    "CC.C68_source",
    "CC.C68_unreadable"
   ],
   "note": ""
  },
  {
   "property": "C69",
   "status": "partial",
   "theorems": [
    "CC.C69_cargo_version",
    "CC.C69_host",
    "CC.C69_queries",
    "CC.C69_runner_fails",
    "CC.C69_rustc_version",
    "CC.C69_target_partial"
   ],
   "note": "False for a blank runner variable, which is not named (negation proved). Proved otherwise, for every query in every state."
  },
  {
   "property": "C70",
   "status": "proved",
   "theorems": [
    "CC.C70_fails_iff",
    "CC.C70_first_error",
    "CC.C70_panics_iff",
    "CC.C70_succeeds_iff"
   ],
   "note": ""
  },
  {
   "property": "C71",
   "status": "partial",
   "theorems": [
    "CC.C71_char_fails",
    "CC.C71_error_partial",
    "CC.C71_lists_fails",
    "CC.C71_marks",
    "CC.C71_marks_fails",
    "CC.C71_message"
   ],
   "note": "Place, reason and message are proved for every rejection. The lists of expected tokens are exact except for three cases, and the marks are displaced in texts that are not ASCII (negations proved)."
  },
  {
   "property": "C72",
   "status": "proved",
   "theorems": [
    "CC.C72_current",
    "CC.C72_only_configs",
    "CC.C72_raw_files",
    "CC.C72_same_files",
    "CC.C72_walk"
   ],
   "note": ""
  },
  {
   "property": "C73",
   "status": "proved",
   "theorems": [
    "CC.C73_alias_in_config",
    "CC.C73_command",
    "CC.C73_flags_in_config",
    "CC.C73_flags_in_env",
    "CC.C73_push",
    "CC.C73_push_encode"
   ],
   "note": ""
  },
  {
   "property": "C74",
   "status": "proved",
   "theorems": [
    "CC.C74_inspect",
    "CC.C74_nested",
    "CC.C74_query"
   ],
   "note": ""
  },
  {
   "property": "C75",
   "status": "proved",
   "theorems": [
    "CC.C75_loaded",
    "CC.C75_loaded_elements",
    "CC.C75_relative_ambiguous",
    "CC.C75_unambiguous"
   ],
   "note": ""
  },
  {
   "property": "C76",
   "status": "proved",
   "theorems": [
    "CC.C76_accesses",
    "CC.C76_easy",
    "CC.C76_not_atomic",
    "CC.C76_once",
    "CC.C76_snapshot",
    "CC.C76_still"
   ],
   "note": ""
  },
  {
   "property": "C77",
   "status": "proved",
   "theorems": [
    "CC.C77_load",
    "CC.C77_load_easy",
    "CC.C77_order",
    "CC.C77_settings",
    "CC.C77_unknown"
   ],
   "note": ""
  },
  {
   "property": "C78",
   "status": "proved",
   "theorems": [
    "CC.C78_arrays",
    "CC.C78_entries",
    "CC.C78_hidden",
    "CC.C78_nearer",
    "CC.C78_removal",
    "CC.C78_scalar",
    "CC.C78_strings",
    "CC.C78_walk"
   ],
   "note": ""
  },
  {
   "property": "C79",
   "status": "proved",
   "theorems": [
    "CC.C79_host_known",
    "CC.C79_processes",
    "CC.C79_working"
   ],
   "note": ""
  },
  {
   "property": "C80",
   "status": "proved",
   "theorems": [
    "CC.C80_exactly",
    "CC.C80_no_other",
    "CC.C80_process"
   ],
   "note": ""
  },
  {
   "property": "C81",
   "status": "proved",
   "theorems": [
    "CC.C81_answers",
    "CC.C81_commands",
    "CC.C81_load"
   ],
   "note": ""
  },
  {
   "property": "C82",
   "status": "proved",
   "theorems": [
    "CC.C82_browser",
    "CC.C82_build_target",
    "CC.C82_directories",
    "CC.C82_env",
    "CC.C82_lists",
    "CC.C82_other_targets",
    "CC.C82_plain",
    "CC.C82_programs",
    "CC.C82_queries"
   ],
   "note": ""
  },
  {
   "property": "C83",
   "status": "proved",
   "theorems": [
    "CC.C83_first",
    "CC.C83_free",
    "CC.C83_reason"
   ],
   "note": ""
  },
  {
   "property": "C84",
   "status": "proved",
   "theorems": [
    "CC.C84_ambiguous",
    "CC.C84_arguments",
    "CC.C84_determined",
    "CC.C84_environment",
    "CC.C84_json",
    "CC.C84_json_unmerged",
    "CC.C84_lines",
    "CC.C84_merged",
    "CC.C84_merged_fails",
    "CC.C84_notes",
    "CC.C84_unmerged",
    "CC.C84_unmerged_stops"
   ],
   "note": ""
  },
  {
   "property": "C85",
   "status": "proved",
   "theorems": [
    "CC.C85_first",
    "CC.C85_none",
    "CC.C85_triple"
   ],
   "note": ""
  },
  {
   "property": "C86",
   "status": "proved",
   "theorems": [
    "CC.C86_above",
    "CC.C86_answers",
    "CC.C86_arrays",
    "CC.C86_entries",
    "CC.C86_home_between",
    "CC.C86_loads",
    "CC.C86_nothing_between",
    "CC.C86_resolved",
    "CC.C86_scalar",
    "CC.C86_strings",
    "CC.C86_walk"
   ],
   "note": ""
  },
  {
   "property": "C87",
   "status": "proved",
   "theorems": [
    "CC.C87_contents",
    "CC.C87_left_out"
   ],
   "note": ""
  },
  {
   "property": "C88",
   "status": "proved",
   "theorems": [
    "CC.C88_browser",
    "CC.C88_compiler",
    "CC.C88_conditions_needed",
    "CC.C88_directories",
    "CC.C88_env",
    "CC.C88_programs",
    "CC.C88_spec_files",
    "CC.C88_target"
   ],
   "note": ""
  },
  {
   "property": "C89",
   "status": "proved",
   "theorems": [
    "CC.C89_answers",
    "CC.C89_commands",
    "CC.C89_files",
    "CC.C89_home",
    "CC.C89_load",
    "CC.C89_paths"
   ],
   "note": ""
  },
  {
   "property": "C90",
   "status": "proved",
   "theorems": [
    "CC.C90_answers",
    "CC.C90_commands",
    "CC.C90_load"
   ],
   "note": ""
  },
  {
   "property": "C91",
   "status": "proved",
   "theorems": [
    "CC.C91_clones",
    "CC.C91_clones_equal",
    "CC.C91_history",
    "CC.C91_loaded"
   ],
   "note": ""
  },
  {
   "property": "C92",
   "status": "proved",
   "theorems": [
    "CC.C92_build_target",
    "CC.C92_directories",
    "CC.C92_linker",
    "CC.C92_lists",
    "CC.C92_plain",
    "CC.C92_programs",
    "CC.C92_runner"
   ],
   "note": ""
  },
  {
   "property": "C93",
   "status": "proved",
   "theorems": [
    "CC.C93_linker",
    "CC.C93_programs",
    "CC.C93_runner",
    "CC.C93_rustdocflags",
    "CC.C93_rustflags"
   ],
   "note": ""
  },
  {
   "property": "C94",
   "status": "proved",
   "theorems": [
    "CC.C94_raw",
    "CC.C94_resolved"
   ],
   "note": ""
  },
  {
   "property": "C95",
   "status": "proved",
   "theorems": [
    "CC.C95_cargo",
    "CC.C95_env",
    "CC.C95_home",
    "CC.C95_host",
    "CC.C95_order",
    "CC.C95_rustc"
   ],
   "note": ""
  },
  {
   "property": "C96",
   "status": "proved",
   "theorems": [
    "CC.C96_browser",
    "CC.C96_build_target",
    "CC.C96_lists",
    "CC.C96_loads",
    "CC.C96_queries"
   ],
   "note": ""
  },
  {
   "property": "C97",
   "status": "proved",
   "theorems": [
    "CC.C97_env",
    "CC.C97_value"
   ],
   "note": ""
  },
  {
   "property": "C98",
   "status": "proved",
   "theorems": [
    "CC.C98_alike",
    "CC.C98_spec_file",
    "CC.C98_spec_file_panic"
   ],
   "note": ""
  },
  {
   "property": "C99",
   "status": "proved",
   "theorems": [
    "CC.C99_all",
    "CC.C99_any",
    "CC.C99_not",
    "CC.C99_one_table"
   ],
   "note": ""
  },
  {
   "property": "C100",
   "status": "proved",
   "theorems": [
    "CC.C100_kept",
    "CC.C100_rustdocflags",
    "CC.C100_rustflags",
    "CC.C100_unstated"
   ],
   "note": ""
  },
  {
   "property": "C101",
   "status": "proved",
   "theorems": [
    "CC.C101_de_morgan",
    "CC.C101_formulas",
    "CC.C101_not_not",
    "CC.C101_replaced",
    "CC.C101_swap"
   ],
   "note": ""
  },
  {
   "property": "C102",
   "status": "proved",
   "theorems": [
    "CC.C102_environment",
    "CC.C102_given_back",
    "CC.C102_read_back"
   ],
   "note": ""
  },
  {
   "property": "C103",
   "status": "proved",
   "theorems": [
    "CC.C103_linker",
    "CC.C103_lists",
    "CC.C103_plain",
    "CC.C103_programs",
    "CC.C103_rustdocflags",
    "CC.C103_rustflags"
   ],
   "note": ""
  }
 ]
}