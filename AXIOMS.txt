CC.C01_ancestors: [propext, Classical.choice, Quot.sound]
CC.C01_depth: [propext, Classical.choice, Quot.sound]
CC.C01_exhausted: [propext, Classical.choice, Quot.sound]
CC.C01_spec_functional: [propext, Classical.choice, Quot.sound]
CC.C01_walk: [propext, Classical.choice, Quot.sound]
CC.C02_next: [propext, Classical.choice, Quot.sound]
CC.C02_not_both: [propext, Classical.choice, Quot.sound]
CC.C03_no_duplicates: [propext, Classical.choice, Quot.sound]
CC.C04_from_process: [propext, Classical.choice, Quot.sound]
CC.C04_option: [propext, Classical.choice, Quot.sound]
CC.C04_process_irrelevant: [propext, Classical.choice, Quot.sound]
CC.C04_rule_total: [propext, Classical.choice, Quot.sound]
CC.C05_nearest_wins: [propext, Classical.choice, Quot.sound]
CC.C06_arrays_joined: [propext, Classical.choice, Quot.sound]
CC.C07_commands_joined: [propext, Classical.choice, Quot.sound]
CC.C07_program: [propext]
CC.C08_load_fails_iff: [propext, Classical.choice, Quot.sound]
CC.C08_merge_fails_iff: [propext, Classical.choice, Quot.sound]
CC.C09_local: [propext, Classical.choice, Quot.sound]
CC.C09_only_one: [propext, Classical.choice, Quot.sound]
CC.C09_union: [propext, Classical.choice, Quot.sound]
CC.C10_assoc: [propext, Classical.choice, Quot.sound]
CC.C10_empty_file: [propext, Classical.choice, Quot.sound]
CC.C10_neutral: [propext, Classical.choice, Quot.sound]
CC.C11_elements: [propext, Classical.choice, Quot.sound]
CC.C11_keys_cover: [propext, Quot.sound]
CC.C11_scalar: [propext, Classical.choice, Quot.sound]
CC.C12_all_read: [propext, Classical.choice, Quot.sound]
CC.C12_broken: [propext, Classical.choice, Quot.sound]
CC.C12_no_files: [propext, Classical.choice, Quot.sound]
CC.C12_no_panic: [propext, Classical.choice, Quot.sound]
CC.C13_base_dir: [propext, Classical.choice, Quot.sound]
CC.C13_config: [propext, Classical.choice, Quot.sound]
CC.C13_join: [propext, Classical.choice, Quot.sound]
CC.C13_target: [propext, Classical.choice, Quot.sound]
CC.C14_from_unresolved_partial: [propext, Classical.choice, Quot.sound]
CC.C14_home_fails: [propext, Classical.choice, Quot.sound]
CC.C14_no_panic_partial: [propext, Classical.choice, Quot.sound]
CC.C14_target_fails: [propext, Classical.choice, Quot.sound]
CC.C15_env: [propext, Classical.choice, Quot.sound]
CC.C16_config: [propext, Classical.choice, Quot.sound]
CC.C16_no_panic_fails: [propext, Classical.choice, Quot.sound]
CC.C16_no_panic_partial: [propext, Classical.choice, Quot.sound]
CC.C16_panics_iff: [propext, Classical.choice, Quot.sound]
CC.C16_spec_file: [propext, Classical.choice, Quot.sound]
CC.C16_stem_unique: [propext, Quot.sound]
CC.C16_triple: [propext, Classical.choice, Quot.sound]
CC.C17_eq_iff: [propext]
CC.C17_equal_same: [propext, Classical.choice, Quot.sound]
CC.C17_hash: [propext]
CC.C17_order: [propext, Quot.sound]
CC.C17_round_trip: [propext, Classical.choice, Quot.sound]
CC.C18_dropped: [propext, Classical.choice, Quot.sound]
CC.C18_given: [propext, Classical.choice, Quot.sound]
CC.C18_load: [propext, Classical.choice, Quot.sound]
CC.C18_lookup: [propext, Classical.choice, Quot.sound]
CC.C18_map: [propext, Classical.choice, Quot.sound]
CC.C18_no_influence: [propext, Classical.choice, Quot.sound]
CC.C18_options: [propext, Classical.choice, Quot.sound]
CC.C18_process: [propext, Classical.choice, Quot.sound]
CC.C19_load: [propext, Classical.choice, Quot.sound]
CC.C19_order: [propext, Classical.choice, Quot.sound]
CC.C20_incremental: [propext, Classical.choice, Quot.sound]
CC.C20_list: [propext, Classical.choice, Quot.sound]
CC.C20_prog: [propext, Classical.choice, Quot.sound]
CC.C20_scalar: [propext, Classical.choice, Quot.sound]
CC.C20_two_variables: [propext, Classical.choice, Quot.sound]
CC.C21_disabled: [propext, Classical.choice, Quot.sound]
CC.C21_enabled: [propext, Classical.choice, Quot.sound]
CC.C21_never_empty: [propext, Classical.choice, Quot.sound]
CC.C22_sources: [propext, Classical.choice, Quot.sound]
CC.C22_suppressed: [propext, Classical.choice, Quot.sound]
CC.C23_fails_iff: [propext, Classical.choice, Quot.sound]
CC.C23_no_panic: [propext, Classical.choice, Quot.sound]
CC.C24_cargo_new_vcs_fails: [propext, Classical.choice, Quot.sound]
CC.C24_cargo_new_vcs_ignored: [propext, Classical.choice, Quot.sound]
CC.C24_honoured_partial: [propext, Classical.choice, Quot.sound]
CC.C25_browser: [propext, Classical.choice, Quot.sound]
CC.C25_idempotent: [propext, Classical.choice, Quot.sound]
CC.C25_local: [propext, Classical.choice, Quot.sound]
CC.C26_alias: [propext, Classical.choice, Quot.sound]
CC.C26_present: [propext, Classical.choice, Quot.sound]
CC.C26_protocol: [propext, Classical.choice, Quot.sound]
CC.C26_registries: [propext, Classical.choice, Quot.sound]
CC.C26_untouched: [propext, Classical.choice, Quot.sound]
CC.C27_asked: [propext, Classical.choice, Quot.sound]
CC.C27_linker: [propext, Classical.choice, Quot.sound]
CC.C27_matching: [propext, Classical.choice, Quot.sound]
CC.C27_query: [propext, Classical.choice, Quot.sound]
CC.C28_blank: [propext, Classical.choice, Quot.sound]
CC.C28_query: [propext, Classical.choice, Quot.sound]
CC.C28_runner: [propext, Classical.choice, Quot.sound]
CC.C29_env: [propext, Classical.choice, Quot.sound]
CC.C29_query: [propext, Classical.choice, Quot.sound]
CC.C29_rustflags: [propext, Classical.choice, Quot.sound]
CC.C30_env: [propext, Classical.choice, Quot.sound]
CC.C30_query: [propext, Classical.choice, Quot.sound]
CC.C30_rustdocflags: [propext, Classical.choice, Quot.sound]
CC.C31_error: [propext, Classical.choice, Quot.sound]
CC.C31_fails: [propext, Classical.choice, Quot.sound]
CC.C32_env_name: [propext, Quot.sound]
CC.C32_flags: [propext, Classical.choice, Quot.sound]
CC.C32_linker: [propext, Classical.choice, Quot.sound]
CC.C32_only: [propext, Classical.choice, Quot.sound]
CC.C32_runner: [propext, Classical.choice, Quot.sound]
CC.C32_shared_iff: [propext, Classical.choice, Quot.sound]
CC.C33_history: [propext, Classical.choice, Quot.sound]
CC.C33_loaded: [propext, Classical.choice, Quot.sound]
CC.C33_stable: [propext, Classical.choice, Quot.sound]
CC.C33_views: [propext, Classical.choice, Quot.sound]
CC.C34_command: [propext, Classical.choice, Quot.sound]
CC.C34_none: [propext, Classical.choice, Quot.sound]
CC.C34_once: [propext, Classical.choice, Quot.sound]
CC.C35_accepted_iff_partial: [propext, Classical.choice, Quot.sound]
CC.C35_accepts: [propext, Classical.choice, Quot.sound]
CC.C35_double_comma_fails: [propext, Classical.choice, Quot.sound]
CC.C35_rejects_partial: [propext, Classical.choice, Quot.sound]
CC.C35_two_roots_fails: [propext, Classical.choice, Quot.sound]
CC.C36_last_root: [propext, Classical.choice, Quot.sound]
CC.C36_value: [propext, Classical.choice, Quot.sound]
CC.C36_value_checked: [propext, Classical.choice, Quot.sound]
CC.C36_wide_fails: [propext, Classical.choice, Quot.sound]
CC.C37_eval: [propext, Classical.choice, Quot.sound]
CC.C37_panics_iff: [propext, Classical.choice, Quot.sound]
CC.C37_parse: [propext, Classical.choice, Quot.sound]
CC.C37_parse_checked_partial: [propext, Classical.choice, Quot.sound]
CC.C37_wide_fails: [propext, Classical.choice, Quot.sound]
CC.C38_spacing: [propext, Classical.choice, Quot.sound]
CC.C38_white_space: [propext, Classical.choice, Quot.sound]
CC.C39_display: [propext, Classical.choice, Quot.sound]
CC.C39_span: [propext, Classical.choice, Quot.sound]
CC.C40_flag: [propext, Classical.choice, Quot.sound]
CC.C40_pair: [propext, Classical.choice, Quot.sound]
CC.C41_decides: [propext, Classical.choice, Quot.sound]
CC.C41_known: [propext]
CC.C41_sound: [propext]
CC.C42_contents: [propext, Classical.choice, Quot.sound]
CC.C42_malformed: [propext, Classical.choice, Quot.sound]
CC.C42_no_panic: [propext, Classical.choice, Quot.sound]
CC.C43_cargo_version: [propext, Classical.choice, Quot.sound]
CC.C43_host: [propext, Classical.choice, Quot.sound]
CC.C43_major_minor: [propext, Classical.choice, Quot.sound]
CC.C43_otherwise_error: [propext, Classical.choice, Quot.sound]
CC.C43_rustc_version: [propext, Classical.choice, Quot.sound]
CC.C43_unique: [propext, Classical.choice, Quot.sound]
CC.C44_cargo_version: [propext, Classical.choice, Quot.sound]
CC.C44_host: [propext, Classical.choice, Quot.sound]
CC.C44_rustc_version: [propext, Classical.choice, Quot.sound]
CC.C45_option: [propext, Classical.choice, Quot.sound]
CC.C45_rule_unique: [propext, Classical.choice, Quot.sound]
CC.C45_tools: [propext, Classical.choice, Quot.sound]
CC.C46_fails: [propext, Classical.choice, Quot.sound]
CC.C46_first_partial: [propext, Classical.choice, Quot.sound]
CC.C46_flaky_fails: [propext, Classical.choice, Quot.sound]
CC.C46_panics_iff: [propext, Classical.choice, Quot.sound]
CC.C46_release: [propext, Classical.choice, Quot.sound]
CC.C46_steady_partial: [propext, Classical.choice, Quot.sound]
CC.C47_line: [propext, Classical.choice, Quot.sound]
CC.C47_option: [propext, Classical.choice, Quot.sound]
CC.C47_sibling: [propext, Classical.choice, Quot.sound]
CC.C47_stable: [propext, Classical.choice, Quot.sound]
CC.C47_unique: [propext, Classical.choice, Quot.sound]
CC.C48_fails: [propext, Classical.choice, Quot.sound]
CC.C48_reported: [propext, Classical.choice, Quot.sound]
CC.C48_same_compiler_partial: [propext, Classical.choice, Quot.sound]
CC.C48_succeeds_iff: [propext, Classical.choice, Quot.sound]
CC.C49_cli: [Quot.sound]
CC.C49_config: [propext, Classical.choice, Quot.sound]
CC.C49_configured: [propext, Classical.choice, Quot.sound]
CC.C49_given: [propext, Classical.choice, Quot.sound]
CC.C49_host: [propext, Classical.choice, Quot.sound]
CC.C49_never_empty: [propext, Classical.choice, Quot.sound]
CC.C50_decode: [propext]
CC.C50_encode: [propext, Classical.choice, Quot.sound]
CC.C50_encode_fails_iff: [propext, Classical.choice, Quot.sound]
CC.C50_message: [propext, Classical.choice, Quot.sound]
CC.C50_pieces: [propext, Quot.sound]
CC.C50_reencode: [propext, Classical.choice, Quot.sound]
CC.C50_roundtrip_fails: [propext, Classical.choice, Quot.sound]
CC.C50_roundtrip_iff: [propext, Classical.choice, Quot.sound]
CC.C50_roundtrip_partial: [propext, Classical.choice, Quot.sound]
CC.C51_encode_fails_iff: [propext, Classical.choice, Quot.sound]
CC.C51_message: [propext, Classical.choice, Quot.sound]
CC.C51_reads_words: [propext, Classical.choice, Quot.sound]
CC.C51_reencode: [propext, Classical.choice, Quot.sound]
CC.C51_roundtrip: [propext, Classical.choice, Quot.sound]
CC.C51_roundtrip_iff: [propext, Classical.choice, Quot.sound]
CC.C51_split_words: [propext, Classical.choice, Quot.sound]
CC.C51_white_space: [propext, Classical.choice, Quot.sound]
CC.C51_words: [propext, Classical.choice, Quot.sound]
CC.C51_wordsIn: [propext, Classical.choice, Quot.sound]
CC.C52_flags_respelled: [propext, Classical.choice, Quot.sound]
CC.C52_readable: [propext, Classical.choice, Quot.sound]
CC.C52_reads: [propext, Classical.choice, Quot.sound]
CC.C52_round_trip: [propext, Classical.choice, Quot.sound]
CC.C52_stable: [propext, Classical.choice, Quot.sound]
CC.C52_writes: [propext, Classical.choice, Quot.sound]
CC.C52_writes_only: [propext, Classical.choice, Quot.sound]
CC.C53_easy: [propext, Classical.choice, Quot.sound]
CC.C53_easy_progress: [propext, Classical.choice, Quot.sound]
CC.C53_empty: [propext, Classical.choice, Quot.sound]
CC.C53_progress: [propext, Classical.choice, Quot.sound]
CC.C53_section: [propext, Classical.choice, Quot.sound]
CC.C54_color: [propext, Classical.choice, Quot.sound]
CC.C54_frequency: [propext, Classical.choice, Quot.sound]
CC.C54_protocol: [propext, Classical.choice, Quot.sound]
CC.C54_vcs: [propext, Classical.choice, Quot.sound]
CC.C54_when: [propext, Classical.choice, Quot.sound]
CC.C55_debug: [propext, Classical.choice, Quot.sound]
CC.C55_debug_easy_partial: [propext, Classical.choice, Quot.sound]
CC.C55_debug_easy_tables: [propext, Classical.choice, Quot.sound]
CC.C55_debug_tables: [propext, Classical.choice, Quot.sound]
CC.C55_easy_debug_leaks: [propext, Classical.choice, Quot.sound]
CC.C55_env: [propext, Classical.choice, Quot.sound]
CC.C55_load: [propext, Classical.choice, Quot.sound]
CC.C55_load_with_options: [propext, Classical.choice, Quot.sound]
CC.C55_merge: [propext, Classical.choice, Quot.sound]
CC.C55_queries: [propext, Classical.choice, Quot.sound]
CC.C56_array: [propext]
CC.C56_string: [propext, Classical.choice, Quot.sound]
CC.C56_toml: [propext, Quot.sound]
CC.C57_browser: [propext, Classical.choice, Quot.sound]
CC.C57_build_target: [propext, Classical.choice, Quot.sound]
CC.C57_determined: [propext, Classical.choice, Quot.sound]
CC.C57_directories: [propext, Classical.choice, Quot.sound]
CC.C57_entries: [propext, Classical.choice, Quot.sound]
CC.C57_env: [propext, Classical.choice, Quot.sound]
CC.C57_lists: [propext, Classical.choice, Quot.sound]
CC.C57_plain: [propext, Classical.choice, Quot.sound]
CC.C57_programs: [propext, Classical.choice, Quot.sound]
CC.C57_target_tables: [propext, Classical.choice, Quot.sound]
CC.C58_definition_eq_iff: [propext]
CC.C58_equivalence: [propext]
CC.C58_value_eq_iff: [propext]
CC.C59_output_trimmed: [propext, Classical.choice, Quot.sound]
CC.C59_succeeds_iff: [propext, Classical.choice, Quot.sound]
CC.C60_cargo: [propext, Classical.choice, Quot.sound]
CC.C61_reported: [propext, Classical.choice, Quot.sound]
CC.C61_succeeds_iff: [propext, Classical.choice, Quot.sound]
CC.C62_accepted_iff: [propext, Classical.choice, Quot.sound]
CC.C62_rejected_iff: [propext, Classical.choice, Quot.sound]
CC.C63_linker: [propext, Classical.choice, Quot.sound]
CC.C63_runner: [propext, Classical.choice, Quot.sound]
CC.C63_rustdocflags: [propext, Classical.choice, Quot.sound]
CC.C63_rustflags: [propext, Classical.choice, Quot.sound]
CC.C63_tables: [propext, Classical.choice, Quot.sound]
CC.C64_home_fails: [propext, Classical.choice, Quot.sound]
CC.C64_no_panic_partial: [propext, Classical.choice, Quot.sound]
CC.C64_succeeds_iff_partial: [propext, Classical.choice, Quot.sound]
CC.C65_round_trip_partial: [propext, Classical.choice, Quot.sound]
CC.C65_spec_fails: [propext, Classical.choice, Quot.sound]
CC.C65_targets: [propext, Classical.choice, Quot.sound]
CC.C65_written: [propext, Classical.choice, Quot.sound]
CC.C65_written_only: [propext, Classical.choice, Quot.sound]
CC.C66_fails_iff: [propext, Classical.choice, Quot.sound]
CC.C66_panics_iff: [propext, Classical.choice, Quot.sound]
CC.C66_resolvable_iff: [propext, Classical.choice, Quot.sound]
CC.C66_succeeds_iff: [propext, Classical.choice, Quot.sound]
CC.C67_browser_fails: [propext, Classical.choice, Quot.sound]
CC.C67_cause_partial: [propext, Classical.choice, Quot.sound]
CC.C67_first_file: [propext, Classical.choice, Quot.sound]
CC.C67_merge: [propext, Classical.choice, Quot.sound]
CC.C67_merge_fails: [propext, Classical.choice, Quot.sound]
CC.C67_order: [propext]
CC.C67_protocol_fails: [propext, Classical.choice, Quot.sound]
CC.C67_shown: [propext, Classical.choice, Quot.sound]
CC.C68_display: [propext, Classical.choice, Quot.sound]
CC.C68_invalid: [propext, Classical.choice, Quot.sound]
CC.C68_other: [propext, Classical.choice, Quot.sound]
CC.C68_source: [propext]
CC.C68_unreadable: [propext, Classical.choice, Quot.sound]
CC.C69_cargo_version: [propext, Classical.choice, Quot.sound]
CC.C69_host: [propext, Classical.choice, Quot.sound]
CC.C69_queries: [propext, Classical.choice, Quot.sound]
CC.C69_runner_fails: [propext, Classical.choice, Quot.sound]
CC.C69_rustc_version: [propext, Classical.choice, Quot.sound]
CC.C69_target_partial: [propext, Classical.choice, Quot.sound]
CC.C70_fails_iff: [propext, Classical.choice, Quot.sound]
CC.C70_first_error: [propext, Classical.choice, Quot.sound]
CC.C70_panics_iff: [propext, Classical.choice, Quot.sound]
CC.C70_succeeds_iff: [propext, Classical.choice, Quot.sound]
CC.C71_char_fails: [propext, Classical.choice, Quot.sound]
CC.C71_error_partial: [propext, Classical.choice, Quot.sound]
CC.C71_lists_fails: [propext, Classical.choice, Quot.sound]
CC.C71_marks: [propext, Classical.choice, Quot.sound]
CC.C71_marks_fails: [propext, Classical.choice, Quot.sound]
CC.C71_message: [propext, Classical.choice, Quot.sound]
CC.C72_current: [propext, Classical.choice, Quot.sound]
CC.C72_only_configs: [propext, Classical.choice, Quot.sound]
CC.C72_raw_files: [propext, Classical.choice, Quot.sound]
CC.C72_same_files: [propext, Classical.choice, Quot.sound]
CC.C72_walk: [propext, Classical.choice, Quot.sound]
CC.C73_alias_in_config: [propext, Classical.choice, Quot.sound]
CC.C73_command: []
CC.C73_flags_in_config: [propext, Classical.choice, Quot.sound]
CC.C73_flags_in_env: [propext, Classical.choice, Quot.sound]
CC.C73_push: [propext]
CC.C73_push_encode: [propext, Classical.choice, Quot.sound]
CC.C74_inspect: [propext, Classical.choice, Quot.sound]
CC.C74_nested: [propext, Classical.choice, Quot.sound]
CC.C74_query: [propext, Classical.choice, Quot.sound]
CC.C75_loaded: [propext, Classical.choice, Quot.sound]
CC.C75_loaded_elements: [propext, Classical.choice, Quot.sound]
CC.C75_relative_ambiguous: [propext, Classical.choice, Quot.sound]
CC.C75_unambiguous: [propext, Classical.choice, Quot.sound]
CC.C76_accesses: [propext, Classical.choice, Quot.sound]
CC.C76_easy: [propext, Classical.choice, Quot.sound]
CC.C76_not_atomic: [propext, Classical.choice, Quot.sound]
CC.C76_once: [propext, Classical.choice, Quot.sound]
CC.C76_snapshot: [propext, Classical.choice, Quot.sound]
CC.C76_still: [propext, Classical.choice, Quot.sound]
CC.C77_load: [propext, Classical.choice, Quot.sound]
CC.C77_load_easy: [propext, Classical.choice, Quot.sound]
CC.C77_order: [propext, Classical.choice, Quot.sound]
CC.C77_settings: [propext, Classical.choice, Quot.sound]
CC.C77_unknown: [propext, Classical.choice, Quot.sound]
CC.C78_arrays: [propext, Classical.choice, Quot.sound]
CC.C78_entries: [propext, Classical.choice, Quot.sound]
CC.C78_hidden: [propext, Classical.choice, Quot.sound]
CC.C78_nearer: [propext, Classical.choice, Quot.sound]
CC.C78_removal: [propext, Classical.choice, Quot.sound]
CC.C78_scalar: [propext, Classical.choice, Quot.sound]
CC.C78_strings: [propext, Classical.choice, Quot.sound]
CC.C78_walk: [propext, Classical.choice, Quot.sound]
CC.C79_host_known: [propext, Classical.choice, Quot.sound]
CC.C79_processes: [propext, Classical.choice, Quot.sound]
CC.C79_working: [propext, Classical.choice, Quot.sound]
CC.C80_exactly: [propext, Classical.choice, Quot.sound]
CC.C80_no_other: [propext, Classical.choice, Quot.sound]
CC.C80_process: [propext, Classical.choice, Quot.sound]
CC.C81_answers: [propext, Classical.choice, Quot.sound]
CC.C81_commands: [propext, Classical.choice, Quot.sound]
CC.C81_load: [propext, Classical.choice, Quot.sound]
CC.C82_browser: [propext, Classical.choice, Quot.sound]
CC.C82_build_target: [propext, Classical.choice, Quot.sound]
CC.C82_directories: [propext, Classical.choice, Quot.sound]
CC.C82_env: [propext, Classical.choice, Quot.sound]
CC.C82_lists: [propext, Classical.choice, Quot.sound]
CC.C82_other_targets: [propext, Classical.choice, Quot.sound]
CC.C82_plain: [propext, Classical.choice, Quot.sound]
CC.C82_programs: [propext, Classical.choice, Quot.sound]
CC.C82_queries: [propext, Classical.choice, Quot.sound]
CC.C83_first: [propext, Classical.choice, Quot.sound]
CC.C83_free: [propext, Classical.choice, Quot.sound]
CC.C83_reason: [propext, Classical.choice, Quot.sound]
CC.C84_ambiguous: [propext, Classical.choice, Quot.sound]
CC.C84_arguments: [propext, Classical.choice, Quot.sound]
CC.C84_determined: [propext, Classical.choice, Quot.sound]
CC.C84_environment: [propext, Classical.choice, Quot.sound]
CC.C84_json: [propext, Classical.choice, Quot.sound]
CC.C84_json_unmerged: [propext, Classical.choice, Quot.sound]
CC.C84_lines: [propext, Classical.choice, Quot.sound]
CC.C84_merged: [propext, Classical.choice, Quot.sound]
CC.C84_merged_fails: [propext, Classical.choice, Quot.sound]
CC.C84_notes: [propext, Classical.choice, Quot.sound]
CC.C84_unmerged: [propext, Classical.choice, Quot.sound]
CC.C84_unmerged_stops: [propext, Classical.choice, Quot.sound]
CC.C85_first: [propext, Classical.choice, Quot.sound]
CC.C85_none: [propext, Classical.choice, Quot.sound]
CC.C85_triple: [propext, Classical.choice, Quot.sound]
CC.C86_above: [propext, Classical.choice, Quot.sound]
CC.C86_answers: [propext, Classical.choice, Quot.sound]
CC.C86_arrays: [propext, Classical.choice, Quot.sound]
CC.C86_entries: [propext, Classical.choice, Quot.sound]
CC.C86_home_between: [propext, Classical.choice, Quot.sound]
CC.C86_loads: [propext, Classical.choice, Quot.sound]
CC.C86_nothing_between: [propext, Classical.choice, Quot.sound]
CC.C86_resolved: [propext, Classical.choice, Quot.sound]
CC.C86_scalar: [propext, Classical.choice, Quot.sound]
CC.C86_strings: [propext, Classical.choice, Quot.sound]
CC.C86_walk: [propext, Classical.choice, Quot.sound]
CC.C87_contents: [propext, Classical.choice, Quot.sound]
CC.C87_left_out: [propext, Classical.choice, Quot.sound]
CC.C88_browser: [propext, Classical.choice, Quot.sound]
CC.C88_compiler: [propext, Classical.choice, Quot.sound]
CC.C88_conditions_needed: [propext, Classical.choice, Quot.sound]
CC.C88_directories: [propext, Classical.choice, Quot.sound]
CC.C88_env: [propext, Classical.choice, Quot.sound]
CC.C88_programs: [propext, Classical.choice, Quot.sound]
CC.C88_spec_files: [propext, Classical.choice, Quot.sound]
CC.C88_target: [propext, Classical.choice, Quot.sound]
CC.C89_answers: [propext, Classical.choice, Quot.sound]
CC.C89_commands: [propext, Classical.choice, Quot.sound]
CC.C89_files: [propext, Classical.choice, Quot.sound]
CC.C89_home: [propext, Classical.choice, Quot.sound]
CC.C89_load: [propext, Classical.choice, Quot.sound]
CC.C89_paths: [propext, Classical.choice, Quot.sound]
CC.C90_answers: [propext, Classical.choice, Quot.sound]
CC.C90_commands: [propext, Classical.choice, Quot.sound]
CC.C90_load: [propext, Classical.choice, Quot.sound]
CC.C91_clones: [propext, Classical.choice, Quot.sound]
CC.C91_clones_equal: [propext, Classical.choice, Quot.sound]
CC.C91_history: [propext, Classical.choice, Quot.sound]
CC.C91_loaded: [propext, Classical.choice, Quot.sound]
CC.C92_build_target: [propext, Classical.choice, Quot.sound]
CC.C92_directories: [propext, Classical.choice, Quot.sound]
CC.C92_linker: [propext, Classical.choice, Quot.sound]
CC.C92_lists: [propext, Classical.choice, Quot.sound]
CC.C92_plain: [propext, Classical.choice, Quot.sound]
CC.C92_programs: [propext, Classical.choice, Quot.sound]
CC.C92_runner: [propext, Classical.choice, Quot.sound]
CC.C93_linker: [propext, Classical.choice, Quot.sound]
CC.C93_programs: [propext, Classical.choice, Quot.sound]
CC.C93_runner: [propext, Classical.choice, Quot.sound]
CC.C93_rustdocflags: [propext, Classical.choice, Quot.sound]
CC.C93_rustflags: [propext, Classical.choice, Quot.sound]
CC.C94_raw: [propext, Classical.choice, Quot.sound]
CC.C94_resolved: [propext, Classical.choice, Quot.sound]
CC.C95_cargo: [propext, Classical.choice, Quot.sound]
CC.C95_env: [propext, Classical.choice, Quot.sound]
CC.C95_home: [propext, Classical.choice, Quot.sound]
CC.C95_host: [propext, Classical.choice, Quot.sound]
CC.C95_order: [propext, Classical.choice, Quot.sound]
CC.C95_rustc: [propext, Classical.choice, Quot.sound]
CC.C96_browser: [propext, Classical.choice, Quot.sound]
CC.C96_build_target: [propext, Classical.choice, Quot.sound]
CC.C96_lists: [propext, Classical.choice, Quot.sound]
CC.C96_loads: [propext, Classical.choice, Quot.sound]
CC.C96_queries: [propext, Classical.choice, Quot.sound]
CC.C97_env: [propext, Classical.choice, Quot.sound]
CC.C97_value: [propext, Classical.choice, Quot.sound]
CC.C98_alike: [propext, Classical.choice, Quot.sound]
CC.C98_spec_file: [propext, Classical.choice, Quot.sound]
CC.C98_spec_file_panic: [propext, Classical.choice, Quot.sound]
CC.C99_all: [propext, Classical.choice, Quot.sound]
CC.C99_any: [propext, Classical.choice, Quot.sound]
CC.C99_not: [propext, Classical.choice, Quot.sound]
CC.C99_one_table: [propext, Classical.choice, Quot.sound]
CC.C100_kept: [propext, Classical.choice, Quot.sound]
CC.C100_rustdocflags: [propext, Classical.choice, Quot.sound]
CC.C100_rustflags: [propext, Classical.choice, Quot.sound]
CC.C100_unstated: [propext, Classical.choice, Quot.sound]
CC.C101_de_morgan: [propext, Classical.choice, Quot.sound]
CC.C101_formulas: [propext, Classical.choice, Quot.sound]
CC.C101_not_not: [propext, Classical.choice, Quot.sound]
CC.C101_replaced: [propext, Classical.choice, Quot.sound]
CC.C101_swap: [propext, Classical.choice, Quot.sound]
CC.C102_environment: [propext, Classical.choice, Quot.sound]
CC.C102_given_back: [propext, Classical.choice, Quot.sound]
CC.C102_read_back: [propext, Classical.choice, Quot.sound]
CC.C103_linker: [propext, Classical.choice, Quot.sound]
CC.C103_lists: [propext, Classical.choice, Quot.sound]
CC.C103_plain: [propext, Classical.choice, Quot.sound]
CC.C103_programs: [propext, Classical.choice, Quot.sound]
CC.C103_rustdocflags: [propext, Classical.choice, Quot.sound]
CC.C103_rustflags: [propext, Classical.choice, Quot.sound]
