{
 "claims": [
  {
   "property": "C01",
   "status": "proved",
   "theorems": [
    "Detox.C01_default_output_has_no_hostile_character"
   ],
   "note": "all NUL-free names, every platform, every table environment"
  },
  {
   "property": "C02",
   "status": "proved",
   "theorems": [
    "Detox.C02_default_idempotent"
   ],
   "note": ""
  },
  {
   "property": "C03",
   "status": "proved",
   "theorems": [
    "Detox.C03_default_preserves_non_ascii"
   ],
   "note": ""
  },
  {
   "property": "C04",
   "status": "proved",
   "theorems": [
    "Detox.C04_wipeup_is_the_documented_reduction"
   ],
   "note": ""
  },
  {
   "property": "C05",
   "status": "proved",
   "theorems": [
    "Detox.C05_wipeup_normal_and_idempotent"
   ],
   "note": ""
  },
  {
   "property": "C06",
   "status": "proved",
   "theorems": [
    "Detox.C06_max_length_exact",
    "Detox.extension_or_not"
   ],
   "note": "the strict ISO C case of a name whose last dot is its first byte is excluded by hypothesis (pointer below array)"
  },
  {
   "property": "C07",
   "status": "partial",
   "theorems": [
    "Detox.C07_max_length_limit_exceeded",
    "Detox.C07_max_length_limit_met_partial",
    "Detox.C07_max_length_limit_met_iff_partial"
   ],
   "note": "The documented claim is false of the code (witness proved). It holds exactly when the name is within the limit already or its extension is shorter than the limit."
  },
  {
   "property": "C08",
   "status": "proved",
   "theorems": [
    "Detox.C08_lower_exact",
    "Detox.C08_lower_strict_iso_c_undefined"
   ],
   "note": ""
  },
  {
   "property": "C09",
   "status": "proved",
   "theorems": [
    "Detox.C09_uncgi_inverts_encoding",
    "Detox.encodes_total"
   ],
   "note": ""
  },
  {
   "property": "C10",
   "status": "proved",
   "theorems": [
    "Detox.C10_uncgi_cuts_at_encoded_nul"
   ],
   "note": ""
  },
  {
   "property": "C11",
   "status": "proved",
   "theorems": [
    "Detox.C11_utf8_translates_code_points"
   ],
   "note": "result is the translation, or the overflow of C17 when it does not fit"
  },
  {
   "property": "C12",
   "status": "proved",
   "theorems": [
    "Detox.C12_utf8_output_is_structurally_valid",
    "Detox.unicode_table_ascii"
   ],
   "note": ""
  },
  {
   "property": "C13",
   "status": "proved",
   "theorems": [
    "Detox.C13_utf8_output_values_in_range"
   ],
   "note": ""
  },
  {
   "property": "C14",
   "status": "proved",
   "theorems": [
    "Detox.C14_utf8_filter_idempotent",
    "Detox.C14_utf8_sequence_idempotent"
   ],
   "note": ""
  },
  {
   "property": "C15",
   "status": "proved",
   "theorems": [
    "Detox.C15_iso8859_1_transcodes"
   ],
   "note": ""
  },
  {
   "property": "C16",
   "status": "partial",
   "theorems": [
    "Detox.C16_legacy_is_wrong_for_cp1252",
    "Detox.C16_legacy_is_wrong_for_every_cp1252_character",
    "Detox.C16_legacy_on_latin1_partial",
    "Detox.C16_legacy_right_iff_partial",
    "Detox.C16_cp1252_alone_is_right"
   ],
   "note": "Claim false of the code (witness; in fact wrong for every CP-1252 character). It holds exactly for the names without an assigned CP-1252 character."
  },
  {
   "property": "C17",
   "status": "partial",
   "theorems": [
    "Detox.C17_safe_in_bounds_iff",
    "Detox.C17_iso_in_bounds_iff",
    "Detox.C17_utf8_in_bounds_iff",
    "Detox.C17_unicode_table_overflows",
    "Detox.C17_unicode_overflow_is_unbounded",
    "Detox.C17_long_default_overflows",
    "Detox.C17_tables_in_bounds_partial",
    "Detox.C17_plain_filters_in_bounds",
    "Detox.builtin_roomy"
   ],
   "note": "claim false of the code (witnesses); exact conditions proved as equivalences"
  },
  {
   "property": "C18",
   "status": "proved",
   "theorems": [
    "Detox.C18_cleaning_returns_a_name",
    "Detox.C18_cleaning_only_fails_by_overflow",
    "Detox.C18_review_loads_tables"
   ],
   "note": ""
  },
  {
   "property": "C19",
   "status": "proved",
   "theorems": [
    "Detox.C19_no_slash",
    "Detox.C19_slash_from_uncgi_only_and_utf8_only"
   ],
   "note": ""
  },
  {
   "property": "C20",
   "status": "proved",
   "theorems": [
    "Detox.C20_table_behaves_like_a_map"
   ],
   "note": ""
  },
  {
   "property": "C21",
   "status": "proved",
   "theorems": [
    "Detox.C21_insertion_fails_exactly"
   ],
   "note": ""
  },
  {
   "property": "C22",
   "status": "proved",
   "theorems": [
    "Detox.C22_resize_preserves",
    "Detox.C22_resize_never_changes_an_entry"
   ],
   "note": ""
  },
  {
   "property": "C23",
   "status": "proved",
   "theorems": [
    "Detox.C23_max_data_length_is_an_upper_bound"
   ],
   "note": ""
  },
  {
   "property": "C24",
   "status": "proved",
   "theorems": [
    "Detox.C24_safe_file_equals_builtin",
    "Detox.C24_unicode_file_equals_builtin",
    "Detox.C24_iso_file_is_builtin_unexpanded",
    "Detox.C24_cp1252_file_is_builtin_unexpanded",
    "Detox.C24_iso_and_cp1252_files_differ",
    "Detox.C24_c_escape_file_equals_builtin"
   ],
   "note": "the shipped iso8859_1 and cp1252 files are proved different from the built-in tables"
  },
  {
   "property": "C25",
   "status": "proved",
   "theorems": [
    "Detox.C25_table_file_loads",
    "Detox.C25_row_limit_is_sharp"
   ],
   "note": ""
  },
  {
   "property": "C26",
   "status": "proved",
   "theorems": [
    "Detox.C26_language_block_applies_iff_locale_matches"
   ],
   "note": ""
  },
  {
   "property": "C27",
   "status": "proved",
   "theorems": [
    "Detox.C27_nothing_is_lost",
    "Detox.C27_names_stay_unique",
    "Detox.C27_nothing_leaves_its_directory",
    "Detox.C27_builtin_sequences_make_no_slash"
   ],
   "note": "all prefixes of all executions on a POSIX file system (Spec/FileSystem.lean) nobody else changes"
  },
  {
   "property": "C28",
   "status": "proved",
   "theorems": [
    "Detox.C28_concurrent_creation_is_clobbered"
   ],
   "note": "negative result, concrete interleaving"
  },
  {
   "property": "C29",
   "status": "proved",
   "theorems": [
    "Detox.C29_dry_run_renames_nothing"
   ],
   "note": "all traces of the loop over the arguments, any answers of the system"
  },
  {
   "property": "C30",
   "status": "proved",
   "theorems": [
    "Detox.C30_dry_run_announces_what_a_real_run_does"
   ],
   "note": "per file, for given answers of lstat"
  },
  {
   "property": "C31",
   "status": "proved",
   "theorems": [
    "Detox.C31_renames_are_guarded"
   ],
   "note": "every rename event of every trace"
  },
  {
   "property": "C32",
   "status": "proved",
   "theorems": [
    "Detox.C32_dot_dotdot_and_empty_are_never_renamed",
    "Detox.C32_inline_prints_dots"
   ],
   "note": "renaming and inline mode"
  },
  {
   "property": "C33",
   "status": "proved",
   "theorems": [
    "Detox.C33_hidden_entries_are_passed_over"
   ],
   "note": ""
  },
  {
   "property": "C34",
   "status": "partial",
   "theorems": [
    "Detox.C34_ignored_entries_are_passed_over_partial",
    "Detox.C34_what_is_passed_over",
    "Detox.C34_second_ignored_entry_is_renamed"
   ],
   "note": "false of the code: an ignored entry checked right after another ignored entry is not recognised, because the cursor of the list is not rewound; proved otherwise, with the exact condition and a concrete run"
  },
  {
   "property": "C35",
   "status": "proved",
   "theorems": [
    "Detox.C35_only_real_directories_are_opened"
   ],
   "note": ""
  },
  {
   "property": "C36",
   "status": "partial",
   "theorems": [
    "Detox.C36_special_files_need_the_flag_partial",
    "Detox.C36_only_files_and_directories_are_renamed_partial",
    "Detox.C36_special_file_renamed_in_a_race"
   ],
   "note": "proved if nobody interferes; in a race it is false of the code (stale stat result), shown by a concrete run"
  },
  {
   "property": "C37",
   "status": "proved",
   "theorems": [
    "Detox.C37_parse_file_returns_where_the_file_is",
    "Detox.C37_returned_path_leads_to_the_file"
   ],
   "note": "first for any answers of the system; second on a file system, provided the path of the directory still leads to the same place (C62 shows that this is needed)"
  },
  {
   "property": "C38",
   "status": "proved",
   "theorems": [
    "Detox.C38_inline_filters_line_by_line",
    "Detox.C38_inline_output"
   ],
   "note": ""
  },
  {
   "property": "C39",
   "status": "proved",
   "theorems": [
    "Detox.C39_inline_never_splits_a_character",
    "Detox.C39_inline_is_safe_on_utf8"
   ],
   "note": ""
  },
  {
   "property": "C40",
   "status": "partial",
   "theorems": [
    "Detox.C40_inline_only_reads_before_its_buffer_partial",
    "Detox.C40_round_leaves_buffer_iff",
    "Detox.C40_text_stays_in_the_buffer",
    "Detox.C40_nul_reads_before_the_buffer",
    "Detox.C40_continuation_byte_reads_before_the_buffer",
    "Detox.C40_reads_before_the_buffer_later"
   ],
   "note": "false of the code for reads: exact condition and concrete runs; it never writes outside, and text with a final newline is safe"
  },
  {
   "property": "C41",
   "status": "proved",
   "theorems": [
    "Detox.C41_inline_loses_nothing",
    "Detox.C41_nul_loses_the_rest_of_the_line"
   ],
   "note": "the second shows that NUL-free input is needed"
  },
  {
   "property": "C42",
   "status": "proved",
   "theorems": [
    "Detox.C42_sequence_choice",
    "Detox.C42_no_sequence_ends_the_program"
   ],
   "note": "The second over every execution of main."
  },
  {
   "property": "C43",
   "status": "proved",
   "theorems": [
    "Detox.C43_later_files_replace_by_name",
    "Detox.C43_names_are_unique",
    "Detox.C43_last_definition_wins"
   ],
   "note": "Over the model of scanner, parser and parse_config_file."
  },
  {
   "property": "C44",
   "status": "proved",
   "theorems": [
    "Detox.C44_without_option_f",
    "Detox.C44_loaded_configuration",
    "Detox.C44_option_f_reads_only_that_file",
    "Detox.C44_option_f_result",
    "Detox.C44_option_f_missing_file_is_fatal",
    "Detox.C44_failures"
   ],
   "note": "Every trace of config_file_load. A candidate path of 256 bytes or more is skipped."
  },
  {
   "property": "C45",
   "status": "proved",
   "theorems": [
    "Detox.C45_builtin_config_is_the_shipped_file"
   ],
   "note": "Equal in every field except the source file name."
  },
  {
   "property": "C46",
   "status": "proved",
   "theorems": [
    "Detox.C46_any_layout",
    "Detox.C46_written_configuration_reads_back"
   ],
   "note": "Every sequence must have a filter and every name must be unique, as the grammar has no empty method list."
  },
  {
   "property": "C47",
   "status": "proved",
   "theorems": [
    "Detox.C47_layout_does_not_matter"
   ],
   "note": "Blanks, tabs, newlines and comments between tokens; a last comment without newline."
  },
  {
   "property": "C48",
   "status": "proved",
   "theorems": [
    "Detox.C48_filelist_is_a_list_with_a_cursor",
    "Detox.C48_iterating_delivers_everything"
   ],
   "note": ""
  },
  {
   "property": "C49",
   "status": "proved",
   "theorems": [
    "Detox.C49_every_command_line_can_be_read",
    "Detox.C49_options_exactly",
    "Detox.C49_leaving_options",
    "Detox.C49_options_mean_the_same_in_any_order"
   ],
   "note": "Over a model of getopt_long of the GNU C library."
  },
  {
   "property": "C50",
   "status": "proved",
   "theorems": [
    "Detox.C50_escapes_every_character",
    "Detox.C50_output_is_printable",
    "Detox.C50_output_is_reversible",
    "Detox.C50_program_escapes_the_text",
    "Detox.C50_program_is_safe"
   ],
   "note": "Texts without NUL; newlines stay newlines in the output of the whole program. Reversible means: reading \\x with two, \\u with four and \\U with eight digits; for the rules of C see C75."
  },
  {
   "property": "C51",
   "status": "proved",
   "theorems": [
    "Detox.C51_literal_denotes_the_entry",
    "Detox.C51_source_denotes_the_table",
    "Detox.C51_table_file",
    "Detox.C51_builtin_tables_are_generated",
    "Detox.C51_c_escape_is_generated",
    "Detox.C51_default_is_not_escaped",
    "Detox.C51_unclosed_quote_is_no_literal",
    "Detox.C51_wrong_names_are_no_literals",
    "Detox.C51_missing_file_is_undefined"
   ],
   "note": "Beyond the entries, the whole printed source is read back and its loader gives the same table; the exceptions (default translation, line breaks, wrong names) are shown by witnesses."
  },
  {
   "property": "C52",
   "status": "proved",
   "theorems": [
    "Detox.C52_utf8_output_not_always_rfc3629"
   ],
   "note": "negative result: encoded surrogates survive"
  },
  {
   "property": "C53",
   "status": "partial",
   "theorems": [
    "Detox.C53_empty_default_is_the_word_default",
    "Detox.C53_bare_default_falls_through_partial",
    "Detox.C53_empty_words_partial"
   ],
   "note": "False of the code for default \"\" (witness); proved for a bare default. The last theorem says what empty words do in any documented file: the keyword itself is taken for the word, after default and after start."
  },
  {
   "property": "C54",
   "status": "partial",
   "theorems": [
    "Detox.C54_many_short_rows_fail",
    "Detox.C54_long_rows_load_partial",
    "Detox.C25_row_limit_is_sharp"
   ],
   "note": "false of the code (a family of witnesses); exact limit proved"
  },
  {
   "property": "C55",
   "status": "partial",
   "theorems": [
    "Detox.C55_long_comment_leaks",
    "Detox.C55_short_comment_ignored_partial",
    "Detox.C55_comment_piece_ignored_partial"
   ],
   "note": "False of the code for lines over 1022 bytes (witness). For every file, comments below that and the first 1023 bytes of longer ones have no effect."
  },
  {
   "property": "C56",
   "status": "proved",
   "theorems": [
    "Detox.C56_parse_file_exactly",
    "Detox.C56_parse_file_possible"
   ],
   "note": "both directions"
  },
  {
   "property": "C57",
   "status": "proved",
   "theorems": [
    "Detox.C57_every_entry_is_treated"
   ],
   "note": ""
  },
  {
   "property": "C58",
   "status": "proved",
   "theorems": [
    "Detox.C58_directories_are_read_to_the_end_and_closed"
   ],
   "note": ""
  },
  {
   "property": "C59",
   "status": "proved",
   "theorems": [
    "Detox.C59_cleaning_terminates",
    "Detox.C59_no_endless_loop_between_system_calls"
   ],
   "note": ""
  },
  {
   "property": "C60",
   "status": "proved",
   "theorems": [
    "Detox.C60_failed_lstat_clobbers"
   ],
   "note": "negative result, concrete execution"
  },
  {
   "property": "C61",
   "status": "proved",
   "theorems": [
    "Detox.C61_only_the_window_matters"
   ],
   "note": ""
  },
  {
   "property": "C62",
   "status": "proved",
   "theorems": [
    "Detox.C62_directory_lost_from_sight"
   ],
   "note": "negative result, concrete execution"
  },
  {
   "property": "C63",
   "status": "proved",
   "theorems": [
    "Detox.C63_sentences_are_accepted",
    "Detox.C63_nothing_else_is_accepted",
    "Detox.C63_accepted_texts_have_a_meaning",
    "Detox.C63_keyword_names_need_quotes"
   ],
   "note": "Over the model of scanner and parser taken from the .l and .y files; C73 and C74 prove that the generated tables do the same."
  },
  {
   "property": "C64",
   "status": "proved",
   "theorems": [
    "Detox.C64_reading_a_config_file_is_defined",
    "Detox.C64_nul_in_a_string_is_undefined",
    "Detox.C64_big_number_is_undefined"
   ],
   "note": "Both exceptions are shown by witnesses."
  },
  {
   "property": "C65",
   "status": "proved",
   "theorems": [
    "Detox.C65_listing_and_help_touch_nothing",
    "Detox.C65_modes_that_rename_nothing"
   ],
   "note": "Every execution of main, every command line."
  },
  {
   "property": "C66",
   "status": "proved",
   "theorems": [
    "Detox.C66_renames_are_guarded",
    "Detox.C66_nothing_is_lost"
   ],
   "note": "Every execution of main; the second on a POSIX file system nobody else changes."
  },
  {
   "property": "C67",
   "status": "proved",
   "theorems": [
    "Detox.C67_tables_loaded",
    "Detox.C67_only_named_tables_can_be_missing",
    "Detox.C67_tables_of_fixed_files"
   ],
   "note": "Every execution of the loader, whatever the files contain."
  },
  {
   "property": "C68",
   "status": "proved",
   "theorems": [
    "Detox.C68_listing"
   ],
   "note": ""
  },
  {
   "property": "C69",
   "status": "proved",
   "theorems": [
    "Detox.C69_exit_status",
    "Detox.C69_failed_rename_exits_with_success"
   ],
   "note": "Every execution of main; the second shows that status 0 does not mean that every rename succeeded."
  },
  {
   "property": "C70",
   "status": "proved",
   "theorems": [
    "Detox.C70_builtin_renames",
    "Detox.C70_default_renames_are_clean",
    "Detox.C70_second_run_leaves_names_alone",
    "Detox.C70_nothing_leaves_its_directory",
    "Detox.C70_uncgi_only_moves_a_file_away"
   ],
   "note": "End to end: from the command line to the rename calls. The exception for uncgi-only is shown by a witness."
  },
  {
   "property": "C71",
   "status": "proved",
   "theorems": [
    "Detox.C71_orderly_runs_are_defined",
    "Detox.C71_unconfigured_runs_are_defined",
    "Detox.C71_encoded_nul_is_undefined"
   ],
   "note": "Definedness in the sense of the outcomes ub and stuck of the model; inline mode is included in the first theorem under the conditions of C40. The exception is shown by a witness."
  },
  {
   "property": "C72",
   "status": "proved",
   "theorems": [
    "Detox.C72_runs_are_scans",
    "Detox.C72_scans_are_runs"
   ],
   "note": "Both directions, for runs that return; runs cut short are covered by the other properties."
  },
  {
   "property": "C73",
   "status": "proved",
   "theorems": [
    "Detox.C73_scanner_match",
    "Detox.C73_scanner_file",
    "Detox.C73_scanner_lines"
   ],
   "note": "The tables are extracted from config_file_lex.c by tools/genflex.py; refilling of the buffer is left out."
  },
  {
   "property": "C74",
   "status": "proved",
   "theorems": [
    "Detox.C74_parser",
    "Detox.C74_config_file"
   ],
   "note": "The tables are extracted from config_file_yacc.c by tools/genbison.py."
  },
  {
   "property": "C75",
   "status": "partial",
   "theorems": [
    "Detox.C75_hex_escape_swallows_the_next_character",
    "Detox.C75_c1_controls_are_no_c_string",
    "Detox.C75_output_is_a_c_string_partial",
    "Detox.C75_output_is_a_c_string_iff_partial"
   ],
   "note": "False of the code in two cases, each shown by a witness; the last theorem shows that it holds exactly for the other texts."
  },
  {
   "property": "C76",
   "status": "proved",
   "theorems": [
    "Detox.C76_accepts_what_detox_loads",
    "Detox.C76_report",
    "Detox.C76_failure_is_reported",
    "Detox.C76_no_warning_means_in_bounds",
    "Detox.C76_second_check",
    "Detox.C76_exit_status",
    "Detox.C76_failed_check_exits_with_success",
    "Detox.C76_failed_check_with_b_is_undefined",
    "Detox.C76_statistics_print_a_null_pointer"
   ],
   "note": "The last three are witnesses for what the helper does not do: signal a failure by its status, stop after a failed check with -b, avoid a NULL string."
  },
  {
   "property": "C77",
   "status": "proved",
   "theorems": [
    "Detox.C77_report",
    "Detox.C77_report_resized",
    "Detox.C77_options",
    "Detox.C77_help"
   ],
   "note": "The formatting of the percentage is a parameter of the model. With a hash, the number of seeks is only bounded."
  },
  {
   "property": "C78",
   "status": "proved",
   "theorems": [
    "Detox.C78_message",
    "Detox.C78_message_option_f",
    "Detox.C78_first_wrong_token",
    "Detox.C78_unfinished",
    "Detox.C78_lines_of_earlier_files_are_counted",
    "Detox.C78_unclosed_lines_are_not_counted"
   ],
   "note": "The last two are witnesses for the exceptions. Line numbers beyond 2^31 are not covered."
  },
  {
   "property": "C79",
   "status": "proved",
   "theorems": [
    "Detox.C79_filelist_frees_everything",
    "Detox.C79_filelist_memory_runs_out"
   ],
   "note": "On the model with pointers (Model/Memory.lean, Model/MemoryLists.lean)."
  },
  {
   "property": "C80",
   "status": "proved",
   "theorems": [
    "Detox.C80_table_keeps_what_was_replaced",
    "Detox.C80_table_memory_runs_out",
    "Detox.C80_resized_table_is_a_copy"
   ],
   "note": "On the model with pointers. The count after resizing is given for the case that the copy is freed at once."
  },
  {
   "property": "C81",
   "status": "proved",
   "theorems": [
    "Detox.C81_no_memory_fault",
    "Detox.C81_same_executions",
    "Detox.C81_memory_runs_out"
   ],
   "note": "On the model with pointers (Model/MemoryFile.lean): filters, sequence_run_filters, parse_file, parse_dir, parse_inline, the loops of main. That the heap is laid out as assumed is the subject of the part of the program before."
  },
  {
   "property": "C82",
   "status": "proved",
   "theorems": [
    "Detox.C82_strings_left_behind",
    "Detox.C82_count_is_about_the_same_program",
    "Detox.C82_parse_file",
    "Detox.C82_clean_names_cost_memory"
   ],
   "note": "The exact number of leaked strings; the last theorem shows that it is not bounded."
  },
  {
   "property": "C83",
   "status": "proved",
   "theorems": [
    "Detox.C83_no_memory_fault"
   ],
   "note": "On the model with pointers (Model/MemoryMain.lean and the files it imports): the whole program. One slurp stands for opening and reading a file."
  },
  {
   "property": "C84",
   "status": "proved",
   "theorems": [
    "Detox.C84_same_executions",
    "Detox.C84_memory_runs_out"
   ],
   "note": "Connects the model with pointers to the model on values, for whole runs."
  },
  {
   "property": "C85",
   "status": "proved",
   "theorems": [
    "Detox.C85_only_null",
    "Detox.C85_quoted_string_crashes",
    "Detox.C85_name_is_lost_silently",
    "Detox.C85_file_gets_another_name"
   ],
   "note": "The last three are witnesses."
  },
  {
   "property": "C86",
   "status": "proved",
   "theorems": [
    "Detox.C86_scan_is_complete",
    "Detox.C86_silent_scan",
    "Detox.C86_silent_tree",
    "Detox.C86_silent_first_argument"
   ],
   "note": "On the file system with open directories of Spec/World.lean, for arguments whose meaning detox does not change itself (FS.Steady). C62 shows that the condition is needed."
  },
  {
   "property": "C87",
   "status": "proved",
   "theorems": [
    "Detox.C87_silent_builtin_tree",
    "Detox.C87_silent_tree_has_no_hostile_names"
   ],
   "note": "C86 for the whole program with nothing configured."
  },
  {
   "property": "C88",
   "status": "proved",
   "theorems": [
    "Detox.C88_load",
    "Detox.C88_load_any",
    "Detox.C88_main",
    "Detox.C88_main_any",
    "Detox.C88_token",
    "Detox.C88_unreadable",
    "Detox.C88_interrupted"
   ],
   "note": "For config files of at most 2^30-2 bytes; beyond, int variables of the scanner may overflow."
  },
  {
   "property": "C89",
   "status": "proved",
   "theorems": [
    "Detox.C89_main",
    "Detox.C89_parse_file",
    "Detox.C89_utf8_warnings",
    "Detox.C89_utf8_silence",
    "Detox.C89_valid_utf8_is_fine",
    "Detox.C89_max_length_warning",
    "Detox.C89_silent_limit",
    "Detox.C89_table_message"
   ],
   "note": "Texts of strerror are left out."
  },
  {
   "property": "C90",
   "status": "proved",
   "theorems": [
    "Detox.C90_silent_tree",
    "Detox.C90_silent_limit",
    "Detox.C90_silent_configured_tree",
    "Detox.C90_silent_configured_names"
   ],
   "note": "On the file system of C86, under the same condition on the arguments."
  },
  {
   "property": "C91",
   "status": "proved",
   "theorems": [
    "Detox.C91_not_brought",
    "Detox.C91_kept_out",
    "Detox.C91_no_nul",
    "Detox.C91_after_safe",
    "Detox.C91_table_file",
    "Detox.C91_table_lines",
    "Detox.C91_tables_in_use",
    "Detox.C91_no_slash"
   ],
   "note": "Names for which the sequence succeeds; when it does is the subject of C17."
  },
  {
   "property": "C92",
   "status": "proved",
   "theorems": [
    "Detox.C92_default_leaves_alone",
    "Detox.C92_default_makes_tidy",
    "Detox.C92_lower_only_leaves_alone",
    "Detox.C92_lower_leaves_alone",
    "Detox.C92_iso_only_leaves_alone",
    "Detox.C92_cp1252_only_leaves_alone",
    "Detox.C92_uncgi_only_leaves_alone",
    "Detox.C92_ascii_names",
    "Detox.C92_uncgi_leaves_alone",
    "Detox.C92_done_after_one_run",
    "Detox.C92_not_done_after_one_run",
    "Detox.C92_only_untidy_names_are_changed"
   ],
   "note": "For iso8859_1, iso8859_1-legacy and utf_8 the exact condition is given for names in ASCII; for uncgi a sufficient one."
  },
  {
   "property": "C93",
   "status": "proved",
   "theorems": [
    "Detox.C93_dry_run_tells_the_truth",
    "Detox.C93_dry_run_can_promise_too_much"
   ],
   "note": "For files that are not directories and that neither have nor want the same place; without that it is false, as the second theorem shows."
  },
  {
   "property": "C94",
   "status": "proved",
   "theorems": [
    "Detox.C94_second_run",
    "Detox.C94_second_run_of_main"
   ],
   "note": "On the file system of C86, for the sequences of which C92 shows that one pass is enough, and without ignored names in the directories (C34)."
  },
  {
   "property": "C95",
   "status": "proved",
   "theorems": [
    "Detox.C95_inline_main",
    "Detox.C95_inline_builtin",
    "Detox.C95_default_output",
    "Detox.C95_line_filter",
    "Detox.C95_pipe"
   ],
   "note": "What is printed is given for texts without NUL bytes (C41 shows what a NUL byte does). How reading and writing alternate is C105."
  },
  {
   "property": "C96",
   "status": "proved",
   "theorems": [
    "Detox.C96_only_one_meaning",
    "Detox.C96_renames_as_written",
    "Detox.C96_chained_safe_tables",
    "Detox.C96_chained_iso_tables",
    "Detox.C96_signed_char_ignores_rows",
    "Detox.C96_signed_char_matters",
    "Detox.C96_manual_example"
   ],
   "note": "For config files written in the documented syntax and table files written in the documented format. Where no config file exists, C70 applies."
  },
  {
   "property": "C97",
   "status": "proved",
   "theorems": [
    "Detox.C97_files_after_a_run",
    "Detox.C97_detox_returns",
    "Detox.C97_detox_over_files",
    "Detox.C97_detox_gets_there",
    "Detox.C97_builtin_written",
    "Detox.C97_unconfigured_over_files",
    "Detox.C97_emptied_name"
   ],
   "note": "The final state is given for arguments that are not directories and whose places are apart (C93 gives the reason for this condition); C86 and C94 treat trees. A table has room if it has rows, none of which is shorter than what the program needs (C17); without a configuration that is so for names without an encoded NUL."
  },
  {
   "property": "C98",
   "status": "proved",
   "theorems": [
    "Detox.C98_tree_after_a_run",
    "Detox.C98_only_one_result",
    "Detox.C98_order_does_not_matter",
    "Detox.C98_tree_after_main"
   ],
   "note": "For runs that return and write nothing to standard error. Nothing is said of ignored names and of what is below them (C34)."
  },
  {
   "property": "C99",
   "status": "proved",
   "theorems": [
    "Detox.C99_no_complaints",
    "Detox.C99_no_complaints_from_main"
   ],
   "note": "For runs that return."
  },
  {
   "property": "C100",
   "status": "proved",
   "theorems": [
    "Detox.C100_detox_comes_to_an_end",
    "Detox.C100_detox_gets_there"
   ],
   "note": "The bound is for an lstat that is not denied; symbolic links are not followed by the scan of a tree."
  },
  {
   "property": "C101",
   "status": "proved",
   "theorems": [
    "Detox.C101_dry_run_over_a_tree",
    "Detox.C101_dry_run_without_complaints",
    "Detox.C101_dry_run_foretells",
    "Detox.C101_dry_run_foretells_main"
   ],
   "note": "That both runs are silent is a hypothesis: two entries that get the same new name are both announced by the dry run, and the real run then complains (C93 has the witness)."
  },
  {
   "property": "C102",
   "status": "proved",
   "theorems": [
    "Detox.C102_new_names_are_not_much_longer",
    "Detox.C102_so_long_they_can_be",
    "Detox.C102_short_names_fit",
    "Detox.C102_64_bytes_are_too_many",
    "Detox.C102_short_names_get_there"
   ],
   "note": ""
  },
  {
   "property": "C103",
   "status": "proved",
   "theorems": [
    "Detox.C103_same_executions",
    "Detox.C103_same_executions_back",
    "Detox.C103_small_runs",
    "Detox.C103_builtin_runs",
    "Detox.C103_long_streams",
    "Detox.C103_two_billion_letters",
    "Detox.C103_lookup",
    "Detox.C103_every_filter_counts"
   ],
   "note": "The whole program with counters is in Model/Counters.lean; every other property is about the program without them, and C103_small_runs says when that is the same."
  },
  {
   "property": "C104",
   "status": "proved",
   "theorems": [
    "Detox.C104_lower_in_a_locale",
    "Detox.C104_plain_locales",
    "Detox.C104_as_another_sequence",
    "Detox.C104_nothing_is_lost",
    "Detox.C104_stays_in_bounds",
    "Detox.C104_latin1_spoils_utf8"
   ],
   "note": "The whole program with setlocale is in Model/Locale.lean; every other property is about the program in the C locale, which C104_plain_locales and C104_as_another_sequence extend to others. strncasecmp on the keywords of table files and the white space of sscanf are taken from the C locale."
  },
  {
   "property": "C105",
   "status": "proved",
   "theorems": [
    "Detox.C105_pieces_do_not_matter",
    "Detox.C105_any_pieces",
    "Detox.C105_prints_before_it_reads",
    "Detox.C105_prints_before_it_reads_a_file",
    "Detox.C105_answers_every_line",
    "Detox.C105_default_output",
    "Detox.C105_read_error_is_silent",
    "Detox.C105_non_blocking_input_cuts_lines"
   ],
   "note": "Reading is steady in the theorems: after a failure no more bytes come from that file, and no EAGAIN; the last theorem shows why. Printed means handed to printf: the buffer of stdout is not modelled. The end of the file is remembered by stdio, a failure is not (glibc 2.28 or later)."
  },
  {
   "property": "C106",
   "status": "proved",
   "theorems": [
    "Detox.C106_as_one_after_the_other",
    "Detox.C106_nothing_is_lost",
    "Detox.C106_every_file_gets_its_name",
    "Detox.C106_a_file_is_lost"
   ],
   "note": "For executions that come to their end, arguments that are no directories (as for lstat), and well-written config files and tables that fit; a process that is killed in the middle is not covered. Calls are atomic."
  },
  {
   "property": "C107",
   "status": "proved",
   "theorems": [
    "Detox.C107_table_in_pieces",
    "Detox.C107_any_pieces",
    "Detox.C107_always_an_answer",
    "Detox.C107_true_size",
    "Detox.C107_size_only_decides_whether",
    "Detox.C107_which_tables_are_read",
    "Detox.C107_not_from_a_pipe",
    "Detox.C107_read_error",
    "Detox.C107_half_a_table"
   ],
   "note": "A read that fails with EAGAIN, and one that succeeds after one that failed, are excluded (Steady). The whole program is modelled with the table read at once (slurp); what C107 says of a text and a size is what slurp gives, if the size is true."
  },
  {
   "property": "C108",
   "status": "proved",
   "theorems": [
    "Detox.C108_at_any_moment",
    "Detox.C108_run_again",
    "Detox.C108_work_can_be_finished",
    "Detox.C108_as_if_never_stopped",
    "Detox.C108_out_of_view"
   ],
   "note": "The file system is taken to do each rename as a whole (rename(2) is atomic); nothing is said about what is on the disk after a crash of the machine. The condition on names that readdir gives (Attempt.given) is met by all names for the sequences other than utf_8."
  },
  {
   "property": "C109",
   "status": "proved",
   "theorems": [
    "Detox.C109_sequences_mind_utf8",
    "Detox.C109_max_length",
    "Detox.C109_uncgi",
    "Detox.C109_builtin_tables",
    "Detox.C109_builtin_filters",
    "Detox.C109_builtin_makes_utf8",
    "Detox.C109_builtin_minds_utf8",
    "Detox.C109_not_all_builtin_mind_utf8",
    "Detox.C109_builtin_renames",
    "Detox.C109_renames_to_utf8",
    "Detox.C109_renames_as_written",
    "Detox.C109_trees_stay_in_utf8",
    "Detox.C109_inline_output"
   ],
   "note": "Texts and names without NUL bytes. For lower the platform has to define isupper for all chars (Benign), as in C08."
  },
  {
   "property": "C110",
   "status": "proved",
   "theorems": [
    "Detox.C110_a_beginning_arrives",
    "Detox.C110_all_arrives",
    "Detox.C110_nothing_else_arrives",
    "Detox.C110_other_calls_are_the_same",
    "Detox.C110_nobody_notices",
    "Detox.C110_writing_can_work",
    "Detox.C110_done_but_not_reported",
    "Detox.C110_tree_whatever_happens",
    "Detox.C110_run_again_after_broken_pipe",
    "Detox.C110_every_rename_is_reported",
    "Detox.C110_report_is_complete",
    "Detox.C110_report_so_far",
    "Detox.C110_inline_default",
    "Detox.C110_full_disk",
    "Detox.C110_head",
    "Detox.C110_renamed_unreported"
   ],
   "note": "stdio is a relation that allows any buffering: any beginning of what waits may be written at any time, and after a failure any part of it may be lost. The statements on trees are in the case of C108. Standard error is still assumed to work."
  },
  {
   "property": "C111",
   "status": "proved",
   "theorems": [
    "Detox.C111_runs_are_thrifty",
    "Detox.C111_detox_is_thrifty",
    "Detox.C111_open_directories",
    "Detox.C111_bounds_are_reached",
    "Detox.C111_depth_is_reached"
   ],
   "note": "The calls made while the configuration and the tables are read are not counted here."
  },
  {
   "property": "C112",
   "status": "proved",
   "theorems": [
    "Detox.C112_tree_after_any_run",
    "Detox.C112_new_name_is_in_use",
    "Detox.C112_without_collisions",
    "Detox.C112_tree_after_main"
   ],
   "note": "Ignored names and what is below them are left out, as in C98."
  },
  {
   "property": "C113",
   "status": "proved",
   "theorems": [
    "Detox.C113_safe_tables",
    "Detox.C113_iso_tables",
    "Detox.C113_utf8_tables",
    "Detox.C113_safe_exactly",
    "Detox.C113_iso_exactly",
    "Detox.C113_default_hides",
    "Detox.C113_unicode_goes_on",
    "Detox.C113_custom_unicode",
    "Detox.C113_legacy_not_one"
   ],
   "note": "About the meaning of configurations (FiltersSay), which C96 shows to be what the program does."
  },
  {
   "property": "C114",
   "status": "proved",
   "theorems": [
    "Detox.C114_cp1252_file",
    "Detox.C114_iso_file",
    "Detox.C114_unicode_file",
    "Detox.C114_unidecode_file",
    "Detox.C114_no_slash",
    "Detox.C114_iso_makes_ascii",
    "Detox.C114_prefilter",
    "Detox.C114_utf8_makes_printable",
    "Detox.C114_utf8_keeps_printable",
    "Detox.C114_clean_names",
    "Detox.C114_slash",
    "Detox.C114_vanishes"
   ],
   "note": "About the text of the files, byte for byte (tools/genlegacy.py writes Model/LegacyTables.lean), and the meaning of tables and configurations, which C96 shows to be what the program does."
  },
  {
   "property": "C115",
   "status": "proved",
   "theorems": [
    "Detox.C115_inline_mode",
    "Detox.C115_listing",
    "Detox.C115_inline_detox",
    "Detox.C115_verbose",
    "Detox.C115_verbose_dry_run",
    "Detox.C115_once_is_enough",
    "Detox.C115_special",
    "Detox.C115_dry_run_is_less_than_verbose",
    "Detox.C115_inline_verbose_lists_nothing"
   ],
   "note": "The last two are witnesses against sentences of the manual."
  },
  {
   "property": "C116",
   "status": "proved",
   "theorems": [
    "Detox.C116_each_as_if_alone",
    "Detox.C116_nothing_is_lost",
    "Detox.C116_all_trees_cleaned",
    "Detox.C116_silent_processes",
    "Detox.C116_bystander"
   ],
   "note": "The first three for all configurations; the last for nothing configured, where the result can be said outright. Sequences with a utf_8 filter (configured) are left out of the first three."
  },
  {
   "property": "C117",
   "status": "proved",
   "theorems": [
    "Detox.C117_configured_tree",
    "Detox.C117_safe_settles_iff",
    "Detox.C117_iso_settles_iff",
    "Detox.C117_settles_by_characters",
    "Detox.C117_manual_tree",
    "Detox.C117_unsettled_tree"
   ],
   "note": "C117_unsettled_tree shows that the condition on the filters (`Settles`) cannot be left out. Sequences with uncgi, utf_8 or max_length have the first theorem, with the condition as a hypothesis."
  },
  {
   "property": "C118",
   "status": "proved",
   "theorems": [
    "Detox.C118_no_complaints",
    "Detox.C118_as_far_as_possible",
    "Detox.C118_dry_run_foretells",
    "Detox.C118_second_run"
   ],
   "note": "C99, C112, C101 and C94 for the whole program with any configuration, in terms of the text of the files. Hypotheses bundled in `ConfiguredRun`."
  },
  {
   "property": "C119",
   "status": "proved",
   "theorems": [
    "Detox.C119_max_length_at_the_end",
    "Detox.C119_trailing_and_length_unsettled",
    "Detox.C119_utf8_settles_by_characters",
    "Detox.C119_utf8_and_length_unsettled"
   ],
   "note": "Statements (2) and (4) are proved with witnesses. With C117 and C118 this gives the tree, dry-run and second-run claims for configurations with max_length and utf_8."
  },
  {
   "property": "C120",
   "status": "proved",
   "theorems": [
    "Detox.C120_gets_there",
    "Detox.C120_at_any_moment",
    "Detox.C120_run_again",
    "Detox.C120_work_can_be_finished",
    "Detox.C120_as_if_never_stopped"
   ],
   "note": "C100 and C108 for the whole program with any configuration, in terms of the text of the files. Hypotheses bundled in `ConfiguredCase`."
  },
  {
   "property": "C121",
   "status": "proved",
   "theorems": [
    "Detox.C121_at_any_moment",
    "Detox.C121_all_trees_cleaned"
   ],
   "note": "C116 and C120 combined: every process has its own configuration, and may be stopped anywhere."
  },
  {
   "property": "C122",
   "status": "proved",
   "theorems": [
    "Detox.C122_names_are_reached",
    "Detox.C122_what_filters_keep",
    "Detox.C122_what_filters_bring_about",
    "Detox.C122_silent_tree"
   ],
   "note": "C117/C120 without the hypothesis that the filters settle: the number of applications is then not known, but everything between is."
  },
  {
   "property": "C123",
   "status": "proved",
   "theorems": [
    "Detox.C123_at_any_moment",
    "Detox.C123_one_run_finishes",
    "Detox.C123_work_can_be_finished",
    "Detox.C123_as_if_alone"
   ],
   "note": "C120 and C121 together: rounds of concurrent processes, each stopped anywhere, then one run. That the processes of a round are over trees of their own is asked of the file system at the beginning of the round."
  },
  {
   "property": "C124",
   "status": "proved",
   "theorems": [
    "Detox.C124_one_link_only",
    "Detox.C124_lower_keeps_directories",
    "Detox.C124_own_name",
    "Detox.C124_directory_in_its_own_way"
   ],
   "note": "The hypothesis that no directory contains itself excludes names that become empty from leading to the directory itself. That files with one link do get their names is C97 and C99, which allow such file systems."
  },
  {
   "property": "C125",
   "status": "proved",
   "theorems": [
    "Detox.C125_nothing_of_nothing",
    "Detox.C125_no_slash_is_renamed",
    "Detox.C125_argument_with_a_slash",
    "Detox.C125_directory_keeps_its_name",
    "Detox.C125_slash_follows_links"
   ],
   "note": "C125_argument_with_a_slash is an equivalence, for sequences that make something of the empty name (all do, unless a table is missing). The last theorem is a witness: one file system, two runs."
  },
  {
   "property": "C126",
   "status": "proved",
   "theorems": [
    "Detox.C126_reads_first",
    "Detox.C126_one_run_or_many",
    "Detox.C126_ignored_in_the_next_directory"
   ],
   "note": "An equivalence for complete runs; the condition on ignored names is needed, as the third theorem shows. The counters of tables (C103) are not part of it."
  },
  {
   "property": "C127",
   "status": "proved",
   "theorems": [
    "Detox.C127_two_passes",
    "Detox.C127_two_passes_or_one",
    "Detox.C127_hidden_from_the_second"
   ],
   "note": "For complete runs without complaints on file systems where upper case matters and nothing is denied, as in C120; the condition on hidden names is needed, as the third theorem shows."
  },
  {
   "property": "C128",
   "status": "proved",
   "theorems": [
    "Detox.C128_covered_arguments",
    "Detox.C128_below_is_covered",
    "Detox.C128_not_there"
   ],
   "note": "The first for complete runs without complaints, in the setting of C120; the last for any configuration and any file system."
  },
  {
   "property": "C129",
   "status": "proved",
   "theorems": [
    "Detox.C129_inline_foretells",
    "Detox.C129_inline_as_written",
    "Detox.C129_lines_as_written",
    "Detox.C129_lines_are_not_names"
   ],
   "note": "The first in the setting of C120 for the run that renames, names without newlines; the last is the reason for that condition."
  },
  {
   "property": "C130",
   "status": "proved",
   "theorems": [
    "Detox.C130_same_meaning",
    "Detox.C130_same_lines",
    "Detox.C130_same_table",
    "Detox.C130_no_table",
    "Detox.C130_filter_by_filter",
    "Detox.C130_twice",
    "Detox.C130_lower_and_wipeup"
   ],
   "note": "The first in the setting of C120 for the first configuration; of the second only that it can be read. Names to ignore must not be in the tree."
  },
  {
   "property": "C131",
   "status": "proved",
   "theorems": [
    "Detox.C131_from_wherever"
   ],
   "note": "Both runs in the setting of C120. Names to ignore must not be in the tree."
  },
  {
   "property": "C132",
   "status": "proved",
   "theorems": [
    "Detox.C132_which_filters",
    "Detox.C132_letter_by_letter",
    "Detox.C132_lower_and_max_length",
    "Detox.C132_lower_and_safe",
    "Detox.C132_lower_and_iso",
    "Detox.C132_iso_and_wipeup",
    "Detox.C132_in_a_sequence"
   ],
   "note": "The classification is for max_length with length 4 and wipeup without remove_trailing; the general theorems have no such limits."
  },
  {
   "property": "C133",
   "status": "proved",
   "theorems": [
    "Detox.C133_which_filters",
    "Detox.C133_max_length",
    "Detox.C133_letter_by_letter",
    "Detox.C133_utf8"
   ],
   "note": "lower and wipeup with any settings are in C130."
  },
  {
   "property": "C134",
   "status": "proved",
   "theorems": [
    "Detox.C134_nothing_left",
    "Detox.C134_gets_hidden",
    "Detox.C134_only_a_dot",
    "Detox.C134_never_two_dots"
   ],
   "note": "What detox does with such names is in C97 and C112: it complains, and the file keeps its name."
  },
  {
   "property": "C135",
   "status": "proved",
   "theorems": [
    "Detox.C135_extension_stays",
    "Detox.C135_usual_extensions",
    "Detox.C135_not_for_uncgi"
   ],
   "note": "About the meaning of sequences of filters that C96 proves the modelled code to have; the exclusion of uncgi is shown necessary by a witness."
  },
  {
   "property": "C136",
   "status": "proved",
   "theorems": [
    "Detox.C136_front_stays",
    "Detox.C136_usual_fronts",
    "Detox.C136_not_for_all"
   ],
   "note": "About the meaning of sequences of filters that C96 proves the modelled code to have."
  },
  {
   "property": "C137",
   "status": "proved",
   "theorems": [
    "Detox.C137_lost_only_by_a_nul",
    "Detox.C137_uncgi_first"
   ],
   "note": "That the condition is needed is C135_not_for_uncgi."
  }
 ]
}