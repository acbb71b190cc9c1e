import Verif.Props.Again
import Verif.Props.Brings
import Verif.Props.Caseless
import Verif.Props.Chain
import Verif.Props.CheckDump
import Verif.Props.CheckTable
import Verif.Props.Closed
import Verif.Props.Complete
import Verif.Props.Concurrent
import Verif.Props.Config
import Verif.Props.ConfigErrors
import Verif.Props.ConfigScan
import Verif.Props.Configured
import Verif.Props.Cost
import Verif.Props.Counters
import Verif.Props.Covered
import Verif.Props.Default
import Verif.Props.Denote
import Verif.Props.DryRun
import Verif.Props.DryTree
import Verif.Props.Elsewhere
import Verif.Props.Encoding
import Verif.Props.EndToEnd
import Verif.Props.Ends
import Verif.Props.EscapeUtf8
import Verif.Props.Escaped
import Verif.Props.Exchange
import Verif.Props.Exit
import Verif.Props.Extension
import Verif.Props.File
import Verif.Props.Filelist
import Verif.Props.Finish
import Verif.Props.Front
import Verif.Props.GenTable
import Verif.Props.Growth
import Verif.Props.InTurn
import Verif.Props.Inline
import Verif.Props.InlineMain
import Verif.Props.Iso
import Verif.Props.IsoExact
import Verif.Props.Legacy
import Verif.Props.Listing
import Verif.Props.Locale
import Verif.Props.Lower
import Verif.Props.Main
import Verif.Props.MaxLength
import Verif.Props.MemoryFile
import Verif.Props.MemoryLists
import Verif.Props.MemoryWhole
import Verif.Props.OnePass
import Verif.Props.Options
import Verif.Props.ParseTable
import Verif.Props.Parser
import Verif.Props.Progress
import Verif.Props.Quiet
import Verif.Props.Reached
import Verif.Props.Repeat
import Verif.Props.Result
import Verif.Props.Resume
import Verif.Props.Safety
import Verif.Props.SameMeaning
import Verif.Props.SameName
import Verif.Props.Scan
import Verif.Props.ScanRun
import Verif.Props.Scanner
import Verif.Props.Settled
import Verif.Props.ShippedEscape
import Verif.Props.SilentScan
import Verif.Props.Slash
import Verif.Props.Stdout
import Verif.Props.Stopped
import Verif.Props.Stream
import Verif.Props.Switches
import Verif.Props.Table
import Verif.Props.TableStream
import Verif.Props.Tables
import Verif.Props.Taken
import Verif.Props.Together
import Verif.Props.TogetherAny
import Verif.Props.TrailingSlash
import Verif.Props.Tree
import Verif.Props.TwoPasses
import Verif.Props.Uncgi
import Verif.Props.Utf8
import Verif.Props.Vanish
import Verif.Props.Warnings
import Verif.Props.Whatever
import Verif.Props.Wipeup

/-!
# Axioms of every property theorem (generated by tools/sync.py)
-/

open Detox

#print axioms Detox.C01_default_output_has_no_hostile_character
#print axioms Detox.C02_default_idempotent
#print axioms Detox.C03_default_preserves_non_ascii
#print axioms Detox.C04_wipeup_is_the_documented_reduction
#print axioms Detox.C05_wipeup_normal_and_idempotent
#print axioms Detox.C06_max_length_exact
#print axioms Detox.extension_or_not
#print axioms Detox.C07_max_length_limit_exceeded
#print axioms Detox.C07_max_length_limit_met_partial
#print axioms Detox.C07_max_length_limit_met_iff_partial
#print axioms Detox.C08_lower_exact
#print axioms Detox.C08_lower_strict_iso_c_undefined
#print axioms Detox.C09_uncgi_inverts_encoding
#print axioms Detox.encodes_total
#print axioms Detox.C10_uncgi_cuts_at_encoded_nul
#print axioms Detox.C11_utf8_translates_code_points
#print axioms Detox.C12_utf8_output_is_structurally_valid
#print axioms Detox.unicode_table_ascii
#print axioms Detox.C13_utf8_output_values_in_range
#print axioms Detox.C14_utf8_filter_idempotent
#print axioms Detox.C14_utf8_sequence_idempotent
#print axioms Detox.C15_iso8859_1_transcodes
#print axioms Detox.C16_legacy_is_wrong_for_cp1252
#print axioms Detox.C16_legacy_is_wrong_for_every_cp1252_character
#print axioms Detox.C16_legacy_on_latin1_partial
#print axioms Detox.C16_legacy_right_iff_partial
#print axioms Detox.C16_cp1252_alone_is_right
#print axioms Detox.C17_safe_in_bounds_iff
#print axioms Detox.C17_iso_in_bounds_iff
#print axioms Detox.C17_utf8_in_bounds_iff
#print axioms Detox.C17_unicode_table_overflows
#print axioms Detox.C17_unicode_overflow_is_unbounded
#print axioms Detox.C17_long_default_overflows
#print axioms Detox.C17_tables_in_bounds_partial
#print axioms Detox.C17_plain_filters_in_bounds
#print axioms Detox.builtin_roomy
#print axioms Detox.C18_cleaning_returns_a_name
#print axioms Detox.C18_cleaning_only_fails_by_overflow
#print axioms Detox.C18_review_loads_tables
#print axioms Detox.C19_no_slash
#print axioms Detox.C19_slash_from_uncgi_only_and_utf8_only
#print axioms Detox.C20_table_behaves_like_a_map
#print axioms Detox.C21_insertion_fails_exactly
#print axioms Detox.C22_resize_preserves
#print axioms Detox.C22_resize_never_changes_an_entry
#print axioms Detox.C23_max_data_length_is_an_upper_bound
#print axioms Detox.C24_safe_file_equals_builtin
#print axioms Detox.C24_unicode_file_equals_builtin
#print axioms Detox.C24_iso_file_is_builtin_unexpanded
#print axioms Detox.C24_cp1252_file_is_builtin_unexpanded
#print axioms Detox.C24_iso_and_cp1252_files_differ
#print axioms Detox.C24_c_escape_file_equals_builtin
#print axioms Detox.C25_table_file_loads
#print axioms Detox.C25_row_limit_is_sharp
#print axioms Detox.C26_language_block_applies_iff_locale_matches
#print axioms Detox.C27_nothing_is_lost
#print axioms Detox.C27_names_stay_unique
#print axioms Detox.C27_nothing_leaves_its_directory
#print axioms Detox.C27_builtin_sequences_make_no_slash
#print axioms Detox.C28_concurrent_creation_is_clobbered
#print axioms Detox.C29_dry_run_renames_nothing
#print axioms Detox.C30_dry_run_announces_what_a_real_run_does
#print axioms Detox.C31_renames_are_guarded
#print axioms Detox.C32_dot_dotdot_and_empty_are_never_renamed
#print axioms Detox.C32_inline_prints_dots
#print axioms Detox.C33_hidden_entries_are_passed_over
#print axioms Detox.C34_ignored_entries_are_passed_over_partial
#print axioms Detox.C34_what_is_passed_over
#print axioms Detox.C34_second_ignored_entry_is_renamed
#print axioms Detox.C35_only_real_directories_are_opened
#print axioms Detox.C36_special_files_need_the_flag_partial
#print axioms Detox.C36_only_files_and_directories_are_renamed_partial
#print axioms Detox.C36_special_file_renamed_in_a_race
#print axioms Detox.C37_parse_file_returns_where_the_file_is
#print axioms Detox.C37_returned_path_leads_to_the_file
#print axioms Detox.C38_inline_filters_line_by_line
#print axioms Detox.C38_inline_output
#print axioms Detox.C39_inline_never_splits_a_character
#print axioms Detox.C39_inline_is_safe_on_utf8
#print axioms Detox.C40_inline_only_reads_before_its_buffer_partial
#print axioms Detox.C40_round_leaves_buffer_iff
#print axioms Detox.C40_text_stays_in_the_buffer
#print axioms Detox.C40_nul_reads_before_the_buffer
#print axioms Detox.C40_continuation_byte_reads_before_the_buffer
#print axioms Detox.C40_reads_before_the_buffer_later
#print axioms Detox.C41_inline_loses_nothing
#print axioms Detox.C41_nul_loses_the_rest_of_the_line
#print axioms Detox.C42_sequence_choice
#print axioms Detox.C42_no_sequence_ends_the_program
#print axioms Detox.C43_later_files_replace_by_name
#print axioms Detox.C43_names_are_unique
#print axioms Detox.C43_last_definition_wins
#print axioms Detox.C44_without_option_f
#print axioms Detox.C44_loaded_configuration
#print axioms Detox.C44_option_f_reads_only_that_file
#print axioms Detox.C44_option_f_result
#print axioms Detox.C44_option_f_missing_file_is_fatal
#print axioms Detox.C44_failures
#print axioms Detox.C45_builtin_config_is_the_shipped_file
#print axioms Detox.C46_any_layout
#print axioms Detox.C46_written_configuration_reads_back
#print axioms Detox.C47_layout_does_not_matter
#print axioms Detox.C48_filelist_is_a_list_with_a_cursor
#print axioms Detox.C48_iterating_delivers_everything
#print axioms Detox.C49_every_command_line_can_be_read
#print axioms Detox.C49_options_exactly
#print axioms Detox.C49_leaving_options
#print axioms Detox.C49_options_mean_the_same_in_any_order
#print axioms Detox.C50_escapes_every_character
#print axioms Detox.C50_output_is_printable
#print axioms Detox.C50_output_is_reversible
#print axioms Detox.C50_program_escapes_the_text
#print axioms Detox.C50_program_is_safe
#print axioms Detox.C51_literal_denotes_the_entry
#print axioms Detox.C51_source_denotes_the_table
#print axioms Detox.C51_table_file
#print axioms Detox.C51_builtin_tables_are_generated
#print axioms Detox.C51_c_escape_is_generated
#print axioms Detox.C51_default_is_not_escaped
#print axioms Detox.C51_unclosed_quote_is_no_literal
#print axioms Detox.C51_wrong_names_are_no_literals
#print axioms Detox.C51_missing_file_is_undefined
#print axioms Detox.C52_utf8_output_not_always_rfc3629
#print axioms Detox.C53_empty_default_is_the_word_default
#print axioms Detox.C53_bare_default_falls_through_partial
#print axioms Detox.C53_empty_words_partial
#print axioms Detox.C54_many_short_rows_fail
#print axioms Detox.C54_long_rows_load_partial
#print axioms Detox.C25_row_limit_is_sharp
#print axioms Detox.C55_long_comment_leaks
#print axioms Detox.C55_short_comment_ignored_partial
#print axioms Detox.C55_comment_piece_ignored_partial
#print axioms Detox.C56_parse_file_exactly
#print axioms Detox.C56_parse_file_possible
#print axioms Detox.C57_every_entry_is_treated
#print axioms Detox.C58_directories_are_read_to_the_end_and_closed
#print axioms Detox.C59_cleaning_terminates
#print axioms Detox.C59_no_endless_loop_between_system_calls
#print axioms Detox.C60_failed_lstat_clobbers
#print axioms Detox.C61_only_the_window_matters
#print axioms Detox.C62_directory_lost_from_sight
#print axioms Detox.C63_sentences_are_accepted
#print axioms Detox.C63_nothing_else_is_accepted
#print axioms Detox.C63_accepted_texts_have_a_meaning
#print axioms Detox.C63_keyword_names_need_quotes
#print axioms Detox.C64_reading_a_config_file_is_defined
#print axioms Detox.C64_nul_in_a_string_is_undefined
#print axioms Detox.C64_big_number_is_undefined
#print axioms Detox.C65_listing_and_help_touch_nothing
#print axioms Detox.C65_modes_that_rename_nothing
#print axioms Detox.C66_renames_are_guarded
#print axioms Detox.C66_nothing_is_lost
#print axioms Detox.C67_tables_loaded
#print axioms Detox.C67_only_named_tables_can_be_missing
#print axioms Detox.C67_tables_of_fixed_files
#print axioms Detox.C68_listing
#print axioms Detox.C69_exit_status
#print axioms Detox.C69_failed_rename_exits_with_success
#print axioms Detox.C70_builtin_renames
#print axioms Detox.C70_default_renames_are_clean
#print axioms Detox.C70_second_run_leaves_names_alone
#print axioms Detox.C70_nothing_leaves_its_directory
#print axioms Detox.C70_uncgi_only_moves_a_file_away
#print axioms Detox.C71_orderly_runs_are_defined
#print axioms Detox.C71_unconfigured_runs_are_defined
#print axioms Detox.C71_encoded_nul_is_undefined
#print axioms Detox.C72_runs_are_scans
#print axioms Detox.C72_scans_are_runs
#print axioms Detox.C73_scanner_match
#print axioms Detox.C73_scanner_file
#print axioms Detox.C73_scanner_lines
#print axioms Detox.C74_parser
#print axioms Detox.C74_config_file
#print axioms Detox.C75_hex_escape_swallows_the_next_character
#print axioms Detox.C75_c1_controls_are_no_c_string
#print axioms Detox.C75_output_is_a_c_string_partial
#print axioms Detox.C75_output_is_a_c_string_iff_partial
#print axioms Detox.C76_accepts_what_detox_loads
#print axioms Detox.C76_report
#print axioms Detox.C76_failure_is_reported
#print axioms Detox.C76_no_warning_means_in_bounds
#print axioms Detox.C76_second_check
#print axioms Detox.C76_exit_status
#print axioms Detox.C76_failed_check_exits_with_success
#print axioms Detox.C76_failed_check_with_b_is_undefined
#print axioms Detox.C76_statistics_print_a_null_pointer
#print axioms Detox.C77_report
#print axioms Detox.C77_report_resized
#print axioms Detox.C77_options
#print axioms Detox.C77_help
#print axioms Detox.C78_message
#print axioms Detox.C78_message_option_f
#print axioms Detox.C78_first_wrong_token
#print axioms Detox.C78_unfinished
#print axioms Detox.C78_lines_of_earlier_files_are_counted
#print axioms Detox.C78_unclosed_lines_are_not_counted
#print axioms Detox.C79_filelist_frees_everything
#print axioms Detox.C79_filelist_memory_runs_out
#print axioms Detox.C80_table_keeps_what_was_replaced
#print axioms Detox.C80_table_memory_runs_out
#print axioms Detox.C80_resized_table_is_a_copy
#print axioms Detox.C81_no_memory_fault
#print axioms Detox.C81_same_executions
#print axioms Detox.C81_memory_runs_out
#print axioms Detox.C82_strings_left_behind
#print axioms Detox.C82_count_is_about_the_same_program
#print axioms Detox.C82_parse_file
#print axioms Detox.C82_clean_names_cost_memory
#print axioms Detox.C83_no_memory_fault
#print axioms Detox.C84_same_executions
#print axioms Detox.C84_memory_runs_out
#print axioms Detox.C85_only_null
#print axioms Detox.C85_quoted_string_crashes
#print axioms Detox.C85_name_is_lost_silently
#print axioms Detox.C85_file_gets_another_name
#print axioms Detox.C86_scan_is_complete
#print axioms Detox.C86_silent_scan
#print axioms Detox.C86_silent_tree
#print axioms Detox.C86_silent_first_argument
#print axioms Detox.C87_silent_builtin_tree
#print axioms Detox.C87_silent_tree_has_no_hostile_names
#print axioms Detox.C88_load
#print axioms Detox.C88_load_any
#print axioms Detox.C88_main
#print axioms Detox.C88_main_any
#print axioms Detox.C88_token
#print axioms Detox.C88_unreadable
#print axioms Detox.C88_interrupted
#print axioms Detox.C89_main
#print axioms Detox.C89_parse_file
#print axioms Detox.C89_utf8_warnings
#print axioms Detox.C89_utf8_silence
#print axioms Detox.C89_valid_utf8_is_fine
#print axioms Detox.C89_max_length_warning
#print axioms Detox.C89_silent_limit
#print axioms Detox.C89_table_message
#print axioms Detox.C90_silent_tree
#print axioms Detox.C90_silent_limit
#print axioms Detox.C90_silent_configured_tree
#print axioms Detox.C90_silent_configured_names
#print axioms Detox.C91_not_brought
#print axioms Detox.C91_kept_out
#print axioms Detox.C91_no_nul
#print axioms Detox.C91_after_safe
#print axioms Detox.C91_table_file
#print axioms Detox.C91_table_lines
#print axioms Detox.C91_tables_in_use
#print axioms Detox.C91_no_slash
#print axioms Detox.C92_default_leaves_alone
#print axioms Detox.C92_default_makes_tidy
#print axioms Detox.C92_lower_only_leaves_alone
#print axioms Detox.C92_lower_leaves_alone
#print axioms Detox.C92_iso_only_leaves_alone
#print axioms Detox.C92_cp1252_only_leaves_alone
#print axioms Detox.C92_uncgi_only_leaves_alone
#print axioms Detox.C92_ascii_names
#print axioms Detox.C92_uncgi_leaves_alone
#print axioms Detox.C92_done_after_one_run
#print axioms Detox.C92_not_done_after_one_run
#print axioms Detox.C92_only_untidy_names_are_changed
#print axioms Detox.C93_dry_run_tells_the_truth
#print axioms Detox.C93_dry_run_can_promise_too_much
#print axioms Detox.C94_second_run
#print axioms Detox.C94_second_run_of_main
#print axioms Detox.C95_inline_main
#print axioms Detox.C95_inline_builtin
#print axioms Detox.C95_default_output
#print axioms Detox.C95_line_filter
#print axioms Detox.C95_pipe
#print axioms Detox.C96_only_one_meaning
#print axioms Detox.C96_renames_as_written
#print axioms Detox.C96_chained_safe_tables
#print axioms Detox.C96_chained_iso_tables
#print axioms Detox.C96_signed_char_ignores_rows
#print axioms Detox.C96_signed_char_matters
#print axioms Detox.C96_manual_example
#print axioms Detox.C97_files_after_a_run
#print axioms Detox.C97_detox_returns
#print axioms Detox.C97_detox_over_files
#print axioms Detox.C97_detox_gets_there
#print axioms Detox.C97_builtin_written
#print axioms Detox.C97_unconfigured_over_files
#print axioms Detox.C97_emptied_name
#print axioms Detox.C98_tree_after_a_run
#print axioms Detox.C98_only_one_result
#print axioms Detox.C98_order_does_not_matter
#print axioms Detox.C98_tree_after_main
#print axioms Detox.C99_no_complaints
#print axioms Detox.C99_no_complaints_from_main
#print axioms Detox.C100_detox_comes_to_an_end
#print axioms Detox.C100_detox_gets_there
#print axioms Detox.C101_dry_run_over_a_tree
#print axioms Detox.C101_dry_run_without_complaints
#print axioms Detox.C101_dry_run_foretells
#print axioms Detox.C101_dry_run_foretells_main
#print axioms Detox.C102_new_names_are_not_much_longer
#print axioms Detox.C102_so_long_they_can_be
#print axioms Detox.C102_short_names_fit
#print axioms Detox.C102_64_bytes_are_too_many
#print axioms Detox.C102_short_names_get_there
#print axioms Detox.C103_same_executions
#print axioms Detox.C103_same_executions_back
#print axioms Detox.C103_small_runs
#print axioms Detox.C103_builtin_runs
#print axioms Detox.C103_long_streams
#print axioms Detox.C103_two_billion_letters
#print axioms Detox.C103_lookup
#print axioms Detox.C103_every_filter_counts
#print axioms Detox.C104_lower_in_a_locale
#print axioms Detox.C104_plain_locales
#print axioms Detox.C104_as_another_sequence
#print axioms Detox.C104_nothing_is_lost
#print axioms Detox.C104_stays_in_bounds
#print axioms Detox.C104_latin1_spoils_utf8
#print axioms Detox.C105_pieces_do_not_matter
#print axioms Detox.C105_any_pieces
#print axioms Detox.C105_prints_before_it_reads
#print axioms Detox.C105_prints_before_it_reads_a_file
#print axioms Detox.C105_answers_every_line
#print axioms Detox.C105_default_output
#print axioms Detox.C105_read_error_is_silent
#print axioms Detox.C105_non_blocking_input_cuts_lines
#print axioms Detox.C106_as_one_after_the_other
#print axioms Detox.C106_nothing_is_lost
#print axioms Detox.C106_every_file_gets_its_name
#print axioms Detox.C106_a_file_is_lost
#print axioms Detox.C107_table_in_pieces
#print axioms Detox.C107_any_pieces
#print axioms Detox.C107_always_an_answer
#print axioms Detox.C107_true_size
#print axioms Detox.C107_size_only_decides_whether
#print axioms Detox.C107_which_tables_are_read
#print axioms Detox.C107_not_from_a_pipe
#print axioms Detox.C107_read_error
#print axioms Detox.C107_half_a_table
#print axioms Detox.C108_at_any_moment
#print axioms Detox.C108_run_again
#print axioms Detox.C108_work_can_be_finished
#print axioms Detox.C108_as_if_never_stopped
#print axioms Detox.C108_out_of_view
#print axioms Detox.C109_sequences_mind_utf8
#print axioms Detox.C109_max_length
#print axioms Detox.C109_uncgi
#print axioms Detox.C109_builtin_tables
#print axioms Detox.C109_builtin_filters
#print axioms Detox.C109_builtin_makes_utf8
#print axioms Detox.C109_builtin_minds_utf8
#print axioms Detox.C109_not_all_builtin_mind_utf8
#print axioms Detox.C109_builtin_renames
#print axioms Detox.C109_renames_to_utf8
#print axioms Detox.C109_renames_as_written
#print axioms Detox.C109_trees_stay_in_utf8
#print axioms Detox.C109_inline_output
#print axioms Detox.C110_a_beginning_arrives
#print axioms Detox.C110_all_arrives
#print axioms Detox.C110_nothing_else_arrives
#print axioms Detox.C110_other_calls_are_the_same
#print axioms Detox.C110_nobody_notices
#print axioms Detox.C110_writing_can_work
#print axioms Detox.C110_done_but_not_reported
#print axioms Detox.C110_tree_whatever_happens
#print axioms Detox.C110_run_again_after_broken_pipe
#print axioms Detox.C110_every_rename_is_reported
#print axioms Detox.C110_report_is_complete
#print axioms Detox.C110_report_so_far
#print axioms Detox.C110_inline_default
#print axioms Detox.C110_full_disk
#print axioms Detox.C110_head
#print axioms Detox.C110_renamed_unreported
#print axioms Detox.C111_runs_are_thrifty
#print axioms Detox.C111_detox_is_thrifty
#print axioms Detox.C111_open_directories
#print axioms Detox.C111_bounds_are_reached
#print axioms Detox.C111_depth_is_reached
#print axioms Detox.C112_tree_after_any_run
#print axioms Detox.C112_new_name_is_in_use
#print axioms Detox.C112_without_collisions
#print axioms Detox.C112_tree_after_main
#print axioms Detox.C113_safe_tables
#print axioms Detox.C113_iso_tables
#print axioms Detox.C113_utf8_tables
#print axioms Detox.C113_safe_exactly
#print axioms Detox.C113_iso_exactly
#print axioms Detox.C113_default_hides
#print axioms Detox.C113_unicode_goes_on
#print axioms Detox.C113_custom_unicode
#print axioms Detox.C113_legacy_not_one
#print axioms Detox.C114_cp1252_file
#print axioms Detox.C114_iso_file
#print axioms Detox.C114_unicode_file
#print axioms Detox.C114_unidecode_file
#print axioms Detox.C114_no_slash
#print axioms Detox.C114_iso_makes_ascii
#print axioms Detox.C114_prefilter
#print axioms Detox.C114_utf8_makes_printable
#print axioms Detox.C114_utf8_keeps_printable
#print axioms Detox.C114_clean_names
#print axioms Detox.C114_slash
#print axioms Detox.C114_vanishes
#print axioms Detox.C115_inline_mode
#print axioms Detox.C115_listing
#print axioms Detox.C115_inline_detox
#print axioms Detox.C115_verbose
#print axioms Detox.C115_verbose_dry_run
#print axioms Detox.C115_once_is_enough
#print axioms Detox.C115_special
#print axioms Detox.C115_dry_run_is_less_than_verbose
#print axioms Detox.C115_inline_verbose_lists_nothing
#print axioms Detox.C116_each_as_if_alone
#print axioms Detox.C116_nothing_is_lost
#print axioms Detox.C116_all_trees_cleaned
#print axioms Detox.C116_silent_processes
#print axioms Detox.C116_bystander
#print axioms Detox.C117_configured_tree
#print axioms Detox.C117_safe_settles_iff
#print axioms Detox.C117_iso_settles_iff
#print axioms Detox.C117_settles_by_characters
#print axioms Detox.C117_manual_tree
#print axioms Detox.C117_unsettled_tree
#print axioms Detox.C118_no_complaints
#print axioms Detox.C118_as_far_as_possible
#print axioms Detox.C118_dry_run_foretells
#print axioms Detox.C118_second_run
#print axioms Detox.C119_max_length_at_the_end
#print axioms Detox.C119_trailing_and_length_unsettled
#print axioms Detox.C119_utf8_settles_by_characters
#print axioms Detox.C119_utf8_and_length_unsettled
#print axioms Detox.C120_gets_there
#print axioms Detox.C120_at_any_moment
#print axioms Detox.C120_run_again
#print axioms Detox.C120_work_can_be_finished
#print axioms Detox.C120_as_if_never_stopped
#print axioms Detox.C121_at_any_moment
#print axioms Detox.C121_all_trees_cleaned
#print axioms Detox.C122_names_are_reached
#print axioms Detox.C122_what_filters_keep
#print axioms Detox.C122_what_filters_bring_about
#print axioms Detox.C122_silent_tree
#print axioms Detox.C123_at_any_moment
#print axioms Detox.C123_one_run_finishes
#print axioms Detox.C123_work_can_be_finished
#print axioms Detox.C123_as_if_alone
#print axioms Detox.C124_one_link_only
#print axioms Detox.C124_lower_keeps_directories
#print axioms Detox.C124_own_name
#print axioms Detox.C124_directory_in_its_own_way
#print axioms Detox.C125_nothing_of_nothing
#print axioms Detox.C125_no_slash_is_renamed
#print axioms Detox.C125_argument_with_a_slash
#print axioms Detox.C125_directory_keeps_its_name
#print axioms Detox.C125_slash_follows_links
#print axioms Detox.C126_reads_first
#print axioms Detox.C126_one_run_or_many
#print axioms Detox.C126_ignored_in_the_next_directory
#print axioms Detox.C127_two_passes
#print axioms Detox.C127_two_passes_or_one
#print axioms Detox.C127_hidden_from_the_second
#print axioms Detox.C128_covered_arguments
#print axioms Detox.C128_below_is_covered
#print axioms Detox.C128_not_there
#print axioms Detox.C129_inline_foretells
#print axioms Detox.C129_inline_as_written
#print axioms Detox.C129_lines_as_written
#print axioms Detox.C129_lines_are_not_names
#print axioms Detox.C130_same_meaning
#print axioms Detox.C130_same_lines
#print axioms Detox.C130_same_table
#print axioms Detox.C130_no_table
#print axioms Detox.C130_filter_by_filter
#print axioms Detox.C130_twice
#print axioms Detox.C130_lower_and_wipeup
#print axioms Detox.C131_from_wherever
#print axioms Detox.C132_which_filters
#print axioms Detox.C132_letter_by_letter
#print axioms Detox.C132_lower_and_max_length
#print axioms Detox.C132_lower_and_safe
#print axioms Detox.C132_lower_and_iso
#print axioms Detox.C132_iso_and_wipeup
#print axioms Detox.C132_in_a_sequence
#print axioms Detox.C133_which_filters
#print axioms Detox.C133_max_length
#print axioms Detox.C133_letter_by_letter
#print axioms Detox.C133_utf8
#print axioms Detox.C134_nothing_left
#print axioms Detox.C134_gets_hidden
#print axioms Detox.C134_only_a_dot
#print axioms Detox.C134_never_two_dots
#print axioms Detox.C135_extension_stays
#print axioms Detox.C135_usual_extensions
#print axioms Detox.C135_not_for_uncgi
#print axioms Detox.C136_front_stays
#print axioms Detox.C136_usual_fronts
#print axioms Detox.C136_not_for_all
#print axioms Detox.C137_lost_only_by_a_nul
#print axioms Detox.C137_uncgi_first
