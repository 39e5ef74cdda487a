{
 "claims": [
  {
   "property": "C01",
   "status": "proved",
   "theorems": [
    "Textseg.Props.C01_never_panics_never_fails"
   ],
   "note": ""
  },
  {
   "property": "C02",
   "status": "proved",
   "theorems": [
    "Textseg.Props.C02_token_is_consumed_prefix"
   ],
   "note": ""
  },
  {
   "property": "C03",
   "status": "proved",
   "theorems": [
    "Textseg.Props.C03_progress_at_eof",
    "Textseg.Props.C03_empty"
   ],
   "note": ""
  },
  {
   "property": "C04",
   "status": "proved",
   "theorems": [
    "Textseg.Props.C04_tokens_partition_input"
   ],
   "note": ""
  },
  {
   "property": "C05",
   "status": "proved",
   "theorems": [
    "Textseg.Props.C05_conforms_to_UAX29",
    "Textseg.Props.C05_boundaries",
    "Textseg.Props.C05_segmentation_unique"
   ],
   "note": ""
  },
  {
   "property": "C06",
   "status": "proved",
   "theorems": [
    "Textseg.Props.C06_conforms_on_arbitrary_bytes",
    "Textseg.Props.C06_pieces_unique"
   ],
   "note": ""
  },
  {
   "property": "C07",
   "status": "proved",
   "theorems": [
    "Textseg.Props.C07_invalid_byte_is_own_token"
   ],
   "note": ""
  },
  {
   "property": "C08",
   "status": "proved",
   "theorems": [
    "Textseg.Props.C08_no_boundary_inside_a_sequence",
    "Textseg.Props.C08_valid_utf8"
   ],
   "note": ""
  },
  {
   "property": "C09",
   "status": "proved",
   "theorems": [
    "Textseg.Props.C09_decided_token_is_final"
   ],
   "note": ""
  },
  {
   "property": "C10",
   "status": "proved",
   "theorems": [
    "Textseg.Props.C10_independent_of_pieces",
    "Textseg.Props.C10_independent_of_pieces_together",
    "Textseg.Props.C10_independent_of_reader",
    "Textseg.Props.C10_exception",
    "Textseg.Props.C10_readers"
   ],
   "note": "For any pieces, with the end reported separately or together; the remaining case (two readers that differ in how they report the end) is proved except at the exact edge, where C10_exception proves that the results differ."
  },
  {
   "property": "C11",
   "status": "proved",
   "theorems": [
    "Textseg.Props.C11_emits_the_tokens",
    "Textseg.Props.C11_short_clusters",
    "Textseg.Props.C11_streaming_a_text",
    "Textseg.Props.C11_stops_at_overlong_token",
    "Textseg.Props.C11_long_cluster"
   ],
   "note": ""
  },
  {
   "property": "C12",
   "status": "proved",
   "theorems": [
    "Textseg.Props.C12_reader_failure"
   ],
   "note": ""
  },
  {
   "property": "C13",
   "status": "proved",
   "theorems": [
    "Textseg.Props.C13_waits_only_when_undecided"
   ],
   "note": ""
  },
  {
   "property": "C14",
   "status": "partial",
   "theorems": [
    "Textseg.Props.C14_not_prompt",
    "Textseg.Props.C14_error_is_reported_partial",
    "Textseg.Props.C14_error_after_two_more_bytes"
   ],
   "note": "The claim is false of the code (C14_not_prompt is the counterexample, contrary to the doc comment of LookupFirstChar); proved: an invalid sequence is reported after at most two more bytes."
  },
  {
   "property": "C15",
   "status": "proved",
   "theorems": [
    "Textseg.Props.C15_crlf_kept",
    "Textseg.Props.C15_control_separated",
    "Textseg.Props.C15_control_tokens"
   ],
   "note": ""
  },
  {
   "property": "C16",
   "status": "proved",
   "theorems": [
    "Textseg.Props.C16_marks_join",
    "Textseg.Props.C16_prepend_joins",
    "Textseg.Props.C16_base_and_marks",
    "Textseg.Props.C16_on_bytes"
   ],
   "note": ""
  },
  {
   "property": "C17",
   "status": "proved",
   "theorems": [
    "Textseg.Props.C17_hangul_unbroken"
   ],
   "note": ""
  },
  {
   "property": "C18",
   "status": "proved",
   "theorems": [
    "Textseg.Props.C18_indic_conjuncts"
   ],
   "note": ""
  },
  {
   "property": "C19",
   "status": "proved",
   "theorems": [
    "Textseg.Props.C19_emoji_zwj",
    "Textseg.Props.C19_zwj_sequence_unbroken"
   ],
   "note": ""
  },
  {
   "property": "C20",
   "status": "proved",
   "theorems": [
    "Textseg.Props.C20_flags_pair_up",
    "Textseg.Props.C20_flag_tokens"
   ],
   "note": ""
  },
  {
   "property": "C21",
   "status": "proved",
   "theorems": [
    "Textseg.Props.C21_ascii"
   ],
   "note": ""
  },
  {
   "property": "C22",
   "status": "proved",
   "theorems": [
    "Textseg.Props.C22_cutting_at_a_boundary",
    "Textseg.Props.C22_token_of_token"
   ],
   "note": ""
  },
  {
   "property": "C23",
   "status": "proved",
   "theorems": [
    "Textseg.Gen.C23_committed_files",
    "Textseg.Props.C23_lookup_agrees_with_data_files",
    "Textseg.Props.C23_data_files_unambiguous"
   ],
   "note": ""
  },
  {
   "property": "C24",
   "status": "proved",
   "theorems": [
    "Textseg.Props.C24_lookup_total",
    "Textseg.Props.C24_looks_at_four_bytes"
   ],
   "note": ""
  },
  {
   "property": "C25",
   "status": "proved",
   "theorems": [
    "Textseg.Props.C25_ill_formed_sequences_have_no_property",
    "Textseg.Props.C25_which_sequences"
   ],
   "note": ""
  },
  {
   "property": "C26",
   "status": "proved",
   "theorems": [
    "Textseg.Props.C26_machine_within_a_cluster",
    "Textseg.Props.C26_every_text_is_consistent"
   ],
   "note": ""
  },
  {
   "property": "C27",
   "status": "partial",
   "theorems": [
    "Textseg.Props.C27_restarting_at_splits_partial",
    "Textseg.Props.C27_continuing_is_wrong",
    "Textseg.Props.C27_continuing_partial"
   ],
   "note": "The claim is false of the code for a machine that goes on across a split (C27_continuing_is_wrong); proved for restarting at splits, which is what ScanGraphemeClusters does, and for continuing when no regional indicator directly follows ExtPict/Consonant/Extend/ZWJ."
  },
  {
   "property": "C28",
   "status": "proved",
   "theorems": [
    "Textseg.Props.C28_packing_is_lossless",
    "Textseg.Props.C28_packing_is_injective",
    "Textseg.Props.C28_error_is_not_a_value",
    "Textseg.Props.C28_every_byte"
   ],
   "note": ""
  },
  {
   "property": "C29",
   "status": "proved",
   "theorems": [
    "Textseg.Props.C29_gcb_names",
    "Textseg.Props.C29_gcb_values",
    "Textseg.Props.C29_emoji_names",
    "Textseg.Props.C29_incb_names",
    "Textseg.Props.C29_incb_values",
    "Textseg.Props.C29_gcb_printed",
    "Textseg.Props.C29_incb_printed",
    "Textseg.Props.C29_printed_form_identifies",
    "Textseg.Props.C29_printed_form"
   ],
   "note": ""
  },
  {
   "property": "C30",
   "status": "proved",
   "theorems": [
    "Textseg.Gen.C30_recorded",
    "Textseg.Gen.C30_conflict"
   ],
   "note": ""
  },
  {
   "property": "C31",
   "status": "proved",
   "theorems": [
    "Textseg.Gen.C31_compaction",
    "Textseg.Gen.C31_success"
   ],
   "note": ""
  },
  {
   "property": "C32",
   "status": "proved",
   "theorems": [
    "Textseg.Gen.C32_capacity",
    "Textseg.Gen.C32_references",
    "Textseg.Gen.C32_no_panic"
   ],
   "note": ""
  },
  {
   "property": "C33",
   "status": "proved",
   "theorems": [
    "Textseg.Gen.C33_committed_files",
    "Textseg.Gen.C33_data_files",
    "Textseg.Gen.C33_reproducible"
   ],
   "note": ""
  },
  {
   "property": "C34",
   "status": "proved",
   "theorems": [
    "Textseg.Props.C34_file",
    "Textseg.Props.C34_every_file"
   ],
   "note": ""
  },
  {
   "property": "C35",
   "status": "proved",
   "theorems": [
    "Textseg.Props.C35_malformed_range"
   ],
   "note": ""
  },
  {
   "property": "C36",
   "status": "proved",
   "theorems": [
    "Textseg.Props.C36_test_data",
    "Textseg.Props.C36_every_file",
    "Textseg.Props.C36_every_line_means"
   ],
   "note": ""
  },
  {
   "property": "C37",
   "status": "proved",
   "theorems": [
    "Textseg.Props.C37_selected",
    "Textseg.Props.C37_exactly_one",
    "Textseg.Props.C37_implementation",
    "Textseg.Props.C37_reported_version",
    "Textseg.Props.C37_both_forms_agree"
   ],
   "note": ""
  },
  {
   "property": "C38",
   "status": "partial",
   "theorems": [
    "Textseg.Props.C38_all_tokens_partial",
    "Textseg.Props.C38_false_for_longer_inputs",
    "Textseg.Props.C38_lengths_partial",
    "Textseg.Props.C38_boundaries_partial"
   ],
   "note": "The claim is false of the code for inputs over 2049 bytes (C38_false_for_longer_inputs: returned slices alias the Scanner's buffer); proved for all inputs up to 2049 bytes, the best possible bound."
  },
  {
   "property": "C39",
   "status": "proved",
   "theorems": [
    "Textseg.Props.C39_counting_is_transparent",
    "Textseg.Props.C39_lookups_per_call",
    "Textseg.Props.C39_linear_work"
   ],
   "note": ""
  },
  {
   "property": "C40",
   "status": "proved",
   "theorems": [
    "Textseg.Props.C40_scan_always_returns"
   ],
   "note": ""
  },
  {
   "property": "C41",
   "status": "proved",
   "theorems": [
    "Textseg.Props.C41_emitted_so_far"
   ],
   "note": ""
  },
  {
   "property": "C42",
   "status": "proved",
   "theorems": [
    "Textseg.Props.C42_fields_iterator",
    "Textseg.Props.C42_second_loop_sees_last_field"
   ],
   "note": ""
  },
  {
   "property": "C43",
   "status": "proved",
   "theorems": [
    "Textseg.Props.C43_test_line_never_panics",
    "Textseg.Props.C43_parsers_end"
   ],
   "note": ""
  },
  {
   "property": "C44",
   "status": "proved",
   "theorems": [
    "Textseg.Gen.C44_tables",
    "Textseg.Gen.C44_success",
    "Textseg.Gen.C44_no_table_from_bad_file",
    "Textseg.Gen.C44_error_returned"
   ],
   "note": ""
  },
  {
   "property": "C45",
   "status": "proved",
   "theorems": [
    "Textseg.Props.C45_overlong_line",
    "Textseg.Props.C45_malformed_before_overlong",
    "Textseg.Props.C45_overlong_test_line",
    "Textseg.Props.C45_every_file",
    "Textseg.Props.C45_edge"
   ],
   "note": ""
  },
  {
   "property": "C46",
   "status": "proved",
   "theorems": [
    "Textseg.Props.C46_continuing_exactly",
    "Textseg.Props.C46_right_iff"
   ],
   "note": ""
  },
  {
   "property": "C47",
   "status": "proved",
   "theorems": [
    "Textseg.Props.C47_lookup",
    "Textseg.Props.C47_two_more_bytes",
    "Textseg.Props.C47_two_is_needed",
    "Textseg.Props.C47_split"
   ],
   "note": ""
  },
  {
   "property": "C48",
   "status": "proved",
   "theorems": [
    "Textseg.Props.C48_appending_keeps_tokens",
    "Textseg.Props.C48_appending_to_bytes"
   ],
   "note": ""
  },
  {
   "property": "C49",
   "status": "proved",
   "theorems": [
    "Textseg.Props.C49_ascii_begins_token",
    "Textseg.Props.C49_control_separates",
    "Textseg.Props.C49_crlf_separates"
   ],
   "note": ""
  },
  {
   "property": "C50",
   "status": "proved",
   "theorems": [
    "Textseg.Props.C50_joining_counts"
   ],
   "note": ""
  },
  {
   "property": "C51",
   "status": "proved",
   "theorems": [
    "Textseg.Props.C51_kept_slices"
   ],
   "note": ""
  },
  {
   "property": "C52",
   "status": "proved",
   "theorems": [
    "Textseg.Gen.C52_official_tests",
    "Textseg.Gen.C52_committed_tests_pass",
    "Textseg.Props.C52_outcomes",
    "Textseg.Props.C52_passes_iff",
    "Textseg.Props.C52_overlong_fails",
    "Textseg.Props.C52_false_alarm"
   ],
   "note": ""
  },
  {
   "property": "C53",
   "status": "proved",
   "theorems": [
    "Textseg.Gen.C53_printed",
    "Textseg.Gen.C53_index_range",
    "Textseg.Gen.C53_faithful",
    "Textseg.Gen.C53_main",
    "Textseg.Gen.C53_no_source_from_bad_file",
    "Textseg.Gen.C53_committed_source"
   ],
   "note": ""
  },
  {
   "property": "C54",
   "status": "proved",
   "theorems": [
    "Textseg.Gen.C54_break_property_outcomes",
    "Textseg.Gen.C54_pictographic_outcomes",
    "Textseg.Gen.C54_conjunct_break_outcomes",
    "Textseg.Gen.C54_passes_iff",
    "Textseg.Gen.C54_committed_tests_pass",
    "Textseg.Gen.C54_literal_cases",
    "Textseg.Gen.C54_unlisted_not_tested"
   ],
   "note": ""
  },
  {
   "property": "C55",
   "status": "proved",
   "theorems": [
    "Textseg.C55_same_text",
    "Textseg.C55_respelled_characters",
    "Textseg.C55_hangul_decomposition",
    "Textseg.C55_exception",
    "Textseg.C55_properties_decide"
   ],
   "note": ""
  },
  {
   "property": "C56",
   "status": "proved",
   "theorems": [
    "Textseg.Props.C56_data_file",
    "Textseg.Props.C56_never_split",
    "Textseg.Props.C56_single_token",
    "Textseg.Props.C56_flags",
    "Textseg.Props.C56_joined_digits"
   ],
   "note": ""
  },
  {
   "property": "C57",
   "status": "proved",
   "theorems": [
    "Textseg.Props.C57_decoding",
    "Textseg.Props.C57_tokens",
    "Textseg.Props.C57_rune_by_rune",
    "Textseg.Props.C57_validity"
   ],
   "note": ""
  },
  {
   "property": "C58",
   "status": "proved",
   "theorems": [
    "Textseg.Props.C58_any_input",
    "Textseg.Props.C58_characters",
    "Textseg.Props.C58_bytes",
    "Textseg.Props.C58_segments_identified",
    "Textseg.Props.C58_report_iff_failure",
    "Textseg.Props.C58_report"
   ],
   "note": ""
  },
  {
   "property": "C59",
   "status": "proved",
   "theorems": [
    "Textseg.Props.C59_counting_is_transparent",
    "Textseg.Props.C59_work",
    "Textseg.Props.C59_slow_reader",
    "Textseg.Props.C59_quadratic"
   ],
   "note": ""
  },
  {
   "property": "C60",
   "status": "proved",
   "theorems": [
    "Textseg.C60_undisturbed",
    "Textseg.C60_only_reads",
    "Textseg.C60_disturbed",
    "Textseg.C60_wait_free",
    "Textseg.C60_memory_unchanged",
    "Textseg.C60_race"
   ],
   "note": ""
  },
  {
   "property": "C61",
   "status": "proved",
   "theorems": [
    "Textseg.C61_greedy",
    "Textseg.C61_longest_match",
    "Textseg.C61_single"
   ],
   "note": ""
  },
  {
   "property": "C62",
   "status": "proved",
   "theorems": [
    "Textseg.Props.C62_boundaries_after",
    "Textseg.Props.C62_tokens_after",
    "Textseg.Props.C62_editing",
    "Textseg.Props.C62_flags_shift"
   ],
   "note": ""
  },
  {
   "property": "C63",
   "status": "proved",
   "theorems": [
    "Textseg.Props.C63_memory",
    "Textseg.Props.C63_endless",
    "Textseg.Props.C63_default",
    "Textseg.Props.C63_at_least"
   ],
   "note": ""
  },
  {
   "property": "C64",
   "status": "proved",
   "theorems": [
    "Textseg.Props.C64_use_before_next",
    "Textseg.Props.C64_kept_entries",
    "Textseg.Props.C64_overwritten"
   ],
   "note": ""
  },
  {
   "property": "C65",
   "status": "proved",
   "theorems": [
    "Textseg.Gen.C65_crash_points",
    "Textseg.Gen.C65_other_files",
    "Textseg.Gen.C65_bad_input",
    "Textseg.Gen.C65_message",
    "Textseg.Gen.C65_missing",
    "Textseg.Gen.C65_status",
    "Textseg.Gen.C65_write_ignored",
    "Textseg.Gen.C65_success",
    "Textseg.Gen.C65_regenerate",
    "Textseg.Gen.C65_full_disk"
   ],
   "note": ""
  },
  {
   "property": "C66",
   "status": "proved",
   "theorems": [
    "Textseg.Props.C66_parsed",
    "Textseg.Props.C66_outcome_unique",
    "Textseg.Props.C66_scan",
    "Textseg.Props.C66_scan_total",
    "Textseg.Props.C66_clusters",
    "Textseg.Props.C66_clusters_of_bytes",
    "Textseg.Props.C66_split",
    "Textseg.Props.C66_stream",
    "Textseg.Props.C66_stream_clusters",
    "Textseg.Props.C66_all_tokens",
    "Textseg.Props.C66_lookup",
    "Textseg.Props.C66_lookup_character",
    "Textseg.Props.C66_machine",
    "Textseg.Props.C66_names"
   ],
   "note": ""
  },
  {
   "property": "C67",
   "status": "proved",
   "theorems": [
    "Textseg.Props.C67_parsed",
    "Textseg.Props.C67_table",
    "Textseg.Props.C67_success",
    "Textseg.Props.C67_lookup"
   ],
   "note": ""
  },
  {
   "property": "C68",
   "status": "proved",
   "theorems": [
    "Textseg.Props.C68_entries",
    "Textseg.Props.C68_file",
    "Textseg.Props.C68_malformed"
   ],
   "note": ""
  },
  {
   "property": "C69",
   "status": "proved",
   "theorems": [
    "Textseg.Props.C69_open",
    "Textseg.Props.C69_build",
    "Textseg.Props.C69_success",
    "Textseg.Props.C69_lookup",
    "Textseg.Props.C69_bad_file",
    "Textseg.Props.C69_shipped",
    "Textseg.Props.C69_committed"
   ],
   "note": ""
  },
  {
   "property": "C70",
   "status": "proved",
   "theorems": [
    "Textseg.Props.C70_entries",
    "Textseg.Props.C70_every_file",
    "Textseg.Props.C70_overlong",
    "Textseg.Props.C70_committed"
   ],
   "note": ""
  },
  {
   "property": "C71",
   "status": "proved",
   "theorems": [
    "Textseg.Props.C71_open",
    "Textseg.Props.C71_command",
    "Textseg.Props.C71_killed",
    "Textseg.Props.C71_success",
    "Textseg.Props.C71_conflict",
    "Textseg.Props.C71_bad_file",
    "Textseg.Props.C71_committed",
    "Textseg.Props.C71_main"
   ],
   "note": ""
  },
  {
   "property": "C72",
   "status": "proved",
   "theorems": [
    "Textseg.Props.C72_compiles",
    "Textseg.Props.C72_scan",
    "Textseg.Props.C72_type",
    "Textseg.Props.C72_agnostic",
    "Textseg.Props.C72_imports",
    "Textseg.Props.C72_model",
    "Textseg.Props.C72_both_forms",
    "Textseg.Props.C72_modules",
    "Textseg.Props.C72_outcome"
   ],
   "note": ""
  }
 ]
}
