{
 "claims": [
  {
   "property": "C01",
   "status": "proved",
   "theorems": [
    "AS.Props.C01_inclass_table",
    "AS.Props.C01_inclass_table_complete",
    "AS.Props.C01_inclass_roundtrip",
    "AS.Props.C01_inclass_other_string",
    "AS.Props.C01_inclass_other_int"
   ],
   "note": ""
  },
  {
   "property": "C02",
   "status": "proved",
   "theorems": [
    "AS.Props.C02_item_meaning",
    "AS.Props.C02_read_class_list",
    "AS.Props.C02_read_total",
    "AS.Props.C02_read_order_irrelevant",
    "AS.Props.C02_print_class_list",
    "AS.Props.C02_class_list_roundtrip"
   ],
   "note": ""
  },
  {
   "property": "C03",
   "status": "proved",
   "theorems": [
    "AS.Props.C03_read_attach_list",
    "AS.Props.C03_attach_list_roundtrip",
    "AS.Props.C03_unknown_items_ignored"
   ],
   "note": ""
  },
  {
   "property": "C04",
   "status": "proved",
   "theorems": [
    "AS.Props.C04_lang_roundtrip",
    "AS.Props.C04_lang_distinct",
    "AS.Props.C04_lang_other",
    "AS.Props.C04_lang_code_shape"
   ],
   "note": ""
  },
  {
   "property": "C05",
   "status": "proved",
   "theorems": [
    "AS.Props.C05_outclass_table",
    "AS.Props.C05_outclass_table_complete",
    "AS.Props.C05_outclass_roundtrip",
    "AS.Props.C05_outclass_other"
   ],
   "note": ""
  },
  {
   "property": "C06",
   "status": "proved",
   "theorems": [
    "AS.Props.C06_enumerate_is_product",
    "AS.Props.C06_enumerate_exact"
   ],
   "note": ""
  },
  {
   "property": "C07",
   "status": "proved",
   "theorems": [
    "AS.Props.C07_overflow_empty",
    "AS.Props.C07_overflow_wrong",
    "AS.Props.C07_exact_below"
   ],
   "note": ""
  },
  {
   "property": "C08",
   "status": "proved",
   "theorems": [
    "AS.Props.C08_keeps",
    "AS.Props.C08_idempotent",
    "AS.Props.C08_monotone",
    "AS.Props.C08_union",
    "AS.Props.C08_change"
   ],
   "note": ""
  },
  {
   "property": "C09",
   "status": "proved",
   "theorems": [
    "AS.Props.C09_reassemble",
    "AS.Props.C09_texts",
    "AS.Props.C09_attached",
    "AS.Props.C09_cases",
    "AS.Props.C09_mixed"
   ],
   "note": ""
  },
  {
   "property": "C10",
   "status": "proved",
   "theorems": [
    "AS.Props.C10_alternatives",
    "AS.Props.C10_none",
    "AS.Props.C10_words"
   ],
   "note": ""
  },
  {
   "property": "C11",
   "status": "proved",
   "theorems": [
    "AS.Props.C11_tokens",
    "AS.Props.C11_consecutive",
    "AS.Props.C11_one_line",
    "AS.Props.C11_recognised"
   ],
   "note": ""
  },
  {
   "property": "C12",
   "status": "proved",
   "theorems": [
    "AS.Props.C12_dropped",
    "AS.Props.C12_nothing",
    "AS.Props.C12_starts_with_punctuation",
    "AS.Props.C12_empty_lexicon"
   ],
   "note": ""
  },
  {
   "property": "C13",
   "status": "proved",
   "theorems": [
    "AS.Props.C13_in_lexicon",
    "AS.Props.C13_by_shape",
    "AS.Props.C13_total",
    "AS.Props.C13_text"
   ],
   "note": ""
  },
  {
   "property": "C14",
   "status": "proved",
   "theorems": [
    "AS.Props.C14_by_bytes",
    "AS.Props.C14_ascii",
    "AS.Props.C14_two_byte_letter"
   ],
   "note": ""
  },
  {
   "property": "C15",
   "status": "proved",
   "theorems": [
    "AS.Props.C15_read_fields",
    "AS.Props.C15_entry_roundtrip",
    "AS.Props.C15_read_then_print",
    "AS.Props.C15_tab_lost",
    "AS.Props.C15_made",
    "AS.Props.C15_attached"
   ],
   "note": ""
  },
  {
   "property": "C16",
   "status": "proved",
   "theorems": [
    "AS.Props.C16_find",
    "AS.Props.C16_held",
    "AS.Props.C16_order",
    "AS.Props.C16_no_op",
    "AS.Props.C16_size"
   ],
   "note": ""
  },
  {
   "property": "C17",
   "status": "proved",
   "theorems": [
    "AS.Props.C17_patterns_current",
    "AS.Props.C17_pattern_words"
   ],
   "note": ""
  },
  {
   "property": "C18",
   "status": "proved",
   "theorems": [
    "AS.Props.C18_loads",
    "AS.Props.C18_only",
    "AS.Props.C18_meaning_unique",
    "AS.Props.C18_dedup",
    "AS.Props.C18_errors",
    "AS.Props.C18_other_line",
    "AS.Props.C18_mixed_case_tag"
   ],
   "note": ""
  },
  {
   "property": "C19",
   "status": "proved",
   "theorems": [
    "AS.Props.C19_lexicon_roundtrip",
    "AS.Props.C19_limits"
   ],
   "note": ""
  },
  {
   "property": "C20",
   "status": "proved",
   "theorems": [
    "AS.Props.C20_standardize",
    "AS.Props.C20_cases",
    "AS.Props.C20_no_class"
   ],
   "note": ""
  },
  {
   "property": "C21",
   "status": "proved",
   "theorems": [
    "AS.Props.C21_word_pattern",
    "AS.Props.C21_first_is_longest",
    "AS.Props.C21_no_words"
   ],
   "note": ""
  },
  {
   "property": "C22",
   "status": "proved",
   "theorems": [
    "AS.Props.C22_caret_not_escaped",
    "AS.Props.C22_negated_class"
   ],
   "note": ""
  },
  {
   "property": "C23",
   "status": "proved",
   "theorems": [
    "AS.Props.C23_isWord",
    "AS.Props.C23_isPrefix",
    "AS.Props.C23_startingWith",
    "AS.Props.C23_getWords",
    "AS.Props.C23_size"
   ],
   "note": ""
  },
  {
   "property": "C24",
   "status": "proved",
   "theorems": [
    "AS.Props.C24_round_trip",
    "AS.Props.C24_error",
    "AS.Props.C24_lean",
    "AS.Props.C24_shortest",
    "AS.Props.C24_prefix_free",
    "AS.Props.C24_order"
   ],
   "note": ""
  },
  {
   "property": "C25",
   "status": "proved",
   "theorems": [
    "AS.Props.C25_walk",
    "AS.Props.C25_dec_inc",
    "AS.Props.C25_forward",
    "AS.Props.C25_backward"
   ],
   "note": ""
  },
  {
   "property": "C26",
   "status": "proved",
   "theorems": [
    "AS.Props.C26_rule_line_meaning",
    "AS.Props.C26_rule_line_total",
    "AS.Props.C26_accepted_valid"
   ],
   "note": ""
  },
  {
   "property": "C27",
   "status": "proved",
   "theorems": [
    "AS.Props.C27_trailing_blanks"
   ],
   "note": ""
  },
  {
   "property": "C28",
   "status": "proved",
   "theorems": [
    "AS.Props.C28_rule_roundtrip",
    "AS.Props.C28_rule_print"
   ],
   "note": ""
  },
  {
   "property": "C29",
   "status": "proved",
   "theorems": [
    "AS.Props.C29_constructed_wf",
    "AS.Props.C29_constructed_closed",
    "AS.Props.C29_search_defined"
   ],
   "note": ""
  },
  {
   "property": "C30",
   "status": "proved",
   "theorems": [
    "AS.Props.C30_check_exact",
    "AS.Props.C30_status_of_constructed"
   ],
   "note": ""
  },
  {
   "property": "C31",
   "status": "proved",
   "theorems": [
    "AS.Props.C31_lookup_found",
    "AS.Props.C31_lookup_missing"
   ],
   "note": ""
  },
  {
   "property": "C32",
   "status": "proved",
   "theorems": [
    "AS.Props.C32_text_meaning",
    "AS.Props.C32_digest_input",
    "AS.Props.C32_odd_meta_line_dropped",
    "AS.Props.C32_rejected"
   ],
   "note": ""
  },
  {
   "property": "C33",
   "status": "proved",
   "theorems": [
    "AS.Props.C33_last_line_repeated",
    "AS.Props.C33_lexicon_newline",
    "AS.Props.C33_lexicon_newline_matters"
   ],
   "note": ""
  },
  {
   "property": "C34",
   "status": "proved",
   "theorems": [
    "AS.Props.C34_bom_swallows",
    "AS.Props.C34_bom_fails",
    "AS.Props.C34_lexicon_bom_swallows",
    "AS.Props.C34_lexicon_header_lost"
   ],
   "note": ""
  },
  {
   "property": "C35",
   "status": "proved",
   "theorems": [
    "AS.Props.C35_search_terminates",
    "AS.Props.C35_depth_irrelevant"
   ],
   "note": ""
  },
  {
   "property": "C36",
   "status": "proved",
   "theorems": [
    "AS.Props.C36_search_sound"
   ],
   "note": ""
  },
  {
   "property": "C37",
   "status": "proved",
   "theorems": [
    "AS.Props.C37_search_exact",
    "AS.Props.C37_search_incomplete"
   ],
   "note": ""
  },
  {
   "property": "C38",
   "status": "proved",
   "theorems": [
    "AS.Props.C38_search_repeats"
   ],
   "note": ""
  },
  {
   "property": "C39",
   "status": "proved",
   "theorems": [
    "AS.Props.C39_best_is_first_max"
   ],
   "note": ""
  },
  {
   "property": "C40",
   "status": "proved",
   "theorems": [
    "AS.Props.C40_reclassified",
    "AS.Props.C40_mismatch",
    "AS.Props.C40_never_minus_two"
   ],
   "note": ""
  },
  {
   "property": "C41",
   "status": "proved",
   "theorems": [
    "AS.Props.C41_no_match_iff"
   ],
   "note": ""
  },
  {
   "property": "C42",
   "status": "proved",
   "theorems": [
    "AS.Props.C42_first_best_phrase"
   ],
   "note": ""
  },
  {
   "property": "C43",
   "status": "proved",
   "theorems": [
    "AS.Props.C43_all_rows",
    "AS.Props.C43_best_row",
    "AS.Props.C43_best_row_needs_exactness"
   ],
   "note": ""
  },
  {
   "property": "C44",
   "status": "proved",
   "theorems": [
    "AS.Props.C44_pattern_text",
    "AS.Props.C44_pattern_reads_back"
   ],
   "note": ""
  },
  {
   "property": "C45",
   "status": "proved",
   "theorems": [
    "AS.Props.C45_every_class",
    "AS.Props.C45_fields",
    "AS.Props.C45_address"
   ],
   "note": ""
  },
  {
   "property": "C46",
   "status": "proved",
   "theorems": [
    "AS.Props.C46_rows",
    "AS.Props.C46_seq_unique",
    "AS.Props.C46_alternatives"
   ],
   "note": ""
  },
  {
   "property": "C47",
   "status": "proved",
   "theorems": [
    "AS.Props.C47_sorted",
    "AS.Props.C47_complete",
    "AS.Props.C47_nan"
   ],
   "note": ""
  },
  {
   "property": "C48",
   "status": "proved",
   "theorems": [
    "AS.Props.C48_memory_standardize",
    "AS.Props.C48_memory_parse",
    "AS.Props.C48_memory_match",
    "AS.Props.C48_errors",
    "AS.Props.C48_message",
    "AS.Props.C48_address_iff_match",
    "AS.Props.C48_bad_texts"
   ],
   "note": ""
  },
  {
   "property": "C49",
   "status": "proved",
   "theorems": [
    "AS.Props.C49_digests",
    "AS.Props.C49_exact",
    "AS.Props.C49_results"
   ],
   "note": ""
  },
  {
   "property": "C50",
   "status": "proved",
   "theorems": [
    "AS.Props.C50_fifo",
    "AS.Props.C50_last_four",
    "AS.Props.C50_bounded",
    "AS.Props.C50_hit",
    "AS.Props.C50_miss"
   ],
   "note": ""
  },
  {
   "property": "C51",
   "status": "proved",
   "theorems": [
    "AS.Props.C51_never_fails",
    "AS.Props.C51_hash_live",
    "AS.Props.C51_all_destroyed"
   ],
   "note": ""
  },
  {
   "property": "C52",
   "status": "proved",
   "theorems": [
    "AS.Props.C52_history_independent",
    "AS.Props.C52_as_standardize"
   ],
   "note": ""
  },
  {
   "property": "C53",
   "status": "proved",
   "theorems": [
    "AS.Props.C53_crashes",
    "AS.Props.C53_valid_texts",
    "AS.Props.C53_bad_grammar_double_free",
    "AS.Props.C53_session"
   ],
   "note": ""
  },
  {
   "property": "C54",
   "status": "proved",
   "theorems": [
    "AS.Props.C54_chunking",
    "AS.Props.C54_at_once"
   ],
   "note": ""
  },
  {
   "property": "C55",
   "status": "proved",
   "theorems": [
    "AS.Props.C55_empty_before",
    "AS.Props.C55_hexdigest",
    "AS.Props.C55_stale"
   ],
   "note": ""
  },
  {
   "property": "C56",
   "status": "proved",
   "theorems": [
    "AS.Props.C56_padding_least",
    "AS.Props.C56_blocks",
    "AS.Props.C56_truncated",
    "AS.Props.C56_bound_sharp"
   ],
   "note": ""
  },
  {
   "property": "C57",
   "status": "proved",
   "theorems": [
    "AS.Props.C57_F",
    "AS.Props.C57_G",
    "AS.Props.C57_rest_is_rfc",
    "AS.Props.C57_not_md5"
   ],
   "note": ""
  },
  {
   "property": "C58",
   "status": "proved",
   "theorems": [
    "AS.Props.C58_exact",
    "AS.Props.C58_independent"
   ],
   "note": ""
  },
  {
   "property": "C59",
   "status": "proved",
   "theorems": [
    "AS.Props.C59_section_order",
    "AS.Props.C59_same_address"
   ],
   "note": ""
  },
  {
   "property": "C60",
   "status": "proved",
   "theorems": [
    "AS.Props.C60_insert_line",
    "AS.Props.C60_keeps_results",
    "AS.Props.C60_best_not_worse",
    "AS.Props.C60_address_kept"
   ],
   "note": ""
  },
  {
   "property": "C61",
   "status": "proved",
   "theorems": [
    "AS.Props.C61_print_reload",
    "AS.Props.C61_empty_section_lost"
   ],
   "note": ""
  },
  {
   "property": "C62",
   "status": "proved",
   "theorems": [
    "AS.Props.C62_compiled",
    "AS.Props.C62_plain_text",
    "AS.Props.C62_compiles",
    "AS.Props.C62_old_version",
    "AS.Props.C62_not_twice"
   ],
   "note": ""
  },
  {
   "property": "C63",
   "status": "proved",
   "theorems": [
    "AS.Props.C63_parse",
    "AS.Props.C63_match",
    "AS.Props.C63_errors_silent"
   ],
   "note": ""
  },
  {
   "property": "C64",
   "status": "proved",
   "theorems": [
    "AS.Props.C64_as_standardize"
   ],
   "note": ""
  },
  {
   "property": "C65",
   "status": "proved",
   "theorems": [
    "AS.Props.C65_within",
    "AS.Props.C65_explained"
   ],
   "note": ""
  },
  {
   "property": "C66",
   "status": "proved",
   "theorems": [
    "AS.Props.C66_token_pieces",
    "AS.Props.C66_token_characters",
    "AS.Props.C66_field_characters",
    "AS.Props.C66_nothing_cut"
   ],
   "note": ""
  },
  {
   "property": "C67",
   "status": "proved",
   "theorems": [
    "AS.Props.C67_entries",
    "AS.Props.C67_line_order"
   ],
   "note": ""
  },
  {
   "property": "C68",
   "status": "proved",
   "theorems": [
    "AS.Props.C68_absent_words",
    "AS.Props.C68_added_lines"
   ],
   "note": ""
  },
  {
   "property": "C69",
   "status": "proved",
   "theorems": [
    "AS.Props.C69_patterns"
   ],
   "note": ""
  },
  {
   "property": "C70",
   "status": "proved",
   "theorems": [
    "AS.Props.C70_split",
    "AS.Props.C70_longest_phrase",
    "AS.Props.C70_whole_number"
   ],
   "note": ""
  },
  {
   "property": "C71",
   "status": "proved",
   "theorems": [
    "AS.Props.C71_leading_tokens",
    "AS.Props.C71_trailing_tokens",
    "AS.Props.C71_case",
    "AS.Props.C71_leading_blanks",
    "AS.Props.C71_trailing_blanks"
   ],
   "note": ""
  },
  {
   "property": "C72",
   "status": "proved",
   "theorems": [
    "AS.Props.C72_token_text",
    "AS.Props.C72_roundtrip",
    "AS.Props.C72_tab_cuts",
    "AS.Props.C72_trim"
   ],
   "note": ""
  },
  {
   "property": "C73",
   "status": "proved",
   "theorems": [
    "AS.Props.C73_match",
    "AS.Props.C73_positions",
    "AS.Props.C73_concat",
    "AS.Props.C73_concat_valid",
    "AS.Props.C73_concat_grouping",
    "AS.Props.C73_empty",
    "AS.Props.C73_read_not_empty"
   ],
   "note": ""
  },
  {
   "property": "C74",
   "status": "proved",
   "theorems": [
    "AS.Props.C74_isWord",
    "AS.Props.C74_isPrefix",
    "AS.Props.C74_startingWith",
    "AS.Props.C74_getWords",
    "AS.Props.C74_size",
    "AS.Props.C74_regexp_defined",
    "AS.Props.C74_regexp_ascii"
   ],
   "note": ""
  },
  {
   "property": "C75",
   "status": "proved",
   "theorems": [
    "AS.Props.C75_search",
    "AS.Props.C75_same_address",
    "AS.Props.C75_added_section"
   ],
   "note": ""
  },
  {
   "property": "C76",
   "status": "proved",
   "theorems": [
    "AS.Props.C76_search",
    "AS.Props.C76_same_address",
    "AS.Props.C76_text",
    "AS.Props.C76_same_with_text"
   ],
   "note": ""
  },
  {
   "property": "C77",
   "status": "proved",
   "theorems": [
    "AS.Props.C77_scaled_best",
    "AS.Props.C77_same_address",
    "AS.Props.C77_score_range"
   ],
   "note": ""
  },
  {
   "property": "C78",
   "status": "proved",
   "theorems": [
    "AS.Props.C78_line_order",
    "AS.Props.C78_same_score",
    "AS.Props.C78_same_addresses",
    "AS.Props.C78_order_decides"
   ],
   "note": ""
  },
  {
   "property": "C79",
   "status": "proved",
   "theorems": [
    "AS.Props.C79_bound",
    "AS.Props.C79_complete_iff",
    "AS.Props.C79_complete",
    "AS.Props.C79_standardized_iff"
   ],
   "note": ""
  },
  {
   "property": "C80",
   "status": "proved",
   "theorems": [
    "AS.Props.C80_never",
    "AS.Props.C80_always"
   ],
   "note": ""
  },
  {
   "property": "C81",
   "status": "proved",
   "theorems": [
    "AS.Props.C81_accepted",
    "AS.Props.C81_standardized_iff",
    "AS.Props.C81_fields",
    "AS.Props.C81_city",
    "AS.Props.C81_no_building",
    "AS.Props.C81_scores"
   ],
   "note": ""
  },
  {
   "property": "C82",
   "status": "proved",
   "theorems": [
    "AS.Props.C82_standardize",
    "AS.Props.C82_standardize_cached",
    "AS.Props.C82_parse",
    "AS.Props.C82_match",
    "AS.Props.C82_compile",
    "AS.Props.C82_session",
    "AS.Props.C82_parse_unchecked",
    "AS.Props.C82_match_unchecked"
   ],
   "note": ""
  },
  {
   "property": "C83",
   "status": "proved",
   "theorems": [
    "AS.Props.C83_origin",
    "AS.Props.C83_samples",
    "AS.Props.C83_sample_classes"
   ],
   "note": ""
  },
  {
   "property": "C84",
   "status": "proved",
   "theorems": [
    "AS.Props.C84_classes",
    "AS.Props.C84_possible",
    "AS.Props.C84_null",
    "AS.Props.C84_pruned",
    "AS.Props.C84_checked"
   ],
   "note": ""
  },
  {
   "property": "C85",
   "status": "proved",
   "theorems": [
    "AS.Props.C85_loads",
    "AS.Props.C85_plain",
    "AS.Props.C85_idle",
    "AS.Props.C85_null"
   ],
   "note": ""
  },
  {
   "property": "C86",
   "status": "proved",
   "theorems": [
    "AS.Props.C86_bound",
    "AS.Props.C86_defined_iff",
    "AS.Props.C86_defined",
    "AS.Props.C86_empty_words",
    "AS.Props.C86_blank_not_filtered",
    "AS.Props.C86_long_address",
    "AS.Props.C86_samples"
   ],
   "note": ""
  },
  {
   "property": "C87",
   "status": "proved",
   "theorems": [
    "AS.Props.C87_elided",
    "AS.Props.C87_left_out",
    "AS.Props.C87_no_token",
    "AS.Props.C87_where",
    "AS.Props.C87_samples",
    "AS.Props.C87_counts"
   ],
   "note": ""
  },
  {
   "property": "C88",
   "status": "proved",
   "theorems": [
    "AS.Props.C88_use",
    "AS.Props.C88_detached",
    "AS.Props.C88_shadowed",
    "AS.Props.C88_column",
    "AS.Props.C88_samples",
    "AS.Props.C88_counts"
   ],
   "note": ""
  },
  {
   "property": "C89",
   "status": "proved",
   "theorems": [
    "AS.Props.C89_lists",
    "AS.Props.C89_same",
    "AS.Props.C89_possible",
    "AS.Props.C89_unknown",
    "AS.Props.C89_words_kept"
   ],
   "note": ""
  },
  {
   "property": "C90",
   "status": "proved",
   "theorems": [
    "AS.Props.C90_where",
    "AS.Props.C90_cut",
    "AS.Props.C90_trailing"
   ],
   "note": ""
  },
  {
   "property": "C91",
   "status": "proved",
   "theorems": [
    "AS.Props.C91_germany_text",
    "AS.Props.C91_germany",
    "AS.Props.C91_grammar",
    "AS.Props.C91_grammar_results",
    "AS.Props.C91_line",
    "AS.Props.C91_no_attachments",
    "AS.Props.C91_header",
    "AS.Props.C91_refused",
    "AS.Props.C91_loads",
    "AS.Props.C91_same",
    "AS.Props.C91_attached"
   ],
   "note": ""
  },
  {
   "property": "C92",
   "status": "proved",
   "theorems": [
    "AS.Props.C92_tokens",
    "AS.Props.C92_last_mark",
    "AS.Props.C92_which_mark",
    "AS.Props.C92_unread",
    "AS.Props.C92_parse"
   ],
   "note": ""
  },
  {
   "property": "C93",
   "status": "proved",
   "theorems": [
    "AS.Props.C93_derives",
    "AS.Props.C93_keeps_results",
    "AS.Props.C93_complete",
    "AS.Props.C93_same_results",
    "AS.Props.C93_score",
    "AS.Props.C93_addresses",
    "AS.Props.C93_may_find_more"
   ],
   "note": ""
  },
  {
   "property": "C94",
   "status": "proved",
   "theorems": [
    "AS.Props.C94_same_or_new",
    "AS.Props.C94_lines",
    "AS.Props.C94_address",
    "AS.Props.C94_untouched"
   ],
   "note": ""
  },
  {
   "property": "C95",
   "status": "proved",
   "theorems": [
    "AS.Props.C95_same_or_new",
    "AS.Props.C95_tokens",
    "AS.Props.C95_address",
    "AS.Props.C95_kept",
    "AS.Props.C95_line",
    "AS.Props.C95_first_class"
   ],
   "note": ""
  },
  {
   "property": "C96",
   "status": "proved",
   "theorems": [
    "AS.Props.C96_tokens",
    "AS.Props.C96_spacing",
    "AS.Props.C96_synonym",
    "AS.Props.C96_rows",
    "AS.Props.C96_reaches_across"
   ],
   "note": ""
  },
  {
   "property": "C97",
   "status": "proved",
   "theorems": [
    "AS.Props.C97_standardize",
    "AS.Props.C97_few_blanks",
    "AS.Props.C97_counts",
    "AS.Props.C97_parse",
    "AS.Props.C97_rows",
    "AS.Props.C97_match",
    "AS.Props.C97_long"
   ],
   "note": ""
  },
  {
   "property": "C98",
   "status": "proved",
   "theorems": [
    "AS.Props.C98_same_rules",
    "AS.Props.C98_rows",
    "AS.Props.C98_moved"
   ],
   "note": ""
  },
  {
   "property": "C99",
   "status": "proved",
   "theorems": [
    "AS.Props.C99_listed",
    "AS.Props.C99_any_phrase",
    "AS.Props.C99_ways",
    "AS.Props.C99_once",
    "AS.Props.C99_one_section",
    "AS.Props.C99_bound"
   ],
   "note": ""
  },
  {
   "property": "C100",
   "status": "proved",
   "theorems": [
    "AS.Props.C100_match",
    "AS.Props.C100_standardize",
    "AS.Props.C100_rows",
    "AS.Props.C100_letters",
    "AS.Props.C100_numbers",
    "AS.Props.C100_short"
   ],
   "note": ""
  },
  {
   "property": "C101",
   "status": "proved",
   "theorems": [
    "AS.Props.C101_samples",
    "AS.Props.C101_same_code",
    "AS.Props.C101_create",
    "AS.Props.C101_append",
    "AS.Props.C101_refused",
    "AS.Props.C101_second",
    "AS.Props.C101_two_datasets",
    "AS.Props.C101_apostrophe"
   ],
   "note": ""
  },
  {
   "property": "C102",
   "status": "proved",
   "theorems": [
    "AS.Props.C102_loads",
    "AS.Props.C102_grammar",
    "AS.Props.C102_score"
   ],
   "note": ""
  },
  {
   "property": "C103",
   "status": "proved",
   "theorems": [
    "AS.Props.C103_text",
    "AS.Props.C103_loads",
    "AS.Props.C103_lexicon",
    "AS.Props.C103_special"
   ],
   "note": ""
  },
  {
   "property": "C104",
   "status": "proved",
   "theorems": [
    "AS.Props.C104_report",
    "AS.Props.C104_right",
    "AS.Props.C104_errors",
    "AS.Props.C104_wrong"
   ],
   "note": ""
  },
  {
   "property": "C105",
   "status": "proved",
   "theorems": [
    "AS.Props.C105_average",
    "AS.Props.C105_ordered",
    "AS.Props.C105_best",
    "AS.Props.C105_rows",
    "AS.Props.C105_first_row",
    "AS.Props.C105_samples",
    "AS.Props.C105_sample_rows",
    "AS.Props.C105_tie",
    "AS.Props.C105_too_close"
   ],
   "note": ""
  },
  {
   "property": "C106",
   "status": "proved",
   "theorems": [
    "AS.Props.C106_arguments",
    "AS.Props.C106_usage",
    "AS.Props.C106_not_opened",
    "AS.Props.C106_no_file",
    "AS.Props.C106_parse",
    "AS.Props.C106_standardize",
    "AS.Props.C106_no_match",
    "AS.Props.C106_bad_lexicon",
    "AS.Props.C106_bad_grammar",
    "AS.Props.C106_tokens",
    "AS.Props.C106_compile",
    "AS.Props.C106_dump"
   ],
   "note": ""
  },
  {
   "property": "C107",
   "status": "proved",
   "theorems": [
    "AS.Props.C107_classes",
    "AS.Props.C107_rows",
    "AS.Props.C107_alike",
    "AS.Props.C107_fields",
    "AS.Props.C107_returned",
    "AS.Props.C107_spaces",
    "AS.Props.C107_joined"
   ],
   "note": ""
  },
  {
   "property": "C108",
   "status": "proved",
   "theorems": [
    "AS.Props.C108_read",
    "AS.Props.C108_street",
    "AS.Props.C108_english",
    "AS.Props.C108_compound"
   ],
   "note": ""
  },
  {
   "property": "C109",
   "status": "proved",
   "theorems": [
    "AS.Props.C109_read",
    "AS.Props.C109_street",
    "AS.Props.C109_english",
    "AS.Props.C109_compound"
   ],
   "note": ""
  },
  {
   "property": "C110",
   "status": "proved",
   "theorems": [
    "AS.Props.C110_classes",
    "AS.Props.C110_rows",
    "AS.Props.C110_fields",
    "AS.Props.C110_returned",
    "AS.Props.C110_read",
    "AS.Props.C110_joined",
    "AS.Props.C110_english"
   ],
   "note": ""
  },
  {
   "property": "C111",
   "status": "proved",
   "theorems": [
    "AS.Props.C111_narrowed",
    "AS.Props.C111_again",
    "AS.Props.C111_settled",
    "AS.Props.C111_unsettled",
    "AS.Props.C111_country",
    "AS.Props.C111_samples"
   ],
   "note": ""
  },
  {
   "property": "C112",
   "status": "proved",
   "theorems": [
    "AS.Props.C112_any_two",
    "AS.Props.C112_matches",
    "AS.Props.C112_best",
    "AS.Props.C112_priority",
    "AS.Props.C112_text",
    "AS.Props.C112_address",
    "AS.Props.C112_rows",
    "AS.Props.C112_recursive"
   ],
   "note": ""
  },
  {
   "property": "C113",
   "status": "proved",
   "theorems": [
    "AS.Props.C113_listed",
    "AS.Props.C113_rows",
    "AS.Props.C113_text",
    "AS.Props.C113_search",
    "AS.Props.C113_tokens",
    "AS.Props.C113_returned",
    "AS.Props.C113_fields",
    "AS.Props.C113_same",
    "AS.Props.C113_ties"
   ],
   "note": ""
  },
  {
   "property": "C114",
   "status": "proved",
   "theorems": [
    "AS.Props.C114_part",
    "AS.Props.C114_equal",
    "AS.Props.C114_rule",
    "AS.Props.C114_returned",
    "AS.Props.C114_samples",
    "AS.Props.C114_number"
   ],
   "note": ""
  }
 ]
}