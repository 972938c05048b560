{"claims": [
{"property": "C01", "status": "proved", "theorems": ["Gse.C01_split_lossless", "Gse.C01_split_bytes", "Gse.C01_split_exact"], "note": ""},
{"property": "C02", "status": "proved", "theorems": ["Gse.C02_split_spec", "Gse.C02_split_unique", "Gse.C02_words_nonempty"], "note": ""},
{"property": "C03", "status": "proved", "theorems": ["Gse.C03_resplit", "Gse.C03_coherent"], "note": ""},
{"property": "C04", "status": "proved", "theorems": ["Gse.C04_find_history", "Gse.C04_first_since_removal", "Gse.C04_add_present"], "note": ""},
{"property": "C05", "status": "proved", "theorems": ["Gse.C05_find_flag"], "note": ""},
{"property": "C06", "status": "proved", "theorems": ["Gse.C06_counters", "Gse.C06_stored_step", "Gse.C06_exact"], "note": ""},
{"property": "C07", "status": "proved", "theorems": ["Gse.C07_lookup"], "note": ""},
{"property": "C08", "status": "proved", "theorems": ["Gse.C08_tiling"], "note": ""},
{"property": "C09", "status": "proved", "theorems": ["Gse.C09_segment_text"], "note": ""},
{"property": "C10", "status": "proved", "theorems": ["Gse.C10_segment_kind"], "note": ""},
{"property": "C11", "status": "proved", "theorems": ["Gse.C11_exact", "Gse.C11_ieee", "Gse.C11_shortest", "Gse.C11_cheapest", "Gse.C11_unique"], "note": ""},
{"property": "C12", "status": "proved", "theorems": ["Gse.C12_segment_total", "Gse.C12_no_dictionary", "Gse.C12_history_total", "Gse.C12_flag_change_panics", "Gse.C12_flag_change_loses_text"], "note": ""},
{"property": "C13", "status": "proved", "theorems": ["Gse.C13_zero_never_first", "Gse.C13_added_zero", "Gse.C13_not_shortest"], "note": ""},
{"property": "C14", "status": "proved", "theorems": ["Gse.C14_ieee", "Gse.C14_same", "Gse.C14_search_best", "Gse.C14_never_whole", "Gse.C14_one_word"], "note": ""},
{"property": "C15", "status": "proved", "theorems": ["Gse.C15_subsegments", "Gse.C15_ordered", "Gse.C15_tile_exact"], "note": ""},
{"property": "C16", "status": "proved", "theorems": ["Gse.C16_expansion_terminates", "Gse.C16_output_total"], "note": ""},
{"property": "C17", "status": "proved", "theorems": ["Gse.C17_slice_pos", "Gse.C17_string_pos"], "note": ""},
{"property": "C18", "status": "proved", "theorems": ["Gse.C18_search_adds", "Gse.C18_subsequence", "Gse.C18_exact"], "note": ""},
{"property": "C19", "status": "proved", "theorems": ["Gse.C19_calc_idempotent", "Gse.C19_force_present"], "note": ""},
{"property": "C20", "status": "proved", "theorems": ["Gse.C20_load_str", "Gse.C20_settings", "Gse.C20_find", "Gse.C20_append"], "note": ""},
{"property": "C21", "status": "proved", "theorems": ["Gse.C21_size", "Gse.C21_error_stored"], "note": ""},
{"property": "C22", "status": "proved", "theorems": ["Gse.C22_load_map"], "note": ""},
{"property": "C23", "status": "proved", "theorems": ["Gse.C23_reader", "Gse.C23_file", "Gse.C23_inherit", "Gse.C23_long", "Gse.C23_last"], "note": ""},
{"property": "C24", "status": "proved", "theorems": ["Gse.C24_occurrences"], "note": ""},
{"property": "C25", "status": "proved", "theorems": ["Gse.C25_cover"], "note": ""},
{"property": "C26", "status": "proved", "theorems": ["Gse.C26_lossless", "Gse.C26_posWord"], "note": ""},
{"property": "C27", "status": "proved", "theorems": ["Gse.C27_best", "Gse.C27_best_hmm", "Gse.C27_unique", "Gse.C27_exact", "Gse.C27_ieee", "Gse.C27_ieee_hmm"], "note": ""},
{"property": "C28", "status": "proved", "theorems": ["Gse.C28_any", "Gse.C28_lossless", "Gse.C28_patterns", "Gse.C28_skip"], "note": ""},
{"property": "C29", "status": "proved", "theorems": ["Gse.C29_tagging", "Gse.C29_empty", "Gse.C29_best", "Gse.C29_unique", "Gse.C29_ieee"], "note": ""},
{"property": "C30", "status": "proved", "theorems": ["Gse.C30_lossless", "Gse.C30_runs"], "note": ""},
{"property": "C31", "status": "proved", "theorems": ["Gse.C31_patterns", "Gse.C31_skip", "Gse.C31_skip_empty_hangs", "Gse.C31_word_empty_panics"], "note": ""},
{"property": "C32", "status": "proved", "theorems": ["Gse.C32_search", "Gse.C32_subsequence"], "note": ""},
{"property": "C33", "status": "proved", "theorems": ["Gse.C33_occurrences", "Gse.C33_scan", "Gse.C33_empty_hangs"], "note": ""},
{"property": "C34", "status": "proved", "theorems": ["Gse.C34_no_text", "Gse.C34_text", "Gse.C34_empty_word"], "note": ""},
{"property": "C35", "status": "proved", "theorems": ["Gse.C35_isStop", "Gse.C35_panic"], "note": ""},
{"property": "C36", "status": "proved", "theorems": ["Gse.C36_stop", "Gse.C36_trimPunct", "Gse.C36_trimSymbol", "Gse.C36_trim", "Gse.C36_trimPos", "Gse.C36_trimPosPunct", "Gse.C36_idempotent", "Gse.C36_cut"], "note": ""},
{"property": "C37", "status": "proved", "theorems": ["Gse.C37_trimWithPos", "Gse.C37_no_tags", "Gse.C37_posTrim", "Gse.C37_texts"], "note": ""},
{"property": "C38", "status": "proved", "theorems": ["Gse.C38_cutStr", "Gse.C38_posStr", "Gse.C38_recover"], "note": ""},
{"property": "C39", "status": "proved", "theorems": ["Gse.C39_symbol", "Gse.C39_emoji", "Gse.C39_lang", "Gse.C39_lang_unknown", "Gse.C39_range", "Gse.C39_rangeText"], "note": ""},
{"property": "C40", "status": "proved", "theorems": ["Gse.C40_exact", "Gse.C40_deletes", "Gse.C40_no_tag", "Gse.C40_unchanged", "Gse.C40_idempotent"], "note": ""},
{"property": "C41", "status": "proved", "theorems": ["Gse.C41_runs", "Gse.C41_partition", "Gse.C41_characters"], "note": ""},
{"property": "C42", "status": "proved", "theorems": ["Gse.C42_join", "Gse.C42_equals", "Gse.C42_equals_text"], "note": ""},
{"property": "C43", "status": "proved", "theorems": ["Gse.C43_cut", "Gse.C43_cut_ascii", "Gse.C43_capital_lost", "Gse.C43_capital_witness", "Gse.C43_case_insensitive", "Gse.C43_split_case"], "note": ""},
{"property": "C44", "status": "proved", "theorems": ["Gse.C44_paths", "Gse.C44_plain", "Gse.C44_repeat", "Gse.C44_en"], "note": ""},
{"property": "C45", "status": "proved", "theorems": ["Gse.C45_top", "Gse.C45_deterministic", "Gse.C45_unique", "Gse.C45_negative", "Gse.C45_ieee"], "note": ""},
{"property": "C46", "status": "proved", "theorems": ["Gse.C46_ieee", "Gse.C46_ieee_opposite", "Gse.C46_shipped", "Gse.C46_words", "Gse.C46_ranking", "Gse.C46_direction", "Gse.C46_single", "Gse.C46_opposite", "Gse.C46_returns"], "note": ""},
{"property": "C47", "status": "proved", "theorems": ["Gse.C47_median", "Gse.C47_new", "Gse.C47_ieee"], "note": ""},
{"property": "C48", "status": "proved", "theorems": ["Gse.C48_shared", "Gse.C48_values"], "note": ""},
{"property": "C49", "status": "proved", "theorems": ["Gse.C49_lossless", "Gse.C49_alternates", "Gse.C49_gaps", "Gse.C49_limit", "Gse.C49_findAll"], "note": ""},
{"property": "C50", "status": "proved", "theorems": ["Gse.C50_no_hmm", "Gse.C50_hmm", "Gse.C50_no_hmm_nonempty", "Gse.C50_hmm_nonempty", "Gse.C50_shipped"], "note": ""},
{"property": "C51", "status": "proved", "theorems": ["Gse.C51_legal", "Gse.C51_bs", "Gse.C51_mb", "Gse.C51_em", "Gse.C51_short"], "note": ""},
{"property": "C52", "status": "proved", "theorems": ["Gse.C52_pos"], "note": ""},
{"property": "C53", "status": "proved", "theorems": ["Gse.C53_result", "Gse.C53_ends", "Gse.C53_complete", "Gse.C53_can_complete", "Gse.C53_history", "Gse.C53_no_dictionary"], "note": ""},
{"property": "C54", "status": "proved", "theorems": ["Gse.C54_single", "Gse.C54_several", "Gse.C54_none", "Gse.C54_product"], "note": ""},
{"property": "C55", "status": "proved", "theorems": ["Gse.C55_load", "Gse.C55_last_load", "Gse.C55_cutMod"], "note": ""},
{"property": "C56", "status": "proved", "theorems": ["Gse.C56_reader_sep", "Gse.C56_newline_kept"], "note": ""},
{"property": "C57", "status": "proved", "theorems": ["Gse.C57_settings", "Gse.C57_load_dict", "Gse.C57_missing_file", "Gse.C57_missing_uncalculated"], "note": ""},
{"property": "C58", "status": "proved", "theorems": ["Gse.C58_names", "Gse.C58_zh", "Gse.C58_text", "Gse.C58_builtin", "Gse.C58_both"], "note": ""},
{"property": "C59", "status": "proved", "theorems": ["Gse.C59_argument", "Gse.C59_unchanged"], "note": ""},
{"property": "C60", "status": "proved", "theorems": ["Gse.C60_error", "Gse.C60_long_line"], "note": ""},
{"property": "C61", "status": "proved", "theorems": ["Gse.C61_zh_not_first"], "note": ""},
{"property": "C62", "status": "proved", "theorems": ["Gse.C62_trimSymbol", "Gse.C62_html", "Gse.C62_url", "Gse.C62_joined"], "note": ""},
{"property": "C63", "status": "proved", "theorems": ["Gse.C63_unknown", "Gse.C63_prefix"], "note": ""},
{"property": "C64", "status": "proved", "theorems": ["Gse.C64_returns"], "note": ""},
{"property": "C65", "status": "proved", "theorems": ["Gse.C65_ieee", "Gse.C65_ieee_deterministic", "Gse.C65_best", "Gse.C65_unique", "Gse.C65_deterministic", "Gse.C65_shipped", "Gse.C65_shipped_deterministic"], "note": ""},
{"property": "C66", "status": "proved", "theorems": ["Gse.C66_ieee", "Gse.C66_ieee_hmm", "Gse.C66_no_hmm", "Gse.C66_hmm", "Gse.C66_exact", "Gse.C66_exact_hmm", "Gse.C66_apart", "Gse.C66_shipped"], "note": ""},
{"property": "C67", "status": "proved", "theorems": ["Gse.C67_trimPunct", "Gse.C67_trim", "Gse.C67_trimWithPos"], "note": ""},
{"property": "C68", "status": "proved", "theorems": ["Gse.C68_race_free", "Gse.C68_writes_private"], "note": ""},
{"property": "C69", "status": "proved", "theorems": ["Gse.C69_alone", "Gse.C69_race", "Gse.C69_complete", "Gse.C69_panic", "Gse.C69_in_order"], "note": ""},
{"property": "C70", "status": "proved", "theorems": ["Gse.C70_added", "Gse.C70_readded", "Gse.C70_letters", "Gse.C70_apart"], "note": ""},
{"property": "C71", "status": "proved", "theorems": ["Gse.C71_cut", "Gse.C71_cut_hmm", "Gse.C71_segment", "Gse.C71_thousand", "Gse.C71_clear", "Gse.C71_twenty"], "note": ""},
{"property": "C72", "status": "proved", "theorems": ["Gse.C72_nan_total", "Gse.C72_inf_total", "Gse.C72_nan_segment", "Gse.C72_nan_segment_unique", "Gse.C72_inf_segment", "Gse.C72_inf_segment_unique", "Gse.C72_nan_cut", "Gse.C72_nan_cut_hmm", "Gse.C72_inf_cut", "Gse.C72_inf_cut_hmm", "Gse.C72_cut_unique", "Gse.C72_line", "Gse.C72_load"], "note": ""},
{"property": "C73", "status": "proved", "theorems": ["Gse.C73_result", "Gse.C73_complete", "Gse.C73_race_free", "Gse.C73_history", "Gse.C73_init", "Gse.C73_load_race", "Gse.C73_load_complete", "Gse.C73_load_race_differ", "Gse.C73_unknown_han", "Gse.C73_load_race_history", "Gse.C73_load_alone", "Gse.C73_loaders_race", "Gse.C73_loaders_mix"], "note": ""},
{"property": "C74", "status": "proved", "theorems": ["Gse.C74_call_self", "Gse.C74_call_panic", "Gse.C74_call_other", "Gse.C74_nil", "Gse.C74_shared", "Gse.C74_copy_shares", "Gse.C74_copy_shares_stop", "Gse.C74_apart", "Gse.C74_load_replaces", "Gse.C74_empty_then_load", "Gse.C74_stop_late"], "note": ""},
{"property": "C75", "status": "proved", "theorems": ["Gse.C75_marshal", "Gse.C75_utf8", "Gse.C75_total", "Gse.C75_start", "Gse.C75_segments", "Gse.C75_words", "Gse.C75_any_time"], "note": ""},
{"property": "C76", "status": "proved", "theorems": ["Gse.C76_ok", "Gse.C76_known", "Gse.C76_stored", "Gse.C76_nan"], "note": ""},
{"property": "C77", "status": "proved", "theorems": ["Gse.C77_alone", "Gse.C77_race", "Gse.C77_complete", "Gse.C77_safe"], "note": ""},
{"property": "C78", "status": "proved", "theorems": ["Gse.C78_parse", "Gse.C78_row", "Gse.C78_exact", "Gse.C78_find", "Gse.C78_nan", "Gse.C78_add", "Gse.C78_add_nan"], "note": ""},
{"property": "C79", "status": "proved", "theorems": ["Gse.C79_work", "Gse.C79_no_dictionary", "Gse.C79_total", "Gse.C79_history"], "note": ""},
{"property": "C80", "status": "proved", "theorems": ["Gse.C80_work"], "note": ""},
{"property": "C81", "status": "proved", "theorems": ["Gse.C81_decode", "Gse.C81_runes", "Gse.C81_encode", "Gse.C81_unique", "Gse.C81_trim", "Gse.C81_newlines"], "note": ""},
{"property": "C82", "status": "proved", "theorems": ["Gse.C82_entries", "Gse.C82_panics_iff", "Gse.C82_result", "Gse.C82_safe_iff", "Gse.C82_safe_history", "Gse.C82_alphaNum_safe", "Gse.C82_coherent", "Gse.C82_calc_panics_iff", "Gse.C82_force_panics_iff", "Gse.C82_cut", "Gse.C82_plain", "Gse.C82_same_split", "Gse.C82_plain_words"], "note": ""},
{"property": "C83", "status": "proved", "theorems": ["Gse.C83_dictionary", "Gse.C83_count", "Gse.C83_call_panics", "Gse.C83_entries", "Gse.C83_segment_panics", "Gse.C83_steady", "Gse.C83_steady_panics", "Gse.C83_cut"], "note": ""},
{"property": "C84", "status": "proved", "theorems": ["Gse.C84_state", "Gse.C84_stop", "Gse.C84_panics", "Gse.C84_top", "Gse.C84_loadDict"], "note": ""},
{"property": "C85", "status": "proved", "theorems": ["Gse.C85_new", "Gse.C85_ignored", "Gse.C85_usable", "Gse.C85_find", "Gse.C85_load_again", "Gse.C85_embed", "Gse.C85_embed_lost", "Gse.C85_embed_gone", "Gse.C85_embed_usable"], "note": ""},
{"property": "C86", "status": "proved", "theorems": ["Gse.C86_nil", "Gse.C86_same", "Gse.C86_panics", "Gse.C86_panics_hmm", "Gse.C86_cut", "Gse.C86_cut_hmm", "Gse.C86_rank", "Gse.C86_load", "Gse.C86_live"], "note": ""},
{"property": "C87", "status": "proved", "theorems": ["Gse.C87_words", "Gse.C87_separator", "Gse.C87_segment", "Gse.C87_exact", "Gse.C87_slice", "Gse.C87_mode", "Gse.C87_separator_runes", "Gse.C87_cut", "Gse.C87_cut_exact", "Gse.C87_cutAll", "Gse.C87_ieee", "Gse.C87_cut_ieee", "Gse.C87_infinite", "Gse.C87_cut_infinite"], "note": ""},
{"property": "C88", "status": "proved", "theorems": ["Gse.C88_runs_unique", "Gse.C88_hmm", "Gse.C88_single", "Gse.C88_separator", "Gse.C88_cut", "Gse.C88_cut_exact", "Gse.C88_context", "Gse.C88_cut_ieee"], "note": ""},
{"property": "C89", "status": "proved", "theorems": ["Gse.C89_cuts", "Gse.C89_segments", "Gse.C89_order_content", "Gse.C89_order", "Gse.C89_pos_order", "Gse.C89_order_exact", "Gse.C89_order_ieee", "Gse.C89_removed"], "note": ""},
{"property": "C90", "status": "proved", "theorems": ["Gse.C90_segments", "Gse.C90_raised", "Gse.C90_cutAll", "Gse.C90_cut", "Gse.C90_lost", "Gse.C90_unknown"], "note": ""},
{"property": "C91", "status": "proved", "theorems": ["Gse.C91_segment", "Gse.C91_cut", "Gse.C91_agree", "Gse.C91_cutAll", "Gse.C91_tie", "Gse.C91_unknown"], "note": ""},
{"property": "C92", "status": "proved", "theorems": ["Gse.C92_front", "Gse.C92_cut_back", "Gse.C92_slice", "Gse.C92_cut", "Gse.C92_ieee", "Gse.C92_cut_ieee", "Gse.C92_zero", "Gse.C92_cut_zero", "Gse.C92_hmm"], "note": ""},
{"property": "C93", "status": "proved", "theorems": ["Gse.C93_hmm", "Gse.C93_idle", "Gse.C93_race", "Gse.C93_complete", "Gse.C93_panic", "Gse.C93_gap", "Gse.C93_gap_find"], "note": ""},
{"property": "C94", "status": "proved", "theorems": ["Gse.C94_agree", "Gse.C94_removed", "Gse.C94_added", "Gse.C94_unrecalculated", "Gse.C94_cut", "Gse.C94_removed_cut", "Gse.C94_cut_fewer", "Gse.C94_segment_fewer", "Gse.C94_total_acts", "Gse.C94_first_character"], "note": ""},
{"property": "C95", "status": "proved", "theorems": ["Gse.C95_alone", "Gse.C95_result", "Gse.C95_race_free", "Gse.C95_complete", "Gse.C95_history", "Gse.C95_race", "Gse.C95_race_complete", "Gse.C95_amid", "Gse.C95_untouched", "Gse.C95_lost", "Gse.C95_split", "Gse.C95_empty_panics"], "note": ""},
{"property": "C96", "status": "proved", "theorems": ["Gse.C96_cut", "Gse.C96_hmm", "Gse.C96_cutSearch", "Gse.C96_cutAll", "Gse.C96_segment", "Gse.C96_expand", "Gse.C96_slice"], "note": ""},
{"property": "C97", "status": "proved", "theorems": ["Gse.C97_progress", "Gse.C97_steps", "Gse.C97_end", "Gse.C97_exactly_once", "Gse.C97_as_sequential", "Gse.C97_bounded", "Gse.C97_not_early", "Gse.C97_crash", "Gse.C97_finish", "Gse.C97_no_worker", "Gse.C97_one_worker", "Gse.C97_benchmark", "Gse.C97_first_word", "Gse.C97_blank_line", "Gse.C97_book", "Gse.C97_book_long_line", "Gse.C97_output", "Gse.C97_crash_witness"], "note": ""},
{"property": "C98", "status": "proved", "theorems": ["Gse.C98_shares", "Gse.C98_reuse", "Gse.C98_split"], "note": ""},
{"property": "C99", "status": "proved", "theorems": ["Gse.C99_seen", "Gse.C99_fresh", "Gse.C99_text", "Gse.C99_stay", "Gse.C99_left", "Gse.C99_search", "Gse.C99_ends", "Gse.C99_shows"], "note": ""},
{"property": "C100", "status": "proved", "theorems": ["Gse.C100_index", "Gse.C100_query", "Gse.C100_slice", "Gse.C100_missed", "Gse.C100_short"], "note": ""},
{"property": "C101", "status": "proved", "theorems": ["Gse.C101_result", "Gse.C101_complete", "Gse.C101_history", "Gse.C101_quiet", "Gse.C101_race", "Gse.C101_race_complete", "Gse.C101_force", "Gse.C101_shipped"], "note": ""},
{"property": "C102", "status": "proved", "theorems": ["Gse.C102_symbol", "Gse.C102_symbol_hmm", "Gse.C102_lines", "Gse.C102_lines_hmm", "Gse.C102_inside", "Gse.C102_inside_exact", "Gse.C102_inside_real", "Gse.C102_inside_ieee", "Gse.C102_shipped"], "note": ""},
{"property": "C103", "status": "proved", "theorems": ["Gse.C103_words", "Gse.C103_rank", "Gse.C103_elsewhere", "Gse.C103_order", "Gse.C103_begins"], "note": ""},
{"property": "C104", "status": "proved", "theorems": ["Gse.C104_shares", "Gse.C104_counts", "Gse.C104_prefix", "Gse.C104_parts", "Gse.C104_twice", "Gse.C104_ratio_ieee", "Gse.C104_ieee"], "note": ""},
{"property": "C105", "status": "proved", "theorems": ["Gse.C105_items", "Gse.C105_posStr", "Gse.C105_string", "Gse.C105_text", "Gse.C105_slash"], "note": ""},
{"property": "C106", "status": "proved", "theorems": ["Gse.C106_outranks", "Gse.C106_gains", "Gse.C106_more", "Gse.C106_append", "Gse.C106_share_ieee", "Gse.C106_ieee", "Gse.C106_negative"], "note": ""},
{"property": "C107", "status": "proved", "theorems": ["Gse.C107_str", "Gse.C107_map", "Gse.C107_files", "Gse.C107_same", "Gse.C107_again", "Gse.C107_order", "Gse.C107_back", "Gse.C107_empty_word"], "note": ""},
{"property": "C108", "status": "proved", "theorems": ["Gse.C108_front", "Gse.C108_none", "Gse.C108_later", "Gse.C108_later_str", "Gse.C108_forgets"], "note": ""},
{"property": "C109", "status": "proved", "theorems": ["Gse.C109_order", "Gse.C109_weight", "Gse.C109_weight_ieee", "Gse.C109_rounding"], "note": ""},
{"property": "C110", "status": "proved", "theorems": ["Gse.C110_segment", "Gse.C110_cut", "Gse.C110_ieee", "Gse.C110_cut_ieee", "Gse.C110_heavy", "Gse.C110_cut_moves"], "note": ""},
{"property": "C111", "status": "proved", "theorems": ["Gse.C111_words", "Gse.C111_joins", "Gse.C111_same", "Gse.C111_pos", "Gse.C111_letters"], "note": ""},
{"property": "C112", "status": "proved", "theorems": ["Gse.C112_text", "Gse.C112_returns", "Gse.C112_same", "Gse.C112_file", "Gse.C112_kept", "Gse.C112_undone", "Gse.C112_twice"], "note": ""},
{"property": "C113", "status": "proved", "theorems": ["Gse.C113_alone", "Gse.C113_work", "Gse.C113_cheap", "Gse.C113_least", "Gse.C113_quadratic", "Gse.C113_batch"], "note": ""},
{"property": "C114", "status": "proved", "theorems": ["Gse.C114_alone", "Gse.C114_unwritten", "Gse.C114_calls", "Gse.C114_collide", "Gse.C114_free", "Gse.C114_exact"], "note": ""},
{"property": "C115", "status": "proved", "theorems": ["Gse.C115_orders", "Gse.C115_serial", "Gse.C115_fresh", "Gse.C115_last", "Gse.C115_calls", "Gse.C115_commute"], "note": ""},
{"property": "C116", "status": "proved", "theorems": ["Gse.C116_safe", "Gse.C116_answers", "Gse.C116_ordered", "Gse.C116_live", "Gse.C116_ends", "Gse.C116_complete", "Gse.C116_adds"], "note": ""},
{"property": "C117", "status": "proved", "theorems": ["Gse.C117_work", "Gse.C117_total", "Gse.C117_least"], "note": ""},
{"property": "C118", "status": "proved", "theorems": ["Gse.C118_result", "Gse.C118_complete", "Gse.C118_race", "Gse.C118_race_complete", "Gse.C118_known", "Gse.C118_panic"], "note": ""},
{"property": "C119", "status": "proved", "theorems": ["Gse.C119_serial", "Gse.C119_raceFree", "Gse.C119_exists"], "note": ""},
{"property": "C120", "status": "proved", "theorems": ["Gse.C120_json", "Gse.C120_add", "Gse.C120_quadratic"], "note": ""},
{"property": "C121", "status": "proved", "theorems": ["Gse.C121_local", "Gse.C121_raise", "Gse.C121_settled", "Gse.C121_ieee", "Gse.C121_moved"], "note": ""},
{"property": "C122", "status": "proved", "theorems": ["Gse.C122_two", "Gse.C122_orders", "Gse.C122_both"], "note": ""},
{"property": "C123", "status": "proved", "theorems": ["Gse.C123_cut", "Gse.C123_text", "Gse.C123_seam", "Gse.C123_seam_hmm", "Gse.C123_local", "Gse.C123_removed", "Gse.C123_slice", "Gse.C123_string", "Gse.C123_hmm", "Gse.C123_one_word", "Gse.C123_all", "Gse.C123_letters"], "note": ""},
{"property": "C124", "status": "proved", "theorems": ["Gse.C124_local", "Gse.C124_none", "Gse.C124_scale"], "note": ""}
]}
