# Axioms per theorem

Generated by `tools/gen_axioms.py` from `#print axioms`.

| theorem | axioms |
|---|---|
| WanaKana.C01_is_hiragana | propext Classical.choice Quot.sound |
| WanaKana.C01_is_katakana | propext Classical.choice Quot.sound |
| WanaKana.C01_is_kana | propext Classical.choice Quot.sound |
| WanaKana.C01_is_kanji | propext Quot.sound |
| WanaKana.C01_contains_kanji | propext Quot.sound |
| WanaKana.C01_is_romaji | propext Classical.choice Quot.sound |
| WanaKana.C01_is_japanese | propext Classical.choice Quot.sound |
| WanaKana.C02_kana_iff | propext |
| WanaKana.C02_hiragana_and_katakana_iff | propext Classical.choice Quot.sound |
| WanaKana.C02_strings | propext Classical.choice Quot.sound |
| WanaKana.C02_kana_strings | propext Classical.choice Quot.sound |
| WanaKana.C03_disjoint | propext Classical.choice Quot.sound |
| WanaKana.C03_disjoint_strings | propext Classical.choice Quot.sound |
| WanaKana.C03_sub | propext Classical.choice Quot.sound |
| WanaKana.C03_sub_strings | propext Classical.choice Quot.sound |
| WanaKana.C04_is_mixed | propext Classical.choice Quot.sound |
| WanaKana.C04_pass_kanji_true | none |
| WanaKana.C04_pass_kanji_false | propext Classical.choice Quot.sound |
| WanaKana.C04_set | propext Classical.choice Quot.sound |
| WanaKana.C04_perm | propext Classical.choice Quot.sound |
| WanaKana.C04_monotone | propext Classical.choice Quot.sound |
| WanaKana.C04_exclusive | propext Classical.choice Quot.sound |
| WanaKana.C05_append | propext Classical.choice Quot.sound |
| WanaKana.C05_infix | propext Classical.choice Quot.sound |
| WanaKana.C05_perm | propext Classical.choice Quot.sound |
| WanaKana.C06_japanese_partial | propext Classical.choice Quot.sound |
| WanaKana.C06_romaji_partial | propext Classical.choice Quot.sound |
| WanaKana.C06_japanese_sound_partial | propext Classical.choice Quot.sound |
| WanaKana.C06_romaji_sound_partial | propext Classical.choice Quot.sound |
| WanaKana.C06_none_partial | propext Quot.sound |
| WanaKana.C06_japanese_false | propext Classical.choice Quot.sound |
| WanaKana.C06_romaji_false | propext Classical.choice Quot.sound |
| WanaKana.C07_partition | propext Classical.choice Quot.sound |
| WanaKana.C07_default | none |
| WanaKana.C08_disjoint | propext Classical.choice Quot.sound |
| WanaKana.C08_union | propext Classical.choice Quot.sound |
| WanaKana.C08_exact | propext Classical.choice Quot.sound |
| WanaKana.C08_not_romaji | propext Classical.choice Quot.sound |
| WanaKana.C08_not_japanese | propext Classical.choice Quot.sound |
| WanaKana.C09_total | propext Classical.choice Quot.sound |
| WanaKana.C09_loop | propext Classical.choice Quot.sound |
| WanaKana.C09_default | propext Classical.choice Quot.sound |
| WanaKana.C09_trees | none |
| WanaKana.C10_greedy | propext Classical.choice Quot.sound |
| WanaKana.C10_table | propext Classical.choice Quot.sound |
| WanaKana.C11_canStart | propext Classical.choice Quot.sound |
| WanaKana.C11_unchanged | propext Classical.choice Quot.sound |
| WanaKana.C11_japanese | propext Classical.choice Quot.sound |
| WanaKana.C12_append | propext Classical.choice Quot.sound |
| WanaKana.C13_case | propext Classical.choice Quot.sound |
| WanaKana.C14_lower | propext Classical.choice Quot.sound |
| WanaKana.C14_upper | propext Classical.choice Quot.sound |
| WanaKana.C15_length | propext Classical.choice Quot.sound |
| WanaKana.C16_idempotent_partial | propext Classical.choice Quot.sound |
| WanaKana.C16_idempotent_ime | propext Classical.choice Quot.sound |
| WanaKana.C16_false | propext Classical.choice Quot.sound |
| WanaKana.C17_ignored | propext Quot.sound |
| WanaKana.C17_obsolete_wins | propext Classical.choice Quot.sound |
| WanaKana.C17_obsolete | propext Classical.choice Quot.sound |
| WanaKana.C17_ime | propext Classical.choice Quot.sound |
| WanaKana.C18_incremental | propext Classical.choice Quot.sound |
| WanaKana.C18_typing | propext Classical.choice Quot.sound |
| WanaKana.C19_pending | propext Classical.choice Quot.sound |
| WanaKana.C19_resolved | propext Classical.choice Quot.sound |
| WanaKana.C19_syllable | propext Classical.choice Quot.sound |
| WanaKana.C19_other | propext Classical.choice Quot.sound |
| WanaKana.C20_double | propext Classical.choice Quot.sound |
| WanaKana.C20_double_upper | propext Classical.choice Quot.sound |
| WanaKana.C21_row | propext Classical.choice Quot.sound |
| WanaKana.C21_any | propext Classical.choice Quot.sound |
| WanaKana.C22_charwise | propext Classical.choice Quot.sound |
| WanaKana.C22_no_hiragana | propext Classical.choice Quot.sound |
| WanaKana.C22_idempotent | propext Classical.choice Quot.sound |
| WanaKana.C22_append | propext Classical.choice Quot.sound |
| WanaKana.C22_length | propext Classical.choice Quot.sound |
| WanaKana.C23_total | propext Classical.choice Quot.sound |
| WanaKana.C23_no_katakana | propext Classical.choice Quot.sound |
| WanaKana.C23_unchanged | propext Classical.choice Quot.sound |
| WanaKana.C23_idempotent | propext Classical.choice Quot.sound |
| WanaKana.C24_exact | propext Classical.choice Quot.sound |
| WanaKana.C24_exact_modern | propext Classical.choice Quot.sound |
| WanaKana.C24_exact_no_vu | propext Classical.choice Quot.sound |
| WanaKana.C24_insert | propext Classical.choice Quot.sound |
| WanaKana.C24_insert_vu | propext Classical.choice Quot.sound |
| WanaKana.C24_public | propext Classical.choice Quot.sound |
| WanaKana.C25_hiragana_partial | propext Classical.choice Quot.sound |
| WanaKana.C25_hiragana_false | propext Classical.choice Quot.sound |
| WanaKana.C25_katakana_partial | propext Classical.choice Quot.sound |
| WanaKana.C25_katakana_false | propext Classical.choice Quot.sound |
| WanaKana.C26_count | propext Classical.choice Quot.sound |
| WanaKana.C26_le | propext Classical.choice Quot.sound |
| WanaKana.C26_same | propext Classical.choice Quot.sound |
| WanaKana.C27_total | propext Classical.choice Quot.sound |
| WanaKana.C27_rust | propext Classical.choice Quot.sound |
| WanaKana.C28_unchanged | propext Classical.choice Quot.sound |
| WanaKana.C28_iff | propext Classical.choice Quot.sound |
| WanaKana.C29_ascii | propext Classical.choice Quot.sound |
| WanaKana.C29_is_romaji | propext Classical.choice Quot.sound |
| WanaKana.C30_hiragana_form | propext Classical.choice Quot.sound |
| WanaKana.C30_script | propext Classical.choice Quot.sound |
| WanaKana.C31_case | propext Classical.choice Quot.sound |
| WanaKana.C31_other_options | propext Classical.choice Quot.sound |
| WanaKana.C31_no_katakana | propext Classical.choice Quot.sound |
| WanaKana.C31_all_katakana | propext Classical.choice Quot.sound |
| WanaKana.C32_segments_partial | propext Classical.choice Quot.sound |
| WanaKana.C32_false | propext Classical.choice Quot.sound |
| WanaKana.C33_exact | propext Classical.choice Quot.sound |
| WanaKana.C33_false | propext Classical.choice Quot.sound |
| WanaKana.C33_deterministic_partial | propext Classical.choice Quot.sound |
| WanaKana.C33_only_vu | propext Classical.choice Quot.sound |
| WanaKana.C34_chunks | propext Classical.choice Quot.sound |
| WanaKana.C34_upcase_false | propext Classical.choice Quot.sound |
| WanaKana.C35_all_converted | propext Classical.choice Quot.sound |
| WanaKana.C35_idempotent | propext Classical.choice Quot.sound |
| WanaKana.C36_roundtrip | propext Classical.choice Quot.sound |
| WanaKana.C36_exact | propext Classical.choice Quot.sound |
| WanaKana.C36_irregular | propext Classical.choice Quot.sound |
| WanaKana.C37_length | propext Classical.choice Quot.sound |
| WanaKana.C37_tight | propext Classical.choice Quot.sound |
| WanaKana.C38_total | propext Classical.choice Quot.sound |
| WanaKana.C39_kana | propext Classical.choice Quot.sound |
| WanaKana.C40_compose | propext Classical.choice Quot.sound |
| WanaKana.C40_case | propext Classical.choice Quot.sound |
| WanaKana.C41_katakana | propext Classical.choice Quot.sound |
| WanaKana.C41_hiragana | propext Classical.choice Quot.sound |
| WanaKana.C41_nonkana | propext Classical.choice Quot.sound |
| WanaKana.C42_no_hiragana | propext Classical.choice Quot.sound |
| WanaKana.C43_no_katakana_partial | propext Classical.choice Quot.sound |
| WanaKana.C43_false | propext Classical.choice Quot.sound |
| WanaKana.C43_exact | propext Classical.choice Quot.sound |
| WanaKana.C44_katakana_partial | propext Classical.choice Quot.sound |
| WanaKana.C44_hiragana_partial | propext Classical.choice Quot.sound |
| WanaKana.C44_katakana_false | propext Classical.choice Quot.sound |
| WanaKana.C44_hiragana_false | propext Classical.choice Quot.sound |
| WanaKana.C44_hiragana_false_quote | propext Classical.choice Quot.sound |
| WanaKana.C45_concat | propext Quot.sound |
| WanaKana.C45_nonempty | propext Quot.sound |
| WanaKana.C45_same | none |
| WanaKana.C45_empty | propext Quot.sound |
| WanaKana.C46_maximal_runs | propext Quot.sound |
| WanaKana.C46_unique | propext Quot.sound |
| WanaKana.C47_detailed_holds | propext Classical.choice Quot.sound |
| WanaKana.C47_detailed | propext Classical.choice Quot.sound |
| WanaKana.C47_compact | propext Classical.choice Quot.sound |
| WanaKana.C47_compact_range | propext Classical.choice Quot.sound |
| WanaKana.C48_split_iff | propext Quot.sound |
| WanaKana.C49_compact_combines_partial | propext Classical.choice Quot.sound |
| WanaKana.C49_fewer_partial | propext Classical.choice Quot.sound |
| WanaKana.C49_false | propext Quot.sound |
| WanaKana.C50_end | propext Classical.choice Quot.sound |
| WanaKana.C50_start | propext Classical.choice Quot.sound |
| WanaKana.C50_prefix_suffix | propext Classical.choice Quot.sound |
| WanaKana.C51_unchanged | propext Classical.choice Quot.sound |
| WanaKana.C52_end | propext Classical.choice Quot.sound |
| WanaKana.C52_start | propext Classical.choice Quot.sound |
| WanaKana.C53_idempotent_false | propext Quot.sound |
| WanaKana.C53_nonempty_false | propext Quot.sound |
| WanaKana.C53_nonempty_matcher_false | propext Quot.sound |
| WanaKana.C53_idempotent_matcher_partial | propext Classical.choice Quot.sound |
| WanaKana.C53_idempotent_ordinary_partial | propext Classical.choice Quot.sound |
| WanaKana.C53_nonempty_partial | propext Classical.choice Quot.sound |
| WanaKana.C54_false | propext Quot.sound |
| WanaKana.C54_inside_partial | propext Classical.choice Quot.sound |
| WanaKana.C54_panics | propext Classical.choice Quot.sound |
| WanaKana.C54_past_end | propext Quot.sound |
| WanaKana.C55_to_kana_args | propext Classical.choice Quot.sound |
| WanaKana.C55_to_romaji_args | propext Classical.choice Quot.sound |
| WanaKana.C55_to_kana_stdin | propext Classical.choice Quot.sound |
| WanaKana.C55_to_romaji_stdin | propext Classical.choice Quot.sound |
| WanaKana.C55_cases | propext |
| WanaKana.C55_joined_length | propext Quot.sound |
| WanaKana.C56_greedy | propext Classical.choice Quot.sound |
| WanaKana.C56_greedy_modern | propext Classical.choice Quot.sound |
| WanaKana.C56_greedy_no_vu | propext Classical.choice Quot.sound |
| WanaKana.C56_unique | propext Classical.choice Quot.sound |
| WanaKana.C57_roundtrip_both | propext Classical.choice Quot.sound |
| WanaKana.C57_conditions | propext Classical.choice Quot.sound |
| WanaKana.C58_recover | propext Classical.choice Quot.sound |
| WanaKana.C59_romaji | propext Classical.choice Quot.sound |
| WanaKana.C59_other | propext Classical.choice Quot.sound |
| WanaKana.C59_no_romaji | propext Classical.choice Quot.sound |
| WanaKana.C60_runs_exist | propext Quot.sound |
| WanaKana.C60_hiragana | propext Classical.choice Quot.sound |
| WanaKana.C60_katakana | propext Classical.choice Quot.sound |
| WanaKana.C61_end | propext Classical.choice Quot.sound |
| WanaKana.C61_start | propext Classical.choice Quot.sound |
| WanaKana.C61_end_unique | propext Classical.choice Quot.sound |
| WanaKana.C61_start_unique | propext Classical.choice Quot.sound |
| WanaKana.C61_default | propext Classical.choice Quot.sound |
| WanaKana.C62_changes_end | propext Classical.choice Quot.sound |
| WanaKana.C62_changes_start | propext Classical.choice Quot.sound |
| WanaKana.C62_twice_end | propext Classical.choice Quot.sound |
| WanaKana.C62_twice_start | propext Classical.choice Quot.sound |
| WanaKana.C62_empty_end | propext Classical.choice Quot.sound |
| WanaKana.C62_empty_start | propext Classical.choice Quot.sound |
| WanaKana.C62_empty_matcher | propext Classical.choice Quot.sound |
| WanaKana.C62_empty_matcher_start | propext Classical.choice Quot.sound |
| WanaKana.C63_char | propext Classical.choice Quot.sound |
| WanaKana.C63_str | propext Classical.choice Quot.sound |
| WanaKana.C63_mixed | propext Classical.choice Quot.sound |
| WanaKana.C63_whitelist | propext Classical.choice Quot.sound |
| WanaKana.C63_defaults | propext |
| WanaKana.C63_to_kana | propext Classical.choice Quot.sound |
| WanaKana.C63_to_romaji | propext Classical.choice Quot.sound |
| WanaKana.C63_kana | propext Classical.choice Quot.sound |
| WanaKana.C63_romaji | propext Classical.choice Quot.sound |
| WanaKana.C64_chars | propext Classical.choice Quot.sound |
| WanaKana.C64_in_range | propext |
| WanaKana.C64_letters | propext Classical.choice Quot.sound |
| WanaKana.C65_hiragana | propext Classical.choice Quot.sound |
| WanaKana.C65_katakana | propext Classical.choice Quot.sound |
| WanaKana.C65_hiragana_letters | propext Classical.choice Quot.sound |
| WanaKana.C65_katakana_letters | propext Classical.choice Quot.sound |
| WanaKana.C66_twice | propext Classical.choice Quot.sound |
| WanaKana.C66_stable_iff | propext Classical.choice Quot.sound |
| WanaKana.C66_third | propext Classical.choice Quot.sound |
| WanaKana.C67_katakana | propext Classical.choice Quot.sound |
| WanaKana.C67_katakana_stable | propext Classical.choice Quot.sound |
| WanaKana.C67_hiragana | propext Classical.choice Quot.sound |
| WanaKana.C67_hiragana_stable | propext Classical.choice Quot.sound |
| WanaKana.C68_combines_iff | propext Classical.choice Quot.sound |
| WanaKana.C68_fewer | propext Classical.choice Quot.sound |
| WanaKana.C68_retokenize | propext Quot.sound |
| WanaKana.C69_sort_by_key | propext Quot.sound |
| WanaKana.C69_unique | propext Classical.choice Quot.sound |
| WanaKana.C69_kana_lookup | propext Quot.sound |
| WanaKana.C69_kana_sorted | propext Quot.sound |
| WanaKana.C69_romaji_lookup | propext Classical.choice Quot.sound |
| WanaKana.C69_romaji_path | propext Quot.sound |
| WanaKana.C70_total | propext Classical.choice Quot.sound |
| WanaKana.C70_lookup | propext Classical.choice Quot.sound |
| WanaKana.C70_object | propext Classical.choice Quot.sound |
| WanaKana.C70_object_get | propext Classical.choice Quot.sound |
| WanaKana.C70_sorted | propext Classical.choice Quot.sound |
| WanaKana.C70_keys | propext Classical.choice Quot.sound |
| WanaKana.C71_total | propext Classical.choice Quot.sound |
| WanaKana.C71_lookup | propext Classical.choice Quot.sound |
| WanaKana.C71_sorted | propext Classical.choice Quot.sound |
| WanaKana.C71_keys | propext Classical.choice Quot.sound |
| WanaKana.C72_tree | propext Classical.choice Quot.sound |
| WanaKana.C72_lookup | propext Classical.choice Quot.sound |
| WanaKana.C72_to_kana | propext Classical.choice Quot.sound |
| WanaKana.C73_tree | propext |
| WanaKana.C73_added | propext Classical.choice Quot.sound |
| WanaKana.C73_added_new | propext |
| WanaKana.C73_lookup | propext Classical.choice Quot.sound |
| WanaKana.C73_damaged | propext Quot.sound |
| WanaKana.C74_cut | propext Classical.choice Quot.sound |
| WanaKana.C74_needed | propext Classical.choice Quot.sound |
| WanaKana.C74_pieces | propext Classical.choice Quot.sound |
| WanaKana.C75_hiragana | propext Classical.choice Quot.sound |
| WanaKana.C75_katakana | propext Classical.choice Quot.sound |
| WanaKana.C76_normal | propext Classical.choice Quot.sound |
| WanaKana.C76_needed | propext Classical.choice Quot.sound |
| WanaKana.C77_cut | propext Classical.choice Quot.sound |
| WanaKana.C77_exact | propext Classical.choice Quot.sound |
| WanaKana.C77_after | propext Classical.choice Quot.sound |
| WanaKana.C78_vowels | propext Classical.choice Quot.sound |
| WanaKana.C78_vowels_convert | propext Classical.choice Quot.sound |
| WanaKana.C78_n | propext Classical.choice Quot.sound |
| WanaKana.C79_keys | propext Classical.choice Quot.sound |
| WanaKana.C79_keys_ime | propext Classical.choice Quot.sound |
| WanaKana.C79_unique_ime | propext Classical.choice Quot.sound |
| WanaKana.C79_complete | propext Classical.choice Quot.sound |
| WanaKana.C79_needed | propext Classical.choice Quot.sound |
| WanaKana.C80_typeable | propext Classical.choice Quot.sound |
| WanaKana.C81_cut | propext Classical.choice Quot.sound |
| WanaKana.C81_exact | propext Classical.choice Quot.sound |
| WanaKana.C82_exact | propext Classical.choice Quot.sound |
| WanaKana.C83_to_kana | propext Classical.choice Quot.sound |
| WanaKana.C83_to_katakana | propext Classical.choice Quot.sound |
| WanaKana.C83_to_hiragana | propext Classical.choice Quot.sound |
| WanaKana.C83_ordinary | propext Classical.choice Quot.sound |
| WanaKana.C83_needed | propext Classical.choice Quot.sound |
| WanaKana.C84_canonical | propext Classical.choice Quot.sound |
| WanaKana.C84_exact | propext Classical.choice Quot.sound |
| WanaKana.C85_exact | propext Classical.choice Quot.sound |
| WanaKana.C86_same | propext Classical.choice Quot.sound |
| WanaKana.C86_linear | propext Classical.choice Quot.sound |
| WanaKana.C86_marks | propext Classical.choice Quot.sound |
| WanaKana.C86_quadratic | propext Classical.choice Quot.sound |
| WanaKana.C87_exact | propext Classical.choice Quot.sound |
| WanaKana.C87_typing | propext Classical.choice Quot.sound |
| WanaKana.C88_hiragana | propext Classical.choice Quot.sound |
| WanaKana.C88_hiragana_stuck | propext Classical.choice Quot.sound |
| WanaKana.C88_katakana | propext Classical.choice Quot.sound |
| WanaKana.C89_to_kana | propext Classical.choice Quot.sound |
| WanaKana.C89_four | propext Classical.choice Quot.sound |
| WanaKana.C89_katakana_to_hiragana | propext Classical.choice Quot.sound |
| WanaKana.C89_to_romaji | propext Classical.choice Quot.sound |
| WanaKana.C89_to_romaji_any | propext Classical.choice Quot.sound |
| WanaKana.C89_tight | propext Classical.choice Quot.sound |
| WanaKana.C89_tokenize | propext Quot.sound |
| WanaKana.C89_unbounded | propext Classical.choice Quot.sound |
| WanaKana.C90_complete | propext Classical.choice Quot.sound |
| WanaKana.C91_kernel | propext Classical.choice Quot.sound |
| WanaKana.C91_injective | propext Classical.choice Quot.sound |
| WanaKana.C92_to_kana | propext Classical.choice Quot.sound |
| WanaKana.C92_to_kana_tight | propext Classical.choice Quot.sound |
| WanaKana.C92_hiragana_to_katakana | propext Classical.choice Quot.sound |
| WanaKana.C92_katakana_to_hiragana | propext Classical.choice Quot.sound |
| WanaKana.C92_to_romaji | propext Classical.choice Quot.sound |
| WanaKana.C92_to_romaji_tight | propext Classical.choice Quot.sound |
| WanaKana.C92_scripts | propext Classical.choice Quot.sound |
| WanaKana.C93_is_kana | propext Classical.choice Quot.sound |
| WanaKana.C93_is_katakana | propext Classical.choice Quot.sound |
| WanaKana.C93_is_hiragana | propext Classical.choice Quot.sound |
| WanaKana.C93_lower_sound | propext Quot.sound |
| WanaKana.C93_empty | propext Classical.choice Quot.sound |
| WanaKana.C93_is_romaji | propext Classical.choice Quot.sound |
| WanaKana.C94_katakana | propext Classical.choice Quot.sound |
| WanaKana.C94_hiragana | propext Classical.choice Quot.sound |
| WanaKana.C95_to_kana | propext Classical.choice Quot.sound |
| WanaKana.C95_katakana_to_hiragana | propext Classical.choice Quot.sound |
| WanaKana.C95_hiragana_to_katakana | propext Classical.choice Quot.sound |
| WanaKana.C95_to_katakana | propext Classical.choice Quot.sound |
| WanaKana.C95_to_hiragana | propext Classical.choice Quot.sound |
| WanaKana.C96_tokens | propext Classical.choice Quot.sound |
| WanaKana.C97_to_kana | propext Classical.choice Quot.sound |
| WanaKana.C97_to_romaji | propext Classical.choice Quot.sound |
| WanaKana.C97_shifts | propext Classical.choice Quot.sound |
| WanaKana.C98_pieces | propext Classical.choice Quot.sound |
| WanaKana.C98_cut | propext Classical.choice Quot.sound |
| WanaKana.C98_tokens | propext Classical.choice Quot.sound |
| WanaKana.C98_compact | propext Classical.choice Quot.sound |
| WanaKana.C99_case_iff | propext Classical.choice Quot.sound |
| WanaKana.C99_last | propext Classical.choice Quot.sound |
| WanaKana.C100_bytes | propext Quot.sound |
| WanaKana.C100_char_indices | propext Quot.sound |
| WanaKana.C100_decode | propext Quot.sound |
| WanaKana.C100_injective | propext Quot.sound |
| WanaKana.C100_boundary | propext Classical.choice Quot.sound |
| WanaKana.C100_get_chunk | propext Classical.choice Quot.sound |
| WanaKana.C100_whole_characters | propext Classical.choice Quot.sound |
| WanaKana.C101_vu | propext Classical.choice Quot.sound |
| WanaKana.C101_pieces | propext Classical.choice Quot.sound |
| WanaKana.C101_cut | propext Classical.choice Quot.sound |
| WanaKana.C101_tokens | propext Classical.choice Quot.sound |
| WanaKana.C101_search | propext Classical.choice Quot.sound |
| WanaKana.C102_shift | propext Classical.choice Quot.sound |
| WanaKana.C102_to_hiragana | propext Classical.choice Quot.sound |
| WanaKana.C103_tokenize | propext Quot.sound |
| WanaKana.C103_prefix | propext Quot.sound |
| WanaKana.C103_suffix | propext Classical.choice Quot.sound |
| WanaKana.C103_trim | propext Classical.choice Quot.sound |
| WanaKana.C103_order | propext Classical.choice Quot.sound |
| WanaKana.C104_checks | propext Quot.sound |
| WanaKana.C104_hiragana_to_katakana | propext Quot.sound |
| WanaKana.C104_katakana_to_hiragana | propext Quot.sound |
| WanaKana.C104_to_kana | propext Quot.sound |
| WanaKana.C104_lowercase | propext Classical.choice Quot.sound |
| WanaKana.C104_uppercase | propext Quot.sound |
| WanaKana.C104_to_romaji | propext Quot.sound |
| WanaKana.C104_to_hiragana | propext Classical.choice Quot.sound |
| WanaKana.C104_to_katakana | propext Classical.choice Quot.sound |
| WanaKana.C104_reverse | propext Classical.choice Quot.sound |
| WanaKana.C105_valid | propext Classical.choice Quot.sound |
| WanaKana.C105_to_kana | propext Classical.choice Quot.sound |
| WanaKana.C105_to_romaji | propext Classical.choice Quot.sound |
| WanaKana.Lazy.C106_results | propext Quot.sound |
| WanaKana.Lazy.C106_no_deadlock | propext Classical.choice Quot.sound |
| WanaKana.Lazy.C106_terminates | propext Quot.sound |
| WanaKana.Lazy.C106_once | propext Quot.sound |
| WanaKana.Lazy.C106_cells | propext Quot.sound |
| WanaKana.Lazy.C106_calls | propext Quot.sound |
| WanaKana.Lazy.C106_session | propext Classical.choice Quot.sound |
| WanaKana.Itertools.C107_group_by | propext Classical.choice Quot.sound |
| WanaKana.Itertools.C107_tokenize | propext Classical.choice Quot.sound |
| WanaKana.StrSearcher.C108_start | propext Classical.choice Quot.sound |
| WanaKana.StrSearcher.C108_end | propext Classical.choice Quot.sound |
| WanaKana.StrSearcher.C108_trim | propext Classical.choice Quot.sound |
| WanaKana.Itertools.C109_tokenize | propext Classical.choice Quot.sound |
| WanaKana.Itertools.C109_tokenize_same | propext Classical.choice Quot.sound |
| WanaKana.StrSearcher.C109_matches | propext Classical.choice Quot.sound |
| WanaKana.StrSearcher.C109_same | propext Classical.choice Quot.sound |
| WanaKana.StrSearcher.C109_trim | propext Classical.choice Quot.sound |
| WanaKana.C110_exact | propext Classical.choice Quot.sound |
| WanaKana.C110_lost | propext Classical.choice Quot.sound |
| WanaKana.C110_rust | propext Classical.choice Quot.sound |
| WanaKana.C111_hiragana | propext Classical.choice Quot.sound |
| WanaKana.C111_hiragana_exact | propext Classical.choice Quot.sound |
| WanaKana.C111_katakana_exact | propext Classical.choice Quot.sound |
| WanaKana.C111_rust | propext Classical.choice Quot.sound |
| WanaKana.C112_exact | propext Classical.choice Quot.sound |
| WanaKana.C112_vowel | propext Classical.choice Quot.sound |
| WanaKana.C112_rust | propext Classical.choice Quot.sound |
| WanaKana.C113_to_kana | propext Classical.choice Quot.sound |
| WanaKana.C113_to_romaji | propext Classical.choice Quot.sound |
| WanaKana.C113_arguments | propext |
| WanaKana.C113_no_text | propext Classical.choice Quot.sound |
| WanaKana.C113_closed | propext Classical.choice Quot.sound |
| WanaKana.C113_lost | propext Classical.choice Quot.sound |
| WanaKana.C114_to_kana | propext Classical.choice Quot.sound |
| WanaKana.C114_to_romaji | propext Classical.choice Quot.sound |
| WanaKana.C114_to_katakana | propext Classical.choice Quot.sound |
| WanaKana.C114_reads | propext Quot.sound |
| WanaKana.C114_to_hiragana | propext Classical.choice Quot.sound |
| WanaKana.C114_pass | propext Classical.choice Quot.sound |
| WanaKana.C114_rust | propext Quot.sound |
| WanaKana.C115_canonical | propext Classical.choice Quot.sound |
| WanaKana.C115_exact | propext Classical.choice Quot.sound |
| WanaKana.C115_rust | propext Classical.choice Quot.sound |
| WanaKana.C116_hiragana | propext Classical.choice Quot.sound |
| WanaKana.C116_katakana | propext Classical.choice Quot.sound |
| WanaKana.C116_rust | propext Classical.choice Quot.sound |
| WanaKana.C117_exact | propext Classical.choice Quot.sound |
| WanaKana.C117_rust | propext Classical.choice Quot.sound |
| WanaKana.C118_katakana | propext Classical.choice Quot.sound |
| WanaKana.C118_hiragana | propext Classical.choice Quot.sound |
| WanaKana.C118_hiragana_quoted | propext Classical.choice Quot.sound |
| WanaKana.C118_hiragana_rust | propext Classical.choice Quot.sound |
| WanaKana.C119.C119_string | propext Classical.choice Quot.sound |
| WanaKana.C119.C119_char | propext Classical.choice Quot.sound |
| WanaKana.C119.C119_kana | propext Classical.choice Quot.sound |
| WanaKana.C119.C119_kana_injective | propext Classical.choice Quot.sound |
| WanaKana.C119.C119_romaji | propext Classical.choice Quot.sound |
| WanaKana.C119.C119_romaji_injective | propext Classical.choice Quot.sound |
| WanaKana.C120.C120_kana_table | propext Classical.choice Quot.sound |
| WanaKana.C120.C120_romaji_table | propext Classical.choice Quot.sound |
| WanaKana.C120.C120_kana | propext Classical.choice Quot.sound |
| WanaKana.C120.C120_romaji | propext Classical.choice Quot.sound |
| WanaKana.C120.C120_unique | propext Classical.choice Quot.sound |
| WanaKana.C121_pieces | propext Classical.choice Quot.sound |
| WanaKana.C121_cut | propext Classical.choice Quot.sound |
| WanaKana.C121_tokens | propext Classical.choice Quot.sound |
| WanaKana.C122_grows | propext Classical.choice Quot.sound |
| WanaKana.C122_either | propext Classical.choice Quot.sound |
| WanaKana.C122_settles | propext Classical.choice Quot.sound |
| WanaKana.C122_exact | propext Classical.choice Quot.sound |
| WanaKana.C122_rust | propext Classical.choice Quot.sound |
| WanaKana.C122_unbounded | propext Classical.choice Quot.sound |
| WanaKana.C123_exact | propext Classical.choice Quot.sound |
| WanaKana.C123_rust | propext Classical.choice Quot.sound |
| WanaKana.C124_canonical | propext Classical.choice Quot.sound |
| WanaKana.C124_exact | propext Classical.choice Quot.sound |
| WanaKana.C124_rust | propext Classical.choice Quot.sound |
| WanaKana.C125_either | propext Classical.choice Quot.sound |
| WanaKana.C125_settles | propext Classical.choice Quot.sound |
| WanaKana.C125_exact | propext Classical.choice Quot.sound |
| WanaKana.C125_rust | propext Classical.choice Quot.sound |
| WanaKana.C126_hiragana | propext Classical.choice Quot.sound |
| WanaKana.C126_katakana | propext Classical.choice Quot.sound |
| WanaKana.C126_rust | propext Classical.choice Quot.sound |
| WanaKana.C127_exact | propext Classical.choice Quot.sound |
| WanaKana.C127_shorter | propext Classical.choice Quot.sound |
| WanaKana.C128_exact | propext Classical.choice Quot.sound |
| WanaKana.C128_rust | propext Classical.choice Quot.sound |
| WanaKana.C129_hiragana | propext Classical.choice Quot.sound |
| WanaKana.C129_katakana | propext Classical.choice Quot.sound |
| WanaKana.C130_exact | propext Classical.choice Quot.sound |
| WanaKana.C130_hiragana | propext Classical.choice Quot.sound |
| WanaKana.C130_katakana | propext Classical.choice Quot.sound |
| WanaKana.C131_katakana | propext Classical.choice Quot.sound |
| WanaKana.C131_hiragana | propext Classical.choice Quot.sound |
| WanaKana.C132_canonical | propext Classical.choice Quot.sound |
| WanaKana.C132_exact | propext Classical.choice Quot.sound |
| WanaKana.C132_rust | propext Classical.choice Quot.sound |
| WanaKana.C133_hiragana | propext Classical.choice Quot.sound |
| WanaKana.C133_katakana | propext Classical.choice Quot.sound |
| WanaKana.C134_canonical | propext Classical.choice Quot.sound |
| WanaKana.C134_exact | propext Classical.choice Quot.sound |
| WanaKana.C134_rust | propext Classical.choice Quot.sound |
| WanaKana.C135_exact | propext Classical.choice Quot.sound |
| WanaKana.C136_pieces | propext Classical.choice Quot.sound |
| WanaKana.C136_cut | propext Classical.choice Quot.sound |
| WanaKana.C136_tokens | propext Classical.choice Quot.sound |
| WanaKana.C137_hiragana | propext Classical.choice Quot.sound |
| WanaKana.C137_katakana | propext Classical.choice Quot.sound |
| WanaKana.C138_sigma | propext Classical.choice Quot.sound |
| WanaKana.C138_katakana | propext Classical.choice Quot.sound |
| WanaKana.C138_hiragana | propext Classical.choice Quot.sound |
| WanaKana.C139_katakana | propext Classical.choice Quot.sound |
| WanaKana.C139_hiragana | propext Classical.choice Quot.sound |
| WanaKana.C140_hiragana | propext Classical.choice Quot.sound |
| WanaKana.C140_katakana | propext Classical.choice Quot.sound |
| WanaKana.C140_punct | propext Classical.choice Quot.sound |
| WanaKana.C141_tokens | propext Classical.choice Quot.sound |
| WanaKana.C141_compact | propext Classical.choice Quot.sound |
| WanaKana.C141_trim_end | propext Classical.choice Quot.sound |
| WanaKana.C141_trim_start | propext Classical.choice Quot.sound |
| WanaKana.C142_resume | propext Classical.choice Quot.sound |
| WanaKana.C142_end | propext Classical.choice Quot.sound |
| WanaKana.C142_exactly | propext Classical.choice Quot.sound |
| WanaKana.C142_upcase | propext Classical.choice Quot.sound |
| WanaKana.C143_pieces | propext Classical.choice Quot.sound |
| WanaKana.C143_cut | propext Classical.choice Quot.sound |
| WanaKana.C143_tokens | propext Classical.choice Quot.sound |
| WanaKana.C143_resume | propext Classical.choice Quot.sound |
