{
 "claims": [
  {
   "property": "C01",
   "status": "proved",
   "theorems": [
    "WanaKana.C01_is_hiragana",
    "WanaKana.C01_is_katakana",
    "WanaKana.C01_is_kana",
    "WanaKana.C01_is_kanji",
    "WanaKana.C01_contains_kanji",
    "WanaKana.C01_is_romaji",
    "WanaKana.C01_is_japanese"
   ],
   "note": ""
  },
  {
   "property": "C02",
   "status": "proved",
   "theorems": [
    "WanaKana.C02_kana_iff",
    "WanaKana.C02_hiragana_and_katakana_iff",
    "WanaKana.C02_strings",
    "WanaKana.C02_kana_strings"
   ],
   "note": ""
  },
  {
   "property": "C03",
   "status": "proved",
   "theorems": [
    "WanaKana.C03_disjoint",
    "WanaKana.C03_disjoint_strings",
    "WanaKana.C03_sub",
    "WanaKana.C03_sub_strings"
   ],
   "note": ""
  },
  {
   "property": "C04",
   "status": "proved",
   "theorems": [
    "WanaKana.C04_is_mixed",
    "WanaKana.C04_pass_kanji_true",
    "WanaKana.C04_pass_kanji_false",
    "WanaKana.C04_set",
    "WanaKana.C04_perm",
    "WanaKana.C04_monotone",
    "WanaKana.C04_exclusive"
   ],
   "note": ""
  },
  {
   "property": "C05",
   "status": "proved",
   "theorems": [
    "WanaKana.C05_append",
    "WanaKana.C05_infix",
    "WanaKana.C05_perm"
   ],
   "note": ""
  },
  {
   "property": "C06",
   "status": "partial",
   "theorems": [
    "WanaKana.C06_japanese_partial",
    "WanaKana.C06_romaji_partial",
    "WanaKana.C06_japanese_sound_partial",
    "WanaKana.C06_romaji_sound_partial",
    "WanaKana.C06_none_partial",
    "WanaKana.C06_japanese_false",
    "WanaKana.C06_romaji_false"
   ],
   "note": "The code uses the regex on the whole string/char in a way that differs from the documentation: C06_*_false give concrete counterexamples to the documented claim; the _partial theorems state exactly what holds. C63_whitelist describes the whitelist variants exactly."
  },
  {
   "property": "C07",
   "status": "proved",
   "theorems": [
    "WanaKana.C07_partition",
    "WanaKana.C07_default"
   ],
   "note": ""
  },
  {
   "property": "C08",
   "status": "proved",
   "theorems": [
    "WanaKana.C08_disjoint",
    "WanaKana.C08_union",
    "WanaKana.C08_exact",
    "WanaKana.C08_not_romaji",
    "WanaKana.C08_not_japanese"
   ],
   "note": ""
  },
  {
   "property": "C09",
   "status": "proved",
   "theorems": [
    "WanaKana.C09_total",
    "WanaKana.C09_loop",
    "WanaKana.C09_default",
    "WanaKana.C09_trees"
   ],
   "note": ""
  },
  {
   "property": "C10",
   "status": "proved",
   "theorems": [
    "WanaKana.C10_greedy",
    "WanaKana.C10_table"
   ],
   "note": ""
  },
  {
   "property": "C11",
   "status": "proved",
   "theorems": [
    "WanaKana.C11_canStart",
    "WanaKana.C11_unchanged",
    "WanaKana.C11_japanese"
   ],
   "note": ""
  },
  {
   "property": "C12",
   "status": "proved",
   "theorems": [
    "WanaKana.C12_append"
   ],
   "note": ""
  },
  {
   "property": "C13",
   "status": "proved",
   "theorems": [
    "WanaKana.C13_case"
   ],
   "note": ""
  },
  {
   "property": "C14",
   "status": "proved",
   "theorems": [
    "WanaKana.C14_lower",
    "WanaKana.C14_upper"
   ],
   "note": ""
  },
  {
   "property": "C15",
   "status": "proved",
   "theorems": [
    "WanaKana.C15_length"
   ],
   "note": ""
  },
  {
   "property": "C16",
   "status": "partial",
   "theorems": [
    "WanaKana.C16_idempotent_partial",
    "WanaKana.C16_idempotent_ime",
    "WanaKana.C16_false"
   ],
   "note": "False as stated (C16_false: nyya). Proved for every text without nyy, and for every text in IME mode. C66 describes the second conversion exactly for every text."
  },
  {
   "property": "C17",
   "status": "proved",
   "theorems": [
    "WanaKana.C17_ignored",
    "WanaKana.C17_obsolete_wins",
    "WanaKana.C17_obsolete",
    "WanaKana.C17_ime"
   ],
   "note": ""
  },
  {
   "property": "C18",
   "status": "proved",
   "theorems": [
    "WanaKana.C18_incremental",
    "WanaKana.C18_typing"
   ],
   "note": ""
  },
  {
   "property": "C19",
   "status": "proved",
   "theorems": [
    "WanaKana.C19_pending",
    "WanaKana.C19_resolved",
    "WanaKana.C19_syllable",
    "WanaKana.C19_other"
   ],
   "note": ""
  },
  {
   "property": "C20",
   "status": "proved",
   "theorems": [
    "WanaKana.C20_double",
    "WanaKana.C20_double_upper"
   ],
   "note": ""
  },
  {
   "property": "C21",
   "status": "proved",
   "theorems": [
    "WanaKana.C21_row",
    "WanaKana.C21_any"
   ],
   "note": ""
  },
  {
   "property": "C22",
   "status": "proved",
   "theorems": [
    "WanaKana.C22_charwise",
    "WanaKana.C22_no_hiragana",
    "WanaKana.C22_idempotent",
    "WanaKana.C22_append",
    "WanaKana.C22_length"
   ],
   "note": ""
  },
  {
   "property": "C23",
   "status": "proved",
   "theorems": [
    "WanaKana.C23_total",
    "WanaKana.C23_no_katakana",
    "WanaKana.C23_unchanged",
    "WanaKana.C23_idempotent"
   ],
   "note": ""
  },
  {
   "property": "C24",
   "status": "proved",
   "theorems": [
    "WanaKana.C24_exact",
    "WanaKana.C24_exact_modern",
    "WanaKana.C24_exact_no_vu",
    "WanaKana.C24_insert",
    "WanaKana.C24_insert_vu",
    "WanaKana.C24_public"
   ],
   "note": "C24_exact is the closed form for every text, C24_exact_modern fixes the vowel of ヴ for current Rust."
  },
  {
   "property": "C25",
   "status": "partial",
   "theorems": [
    "WanaKana.C25_hiragana_partial",
    "WanaKana.C25_hiragana_false",
    "WanaKana.C25_katakana_partial",
    "WanaKana.C25_katakana_false"
   ],
   "note": "False for ゕ ゖ and for ヷ ヸ ヹ ヺ (C25_*_false); proved for every other text. C65 gives the exact set of texts that survive."
  },
  {
   "property": "C26",
   "status": "proved",
   "theorems": [
    "WanaKana.C26_count",
    "WanaKana.C26_le",
    "WanaKana.C26_same"
   ],
   "note": ""
  },
  {
   "property": "C27",
   "status": "proved",
   "theorems": [
    "WanaKana.C27_total",
    "WanaKana.C27_rust"
   ],
   "note": ""
  },
  {
   "property": "C28",
   "status": "proved",
   "theorems": [
    "WanaKana.C28_unchanged",
    "WanaKana.C28_iff"
   ],
   "note": ""
  },
  {
   "property": "C29",
   "status": "proved",
   "theorems": [
    "WanaKana.C29_ascii",
    "WanaKana.C29_is_romaji"
   ],
   "note": ""
  },
  {
   "property": "C30",
   "status": "proved",
   "theorems": [
    "WanaKana.C30_hiragana_form",
    "WanaKana.C30_script"
   ],
   "note": ""
  },
  {
   "property": "C31",
   "status": "proved",
   "theorems": [
    "WanaKana.C31_case",
    "WanaKana.C31_other_options",
    "WanaKana.C31_no_katakana",
    "WanaKana.C31_all_katakana"
   ],
   "note": ""
  },
  {
   "property": "C32",
   "status": "partial",
   "theorems": [
    "WanaKana.C32_segments_partial",
    "WanaKana.C32_false"
   ],
   "note": "False as stated (C32_false): after a swallowed ー the flags are misaligned. Proved for every text without swallowed ー as a segmentation theorem; C56 describes the result of every text exactly, including the misaligned flags."
  },
  {
   "property": "C33",
   "status": "partial",
   "theorems": [
    "WanaKana.C33_exact",
    "WanaKana.C33_false",
    "WanaKana.C33_deterministic_partial",
    "WanaKana.C33_only_vu"
   ],
   "note": "False as stated (C33_false): the tree lists ゔ five times and two conforming binary searches disagree on っゔ. Proved for every text without ゔ/ヴ; C33_exact: these are exactly the texts on which all conforming searches agree; C33_only_vu shows that ゔ and っゔ are the only source of freedom. C101, C102 and C110 describe texts with ゔ for the libraries in use."
  },
  {
   "property": "C34",
   "status": "proved",
   "theorems": [
    "WanaKana.C34_chunks",
    "WanaKana.C34_upcase_false"
   ],
   "note": ""
  },
  {
   "property": "C35",
   "status": "proved",
   "theorems": [
    "WanaKana.C35_all_converted",
    "WanaKana.C35_idempotent"
   ],
   "note": ""
  },
  {
   "property": "C36",
   "status": "proved",
   "theorems": [
    "WanaKana.C36_roundtrip",
    "WanaKana.C36_exact",
    "WanaKana.C36_irregular"
   ],
   "note": ""
  },
  {
   "property": "C37",
   "status": "proved",
   "theorems": [
    "WanaKana.C37_length",
    "WanaKana.C37_tight"
   ],
   "note": ""
  },
  {
   "property": "C38",
   "status": "proved",
   "theorems": [
    "WanaKana.C38_total"
   ],
   "note": ""
  },
  {
   "property": "C39",
   "status": "proved",
   "theorems": [
    "WanaKana.C39_kana"
   ],
   "note": ""
  },
  {
   "property": "C40",
   "status": "proved",
   "theorems": [
    "WanaKana.C40_compose",
    "WanaKana.C40_case"
   ],
   "note": ""
  },
  {
   "property": "C41",
   "status": "proved",
   "theorems": [
    "WanaKana.C41_katakana",
    "WanaKana.C41_hiragana",
    "WanaKana.C41_nonkana"
   ],
   "note": ""
  },
  {
   "property": "C42",
   "status": "proved",
   "theorems": [
    "WanaKana.C42_no_hiragana"
   ],
   "note": ""
  },
  {
   "property": "C43",
   "status": "partial",
   "theorems": [
    "WanaKana.C43_no_katakana_partial",
    "WanaKana.C43_false",
    "WanaKana.C43_exact"
   ],
   "note": "False as stated (C43_false: ‘カ). C43_exact gives the exact set of texts for which it holds; C43_no_katakana_partial is the sufficient direction."
  },
  {
   "property": "C44",
   "status": "partial",
   "theorems": [
    "WanaKana.C44_katakana_partial",
    "WanaKana.C44_hiragana_partial",
    "WanaKana.C44_katakana_false",
    "WanaKana.C44_hiragana_false",
    "WanaKana.C44_hiragana_false_quote"
   ],
   "note": "False as stated (C44_*_false: nyya, and ‘カ for to_hiragana). Proved for every text whose lowercase form has no nyy (every text in IME mode or with pass_romaji) and, for to_hiragana, that meets the exact condition of C43. C67 describes the second conversion exactly."
  },
  {
   "property": "C45",
   "status": "proved",
   "theorems": [
    "WanaKana.C45_concat",
    "WanaKana.C45_nonempty",
    "WanaKana.C45_same",
    "WanaKana.C45_empty"
   ],
   "note": ""
  },
  {
   "property": "C46",
   "status": "proved",
   "theorems": [
    "WanaKana.C46_maximal_runs",
    "WanaKana.C46_unique"
   ],
   "note": ""
  },
  {
   "property": "C47",
   "status": "proved",
   "theorems": [
    "WanaKana.C47_detailed_holds",
    "WanaKana.C47_detailed",
    "WanaKana.C47_compact",
    "WanaKana.C47_compact_range"
   ],
   "note": ""
  },
  {
   "property": "C48",
   "status": "proved",
   "theorems": [
    "WanaKana.C48_split_iff"
   ],
   "note": ""
  },
  {
   "property": "C49",
   "status": "partial",
   "theorems": [
    "WanaKana.C49_compact_combines_partial",
    "WanaKana.C49_fewer_partial",
    "WanaKana.C49_false"
   ],
   "note": "False as stated (C49_false). The _partial theorems cover texts without the ideographic space; C68 gives the exact condition."
  },
  {
   "property": "C50",
   "status": "proved",
   "theorems": [
    "WanaKana.C50_end",
    "WanaKana.C50_start",
    "WanaKana.C50_prefix_suffix"
   ],
   "note": ""
  },
  {
   "property": "C51",
   "status": "proved",
   "theorems": [
    "WanaKana.C51_unchanged"
   ],
   "note": ""
  },
  {
   "property": "C52",
   "status": "proved",
   "theorems": [
    "WanaKana.C52_end",
    "WanaKana.C52_start"
   ],
   "note": ""
  },
  {
   "property": "C53",
   "status": "partial",
   "theorems": [
    "WanaKana.C53_idempotent_false",
    "WanaKana.C53_nonempty_false",
    "WanaKana.C53_nonempty_matcher_false",
    "WanaKana.C53_idempotent_matcher_partial",
    "WanaKana.C53_idempotent_ordinary_partial",
    "WanaKana.C53_nonempty_partial"
   ],
   "note": "False as stated (C53_*_false); the _partial theorems give conditions under which it holds, C62 the exact ones."
  },
  {
   "property": "C54",
   "status": "partial",
   "theorems": [
    "WanaKana.C54_false",
    "WanaKana.C54_inside_partial",
    "WanaKana.C54_panics",
    "WanaKana.C54_past_end"
   ],
   "note": "False as stated (C54_false, C54_panics, C54_past_end); proved when the start lies inside the text (start < length)."
  },
  {
   "property": "C55",
   "status": "proved",
   "theorems": [
    "WanaKana.C55_to_kana_args",
    "WanaKana.C55_to_romaji_args",
    "WanaKana.C55_to_kana_stdin",
    "WanaKana.C55_to_romaji_stdin",
    "WanaKana.C55_cases",
    "WanaKana.C55_joined_length"
   ],
   "note": ""
  },
  {
   "property": "C56",
   "status": "proved",
   "theorems": [
    "WanaKana.C56_greedy",
    "WanaKana.C56_greedy_modern",
    "WanaKana.C56_greedy_no_vu",
    "WanaKana.C56_unique"
   ],
   "note": ""
  },
  {
   "property": "C57",
   "status": "proved",
   "theorems": [
    "WanaKana.C57_roundtrip_both",
    "WanaKana.C57_conditions"
   ],
   "note": ""
  },
  {
   "property": "C58",
   "status": "proved",
   "theorems": [
    "WanaKana.C58_recover"
   ],
   "note": ""
  },
  {
   "property": "C59",
   "status": "proved",
   "theorems": [
    "WanaKana.C59_romaji",
    "WanaKana.C59_other",
    "WanaKana.C59_no_romaji"
   ],
   "note": ""
  },
  {
   "property": "C60",
   "status": "proved",
   "theorems": [
    "WanaKana.C60_runs_exist",
    "WanaKana.C60_hiragana",
    "WanaKana.C60_katakana"
   ],
   "note": ""
  },
  {
   "property": "C61",
   "status": "proved",
   "theorems": [
    "WanaKana.C61_end",
    "WanaKana.C61_start",
    "WanaKana.C61_end_unique",
    "WanaKana.C61_start_unique",
    "WanaKana.C61_default"
   ],
   "note": ""
  },
  {
   "property": "C62",
   "status": "proved",
   "theorems": [
    "WanaKana.C62_changes_end",
    "WanaKana.C62_changes_start",
    "WanaKana.C62_twice_end",
    "WanaKana.C62_twice_start",
    "WanaKana.C62_empty_end",
    "WanaKana.C62_empty_start",
    "WanaKana.C62_empty_matcher",
    "WanaKana.C62_empty_matcher_start"
   ],
   "note": ""
  },
  {
   "property": "C63",
   "status": "proved",
   "theorems": [
    "WanaKana.C63_char",
    "WanaKana.C63_str",
    "WanaKana.C63_mixed",
    "WanaKana.C63_whitelist",
    "WanaKana.C63_defaults",
    "WanaKana.C63_to_kana",
    "WanaKana.C63_to_romaji",
    "WanaKana.C63_kana",
    "WanaKana.C63_romaji"
   ],
   "note": ""
  },
  {
   "property": "C64",
   "status": "proved",
   "theorems": [
    "WanaKana.C64_chars",
    "WanaKana.C64_in_range",
    "WanaKana.C64_letters"
   ],
   "note": ""
  },
  {
   "property": "C65",
   "status": "proved",
   "theorems": [
    "WanaKana.C65_hiragana",
    "WanaKana.C65_katakana",
    "WanaKana.C65_hiragana_letters",
    "WanaKana.C65_katakana_letters"
   ],
   "note": ""
  },
  {
   "property": "C66",
   "status": "proved",
   "theorems": [
    "WanaKana.C66_twice",
    "WanaKana.C66_stable_iff",
    "WanaKana.C66_third"
   ],
   "note": ""
  },
  {
   "property": "C67",
   "status": "proved",
   "theorems": [
    "WanaKana.C67_katakana",
    "WanaKana.C67_katakana_stable",
    "WanaKana.C67_hiragana",
    "WanaKana.C67_hiragana_stable"
   ],
   "note": ""
  },
  {
   "property": "C68",
   "status": "proved",
   "theorems": [
    "WanaKana.C68_combines_iff",
    "WanaKana.C68_fewer",
    "WanaKana.C68_retokenize"
   ],
   "note": ""
  },
  {
   "property": "C69",
   "status": "proved",
   "theorems": [
    "WanaKana.C69_sort_by_key",
    "WanaKana.C69_unique",
    "WanaKana.C69_kana_lookup",
    "WanaKana.C69_kana_sorted",
    "WanaKana.C69_romaji_lookup",
    "WanaKana.C69_romaji_path"
   ],
   "note": ""
  },
  {
   "property": "C70",
   "status": "proved",
   "theorems": [
    "WanaKana.C70_total",
    "WanaKana.C70_lookup",
    "WanaKana.C70_object",
    "WanaKana.C70_object_get",
    "WanaKana.C70_sorted",
    "WanaKana.C70_keys"
   ],
   "note": ""
  },
  {
   "property": "C71",
   "status": "proved",
   "theorems": [
    "WanaKana.C71_total",
    "WanaKana.C71_lookup",
    "WanaKana.C71_sorted",
    "WanaKana.C71_keys"
   ],
   "note": ""
  },
  {
   "property": "C72",
   "status": "proved",
   "theorems": [
    "WanaKana.C72_tree",
    "WanaKana.C72_lookup",
    "WanaKana.C72_to_kana"
   ],
   "note": ""
  },
  {
   "property": "C73",
   "status": "proved",
   "theorems": [
    "WanaKana.C73_tree",
    "WanaKana.C73_added",
    "WanaKana.C73_added_new",
    "WanaKana.C73_lookup",
    "WanaKana.C73_damaged"
   ],
   "note": ""
  },
  {
   "property": "C74",
   "status": "proved",
   "theorems": [
    "WanaKana.C74_cut",
    "WanaKana.C74_needed",
    "WanaKana.C74_pieces"
   ],
   "note": ""
  },
  {
   "property": "C75",
   "status": "proved",
   "theorems": [
    "WanaKana.C75_hiragana",
    "WanaKana.C75_katakana"
   ],
   "note": ""
  },
  {
   "property": "C76",
   "status": "proved",
   "theorems": [
    "WanaKana.C76_normal",
    "WanaKana.C76_needed"
   ],
   "note": ""
  },
  {
   "property": "C77",
   "status": "proved",
   "theorems": [
    "WanaKana.C77_cut",
    "WanaKana.C77_exact",
    "WanaKana.C77_after"
   ],
   "note": ""
  },
  {
   "property": "C78",
   "status": "proved",
   "theorems": [
    "WanaKana.C78_vowels",
    "WanaKana.C78_vowels_convert",
    "WanaKana.C78_n"
   ],
   "note": ""
  },
  {
   "property": "C79",
   "status": "proved",
   "theorems": [
    "WanaKana.C79_keys",
    "WanaKana.C79_keys_ime",
    "WanaKana.C79_unique_ime",
    "WanaKana.C79_complete",
    "WanaKana.C79_needed"
   ],
   "note": ""
  },
  {
   "property": "C80",
   "status": "proved",
   "theorems": [
    "WanaKana.C80_typeable"
   ],
   "note": ""
  },
  {
   "property": "C81",
   "status": "proved",
   "theorems": [
    "WanaKana.C81_cut",
    "WanaKana.C81_exact"
   ],
   "note": ""
  },
  {
   "property": "C82",
   "status": "proved",
   "theorems": [
    "WanaKana.C82_exact"
   ],
   "note": ""
  },
  {
   "property": "C83",
   "status": "proved",
   "theorems": [
    "WanaKana.C83_to_kana",
    "WanaKana.C83_to_katakana",
    "WanaKana.C83_to_hiragana",
    "WanaKana.C83_ordinary",
    "WanaKana.C83_needed"
   ],
   "note": ""
  },
  {
   "property": "C84",
   "status": "proved",
   "theorems": [
    "WanaKana.C84_canonical",
    "WanaKana.C84_exact"
   ],
   "note": ""
  },
  {
   "property": "C85",
   "status": "proved",
   "theorems": [
    "WanaKana.C85_exact"
   ],
   "note": ""
  },
  {
   "property": "C86",
   "status": "proved",
   "theorems": [
    "WanaKana.C86_same",
    "WanaKana.C86_linear",
    "WanaKana.C86_marks",
    "WanaKana.C86_quadratic"
   ],
   "note": ""
  },
  {
   "property": "C87",
   "status": "proved",
   "theorems": [
    "WanaKana.C87_exact",
    "WanaKana.C87_typing"
   ],
   "note": ""
  },
  {
   "property": "C88",
   "status": "proved",
   "theorems": [
    "WanaKana.C88_hiragana",
    "WanaKana.C88_hiragana_stuck",
    "WanaKana.C88_katakana"
   ],
   "note": ""
  },
  {
   "property": "C89",
   "status": "proved",
   "theorems": [
    "WanaKana.C89_to_kana",
    "WanaKana.C89_four",
    "WanaKana.C89_katakana_to_hiragana",
    "WanaKana.C89_to_romaji",
    "WanaKana.C89_to_romaji_any",
    "WanaKana.C89_tight",
    "WanaKana.C89_tokenize",
    "WanaKana.C89_unbounded"
   ],
   "note": ""
  },
  {
   "property": "C90",
   "status": "proved",
   "theorems": [
    "WanaKana.C90_complete"
   ],
   "note": ""
  },
  {
   "property": "C91",
   "status": "proved",
   "theorems": [
    "WanaKana.C91_kernel",
    "WanaKana.C91_injective"
   ],
   "note": ""
  },
  {
   "property": "C92",
   "status": "proved",
   "theorems": [
    "WanaKana.C92_to_kana",
    "WanaKana.C92_to_kana_tight",
    "WanaKana.C92_hiragana_to_katakana",
    "WanaKana.C92_katakana_to_hiragana",
    "WanaKana.C92_to_romaji",
    "WanaKana.C92_to_romaji_tight",
    "WanaKana.C92_scripts"
   ],
   "note": ""
  },
  {
   "property": "C93",
   "status": "proved",
   "theorems": [
    "WanaKana.C93_is_kana",
    "WanaKana.C93_is_katakana",
    "WanaKana.C93_is_hiragana",
    "WanaKana.C93_lower_sound",
    "WanaKana.C93_empty",
    "WanaKana.C93_is_romaji"
   ],
   "note": ""
  },
  {
   "property": "C94",
   "status": "proved",
   "theorems": [
    "WanaKana.C94_katakana",
    "WanaKana.C94_hiragana"
   ],
   "note": ""
  },
  {
   "property": "C95",
   "status": "proved",
   "theorems": [
    "WanaKana.C95_to_kana",
    "WanaKana.C95_katakana_to_hiragana",
    "WanaKana.C95_hiragana_to_katakana",
    "WanaKana.C95_to_katakana",
    "WanaKana.C95_to_hiragana"
   ],
   "note": ""
  },
  {
   "property": "C96",
   "status": "proved",
   "theorems": [
    "WanaKana.C96_tokens"
   ],
   "note": ""
  },
  {
   "property": "C97",
   "status": "proved",
   "theorems": [
    "WanaKana.C97_to_kana",
    "WanaKana.C97_to_romaji",
    "WanaKana.C97_shifts"
   ],
   "note": ""
  },
  {
   "property": "C98",
   "status": "proved",
   "theorems": [
    "WanaKana.C98_pieces",
    "WanaKana.C98_cut",
    "WanaKana.C98_tokens",
    "WanaKana.C98_compact"
   ],
   "note": ""
  },
  {
   "property": "C99",
   "status": "proved",
   "theorems": [
    "WanaKana.C99_case_iff",
    "WanaKana.C99_last"
   ],
   "note": ""
  },
  {
   "property": "C100",
   "status": "proved",
   "theorems": [
    "WanaKana.C100_bytes",
    "WanaKana.C100_char_indices",
    "WanaKana.C100_decode",
    "WanaKana.C100_injective",
    "WanaKana.C100_boundary",
    "WanaKana.C100_get_chunk",
    "WanaKana.C100_whole_characters"
   ],
   "note": ""
  },
  {
   "property": "C101",
   "status": "proved",
   "theorems": [
    "WanaKana.C101_vu",
    "WanaKana.C101_pieces",
    "WanaKana.C101_cut",
    "WanaKana.C101_tokens",
    "WanaKana.C101_search"
   ],
   "note": ""
  },
  {
   "property": "C102",
   "status": "proved",
   "theorems": [
    "WanaKana.C102_shift",
    "WanaKana.C102_to_hiragana"
   ],
   "note": ""
  },
  {
   "property": "C103",
   "status": "proved",
   "theorems": [
    "WanaKana.C103_tokenize",
    "WanaKana.C103_prefix",
    "WanaKana.C103_suffix",
    "WanaKana.C103_trim",
    "WanaKana.C103_order"
   ],
   "note": ""
  },
  {
   "property": "C104",
   "status": "proved",
   "theorems": [
    "WanaKana.C104_checks",
    "WanaKana.C104_hiragana_to_katakana",
    "WanaKana.C104_katakana_to_hiragana",
    "WanaKana.C104_to_kana",
    "WanaKana.C104_lowercase",
    "WanaKana.C104_uppercase",
    "WanaKana.C104_to_romaji",
    "WanaKana.C104_to_hiragana",
    "WanaKana.C104_to_katakana",
    "WanaKana.C104_reverse"
   ],
   "note": ""
  },
  {
   "property": "C105",
   "status": "proved",
   "theorems": [
    "WanaKana.C105_valid",
    "WanaKana.C105_to_kana",
    "WanaKana.C105_to_romaji"
   ],
   "note": ""
  },
  {
   "property": "C106",
   "status": "proved",
   "theorems": [
    "WanaKana.Lazy.C106_results",
    "WanaKana.Lazy.C106_no_deadlock",
    "WanaKana.Lazy.C106_terminates",
    "WanaKana.Lazy.C106_once",
    "WanaKana.Lazy.C106_cells",
    "WanaKana.Lazy.C106_calls",
    "WanaKana.Lazy.C106_session"
   ],
   "note": ""
  },
  {
   "property": "C107",
   "status": "proved",
   "theorems": [
    "WanaKana.Itertools.C107_group_by",
    "WanaKana.Itertools.C107_tokenize"
   ],
   "note": ""
  },
  {
   "property": "C108",
   "status": "proved",
   "theorems": [
    "WanaKana.StrSearcher.C108_start",
    "WanaKana.StrSearcher.C108_end",
    "WanaKana.StrSearcher.C108_trim"
   ],
   "note": ""
  },
  {
   "property": "C109",
   "status": "proved",
   "theorems": [
    "WanaKana.Itertools.C109_tokenize",
    "WanaKana.Itertools.C109_tokenize_same",
    "WanaKana.StrSearcher.C109_matches",
    "WanaKana.StrSearcher.C109_same",
    "WanaKana.StrSearcher.C109_trim"
   ],
   "note": ""
  },
  {
   "property": "C110",
   "status": "proved",
   "theorems": [
    "WanaKana.C110_exact",
    "WanaKana.C110_lost",
    "WanaKana.C110_rust"
   ],
   "note": ""
  },
  {
   "property": "C111",
   "status": "proved",
   "theorems": [
    "WanaKana.C111_hiragana",
    "WanaKana.C111_hiragana_exact",
    "WanaKana.C111_katakana_exact",
    "WanaKana.C111_rust"
   ],
   "note": ""
  },
  {
   "property": "C112",
   "status": "proved",
   "theorems": [
    "WanaKana.C112_exact",
    "WanaKana.C112_vowel",
    "WanaKana.C112_rust"
   ],
   "note": ""
  },
  {
   "property": "C113",
   "status": "proved",
   "theorems": [
    "WanaKana.C113_to_kana",
    "WanaKana.C113_to_romaji",
    "WanaKana.C113_arguments",
    "WanaKana.C113_no_text",
    "WanaKana.C113_closed",
    "WanaKana.C113_lost"
   ],
   "note": ""
  },
  {
   "property": "C114",
   "status": "proved",
   "theorems": [
    "WanaKana.C114_to_kana",
    "WanaKana.C114_to_romaji",
    "WanaKana.C114_to_katakana",
    "WanaKana.C114_reads",
    "WanaKana.C114_to_hiragana",
    "WanaKana.C114_pass",
    "WanaKana.C114_rust"
   ],
   "note": ""
  },
  {
   "property": "C115",
   "status": "proved",
   "theorems": [
    "WanaKana.C115_canonical",
    "WanaKana.C115_exact",
    "WanaKana.C115_rust"
   ],
   "note": ""
  },
  {
   "property": "C116",
   "status": "proved",
   "theorems": [
    "WanaKana.C116_hiragana",
    "WanaKana.C116_katakana",
    "WanaKana.C116_rust"
   ],
   "note": ""
  },
  {
   "property": "C117",
   "status": "proved",
   "theorems": [
    "WanaKana.C117_exact",
    "WanaKana.C117_rust"
   ],
   "note": ""
  },
  {
   "property": "C118",
   "status": "proved",
   "theorems": [
    "WanaKana.C118_katakana",
    "WanaKana.C118_hiragana",
    "WanaKana.C118_hiragana_quoted",
    "WanaKana.C118_hiragana_rust"
   ],
   "note": ""
  },
  {
   "property": "C119",
   "status": "proved",
   "theorems": [
    "WanaKana.C119.C119_string",
    "WanaKana.C119.C119_char",
    "WanaKana.C119.C119_kana",
    "WanaKana.C119.C119_kana_injective",
    "WanaKana.C119.C119_romaji",
    "WanaKana.C119.C119_romaji_injective"
   ],
   "note": ""
  },
  {
   "property": "C120",
   "status": "proved",
   "theorems": [
    "WanaKana.C120.C120_kana_table",
    "WanaKana.C120.C120_romaji_table",
    "WanaKana.C120.C120_kana",
    "WanaKana.C120.C120_romaji",
    "WanaKana.C120.C120_unique"
   ],
   "note": ""
  },
  {
   "property": "C121",
   "status": "proved",
   "theorems": [
    "WanaKana.C121_pieces",
    "WanaKana.C121_cut",
    "WanaKana.C121_tokens"
   ],
   "note": ""
  },
  {
   "property": "C122",
   "status": "proved",
   "theorems": [
    "WanaKana.C122_grows",
    "WanaKana.C122_either",
    "WanaKana.C122_settles",
    "WanaKana.C122_exact",
    "WanaKana.C122_rust",
    "WanaKana.C122_unbounded"
   ],
   "note": ""
  },
  {
   "property": "C123",
   "status": "proved",
   "theorems": [
    "WanaKana.C123_exact",
    "WanaKana.C123_rust"
   ],
   "note": ""
  },
  {
   "property": "C124",
   "status": "proved",
   "theorems": [
    "WanaKana.C124_canonical",
    "WanaKana.C124_exact",
    "WanaKana.C124_rust"
   ],
   "note": ""
  },
  {
   "property": "C125",
   "status": "proved",
   "theorems": [
    "WanaKana.C125_either",
    "WanaKana.C125_settles",
    "WanaKana.C125_exact",
    "WanaKana.C125_rust"
   ],
   "note": ""
  },
  {
   "property": "C126",
   "status": "proved",
   "theorems": [
    "WanaKana.C126_hiragana",
    "WanaKana.C126_katakana",
    "WanaKana.C126_rust"
   ],
   "note": ""
  },
  {
   "property": "C127",
   "status": "proved",
   "theorems": [
    "WanaKana.C127_exact",
    "WanaKana.C127_shorter"
   ],
   "note": ""
  },
  {
   "property": "C128",
   "status": "proved",
   "theorems": [
    "WanaKana.C128_exact",
    "WanaKana.C128_rust"
   ],
   "note": ""
  },
  {
   "property": "C129",
   "status": "proved",
   "theorems": [
    "WanaKana.C129_hiragana",
    "WanaKana.C129_katakana"
   ],
   "note": ""
  },
  {
   "property": "C130",
   "status": "proved",
   "theorems": [
    "WanaKana.C130_exact",
    "WanaKana.C130_hiragana",
    "WanaKana.C130_katakana"
   ],
   "note": ""
  },
  {
   "property": "C131",
   "status": "proved",
   "theorems": [
    "WanaKana.C131_katakana",
    "WanaKana.C131_hiragana"
   ],
   "note": ""
  },
  {
   "property": "C132",
   "status": "proved",
   "theorems": [
    "WanaKana.C132_canonical",
    "WanaKana.C132_exact",
    "WanaKana.C132_rust"
   ],
   "note": ""
  },
  {
   "property": "C133",
   "status": "proved",
   "theorems": [
    "WanaKana.C133_hiragana",
    "WanaKana.C133_katakana"
   ],
   "note": ""
  },
  {
   "property": "C134",
   "status": "proved",
   "theorems": [
    "WanaKana.C134_canonical",
    "WanaKana.C134_exact",
    "WanaKana.C134_rust"
   ],
   "note": ""
  },
  {
   "property": "C135",
   "status": "proved",
   "theorems": [
    "WanaKana.C135_exact"
   ],
   "note": ""
  },
  {
   "property": "C136",
   "status": "proved",
   "theorems": [
    "WanaKana.C136_pieces",
    "WanaKana.C136_cut",
    "WanaKana.C136_tokens"
   ],
   "note": ""
  },
  {
   "property": "C137",
   "status": "proved",
   "theorems": [
    "WanaKana.C137_hiragana",
    "WanaKana.C137_katakana"
   ],
   "note": ""
  },
  {
   "property": "C138",
   "status": "proved",
   "theorems": [
    "WanaKana.C138_sigma",
    "WanaKana.C138_katakana",
    "WanaKana.C138_hiragana"
   ],
   "note": ""
  },
  {
   "property": "C139",
   "status": "proved",
   "theorems": [
    "WanaKana.C139_katakana",
    "WanaKana.C139_hiragana"
   ],
   "note": ""
  },
  {
   "property": "C140",
   "status": "proved",
   "theorems": [
    "WanaKana.C140_hiragana",
    "WanaKana.C140_katakana",
    "WanaKana.C140_punct"
   ],
   "note": ""
  },
  {
   "property": "C141",
   "status": "proved",
   "theorems": [
    "WanaKana.C141_tokens",
    "WanaKana.C141_compact",
    "WanaKana.C141_trim_end",
    "WanaKana.C141_trim_start"
   ],
   "note": ""
  },
  {
   "property": "C142",
   "status": "proved",
   "theorems": [
    "WanaKana.C142_resume",
    "WanaKana.C142_end",
    "WanaKana.C142_exactly",
    "WanaKana.C142_upcase"
   ],
   "note": ""
  },
  {
   "property": "C143",
   "status": "proved",
   "theorems": [
    "WanaKana.C143_pieces",
    "WanaKana.C143_cut",
    "WanaKana.C143_tokens",
    "WanaKana.C143_resume"
   ],
   "note": ""
  }
 ]
}