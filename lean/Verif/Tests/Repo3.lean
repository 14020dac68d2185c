import Verif.Model.Traits
import Verif.Model.Tokenize
import Verif.Model.Trim
import Verif.Model.GetChunk
import Verif.Model.StdConcrete
/-! Generated by tools/gen_repo_tests.py (3 of 4).  110 assertions from the tests and the documentation of
the crate, evaluated in the model.  They test that the model does what the authors of the code expect; no property
rests on them. -/

namespace WanaKana

-- src/traits.rs:170
example : is_hiragana ['あ', 'ア'] = false := by decide +kernel
-- src/traits.rs:178
example : is_katakana ['ゲ', 'ー', 'ム'] = true := by decide +kernel
-- src/traits.rs:179
example : is_katakana ['あ'] = false := by decide +kernel
-- src/traits.rs:180
example : is_katakana ['A'] = false := by decide +kernel
-- src/traits.rs:181
example : is_katakana ['あ', 'ア'] = false := by decide +kernel
-- src/traits.rs:189
example : is_kana ['あ'] = true := by decide +kernel
-- src/traits.rs:190
example : is_kana ['ア'] = true := by decide +kernel
-- src/traits.rs:191
example : is_kana ['あ', 'ー', 'ア'] = true := by decide +kernel
-- src/traits.rs:192
example : is_kana ['A'] = false := by decide +kernel
-- src/traits.rs:193
example : is_kana ['あ', 'A', 'ア'] = false := by decide +kernel
-- src/traits.rs:201
example : is_romaji ['A'] = true := by decide +kernel
-- src/traits.rs:202
example : is_romaji ['x', 'Y', 'z'] = true := by decide +kernel
-- src/traits.rs:203
example : is_romaji ['T', 'ō', 'k', 'y', 'ō', ' ', 'a', 'n', 'd', ' ', 'Ō', 's', 'a', 'k', 'a'] = true := by decide +kernel
-- src/traits.rs:204
example : is_romaji ['あ', 'ア', 'A'] = false := by decide +kernel
-- src/traits.rs:205
example : is_romaji ['お', '願', 'い'] = false := by decide +kernel
-- src/traits.rs:206
example : is_romaji ['熟', '成'] = false := by decide +kernel
-- src/traits.rs:207
example : is_romaji ['a', '*', 'b', '&', 'c', '-', 'd'] = true := by decide +kernel
-- src/traits.rs:208
example : is_romaji ['0', '1', '2', '3', '4', '5', '6', '7', '8', '9'] = true := by decide +kernel
-- src/traits.rs:209
example : is_romaji ['a', '！', 'b', '&', 'c', 'ー', 'd'] = false := by decide +kernel
-- src/traits.rs:210
example : is_romaji ['ｈ', 'ｅ', 'ｌ', 'ｌ', 'ｏ'] = false := by decide +kernel
-- src/traits.rs:222
example : is_romaji_with_whitelist ['a', '！', 'b', '&', 'c', 'ー', 'd'] (some ⟨fun s => s.any fun c => ['！', 'ー'].contains c⟩) = true := by decide +kernel
-- src/traits.rs:234
example : is_kanji ['刀'] = true := by decide +kernel
-- src/traits.rs:235
example : is_kanji ['切', '腹'] = true := by decide +kernel
-- src/traits.rs:236
example : is_kanji ['勢', 'い'] = false := by decide +kernel
-- src/traits.rs:237
example : is_kanji ['あ', 'A', 'ア'] = false := by decide +kernel
-- src/traits.rs:238
example : is_kanji ['🐸'] = false := by decide +kernel
-- src/traits.rs:247
example : contains_kanji ['勢', 'い'] = true := by decide +kernel
-- src/traits.rs:248
example : contains_kanji ['h', 'e', 'l', 'l', 'o'] = false := by decide +kernel
-- src/traits.rs:257
example : is_japanese ['泣', 'き', '虫'] = true := by decide +kernel
-- src/traits.rs:258
example : is_japanese ['あ', 'ア'] = true := by decide +kernel
-- src/traits.rs:259
example : is_japanese ['２', '月'] = true := by decide +kernel
-- src/traits.rs:260
example : is_japanese ['2', '月'] = false := by decide +kernel
-- src/traits.rs:261
example : is_japanese ['泣', 'き', '虫', '。', '！', '〜', '＄'] = true := by decide +kernel
-- src/traits.rs:262
example : is_japanese ['泣', 'き', '虫', '.', '!', '~', '$'] = false := by decide +kernel
-- src/traits.rs:263
example : is_japanese ['A'] = false := by decide +kernel
-- src/traits.rs:274
example : is_japanese_with_whitelist ['≪', '偽', '括', '弧', '≫'] (some ⟨fun s => s.any fun c => ['≪', '≫'].contains c⟩) = true := by decide +kernel
-- src/traits.rs:287
example : is_mixed ['A', 'ア'] = true := by decide +kernel
-- src/traits.rs:288
example : is_mixed ['A', 'あ'] = true := by decide +kernel
-- src/traits.rs:289
example : is_mixed ['A', 'あ', 'ア'] = true := by decide +kernel
-- src/traits.rs:290
example : is_mixed ['２', 'あ', 'ア'] = false := by decide +kernel
-- src/traits.rs:291
example : is_mixed ['お', '腹', 'A'] = true := by decide +kernel
-- src/traits.rs:301
example : is_mixed_pass_kanji ['A', 'b', 'あ', 'ア'] true = true := by decide +kernel
-- src/traits.rs:302
example : is_mixed_pass_kanji ['お', '腹', 'A'] true = true := by decide +kernel
-- src/traits.rs:303
example : is_mixed_pass_kanji ['お', '腹', 'A'] false = false := by decide +kernel
-- src/traits.rs:304
example : is_mixed_pass_kanji ['a', 'b'] true = false := by decide +kernel
-- src/traits.rs:305
example : is_mixed_pass_kanji ['あ', 'ア'] true = false := by decide +kernel
-- src/trim_okurigana.rs:6
example : trim_okurigana ['踏', 'み', '込', 'む'] = .ok ['踏', 'み', '込'] := by decide +kernel
-- src/trim_okurigana.rs:7
example : trim_okurigana ['使', 'い', '方'] = .ok ['使', 'い', '方'] := by decide +kernel
-- src/trim_okurigana.rs:8
example : trim_okurigana ['申', 'し', '申', 'し'] = .ok ['申', 'し', '申'] := by decide +kernel
-- src/trim_okurigana.rs:9
example : trim_okurigana ['お', '腹'] = .ok ['お', '腹'] := by decide +kernel
-- src/trim_okurigana.rs:10
example : trim_okurigana ['お', '祝', 'い'] = .ok ['お', '祝'] := by decide +kernel
-- src/trim_okurigana.rs:59
example : trim_okurigana_with_opt ['お', 'は', 'ら'] false (some ['お', '腹']) = .ok ['お', 'は', 'ら'] := by decide +kernel
-- src/trim_okurigana.rs:60
example : trim_okurigana_with_opt ['お', 'は', 'ら'] true (some ['お', '腹']) = .ok ['は', 'ら'] := by decide +kernel
-- src/trim_okurigana.rs:61
example : trim_okurigana_with_opt ['ふ', 'み', 'こ', 'む'] false (some ['踏', 'み', '込', 'む']) = .ok ['ふ', 'み', 'こ'] := by decide +kernel
-- src/trim_okurigana.rs:62
example : trim_okurigana_with_opt ['踏', 'み', '込', 'む'] false none = .ok ['踏', 'み', '込'] := by decide +kernel
-- src/trim_okurigana.rs:63
example : trim_okurigana_with_opt ['お', 'み', 'ま', 'い'] true (some ['お', '祝', 'い']) = .ok ['み', 'ま', 'い'] := by decide +kernel
-- src/trim_okurigana.rs:64
example : trim_okurigana_with_opt ['お', 'み', 'ま', 'い'] false (some ['お', '祝', 'い']) = .ok ['お', 'み', 'ま'] := by decide +kernel
-- src/utils/get_chunk.rs:14
example : get_chunk ['d', 'e', 'r', 'p', 'a', 'l', 'e', 'r', 'p'] 3 6 = .ok ['p', 'a', 'l'] := by decide +kernel
-- src/utils/get_chunk.rs:15
example : get_chunk ['d', 'e'] 0 1 = .ok ['d'] := by decide +kernel
-- src/utils/get_chunk.rs:16
example : get_chunk [] 1 2 = .ok [] := by decide +kernel
-- src/utils/is_char_consonant.rs:17
example : (!is_char_consonant 'y' false) = true := by decide +kernel
-- src/utils/is_char_consonant.rs:18
example : is_char_consonant 'y' true = true := by decide +kernel
-- src/utils/is_char_consonant.rs:19
example : (!is_char_consonant 'a' true) = true := by decide +kernel
-- src/utils/is_char_consonant.rs:20
example : (!is_char_consonant '!' true) = true := by decide +kernel
-- src/utils/is_char_hiragana.rs:15
example : is_char_hiragana 'な' = true := by decide +kernel
-- src/utils/is_char_hiragana.rs:16
example : (!is_char_hiragana 'ナ') = true := by decide +kernel
-- src/utils/is_char_hiragana.rs:17
example : (!is_char_hiragana 'n') = true := by decide +kernel
-- src/utils/is_char_hiragana.rs:18
example : (!is_char_hiragana '!') = true := by decide +kernel
-- src/utils/is_char_in_range.rs:17
example : is_char_in_range 'は' HIRAGANA_START HIRAGANA_END = true := by decide +kernel
-- src/utils/is_char_in_range.rs:18
example : (!is_char_in_range 'd' HIRAGANA_START HIRAGANA_END) = true := by decide +kernel
-- src/utils/is_char_japanese.rs:14
example : is_char_japanese '１' = true := by decide +kernel
-- src/utils/is_char_japanese.rs:15
example : is_char_japanese 'ナ' = true := by decide +kernel
-- src/utils/is_char_japanese.rs:16
example : is_char_japanese 'は' = true := by decide +kernel
-- src/utils/is_char_japanese.rs:17
example : is_char_japanese '缶' = true := by decide +kernel
-- src/utils/is_char_japanese.rs:18
example : is_char_japanese '〜' = true := by decide +kernel
-- src/utils/is_char_japanese.rs:19
example : is_char_japanese 'ｎ' = true := by decide +kernel
-- src/utils/is_char_japanese.rs:20
example : is_char_japanese 'Ｋ' = true := by decide +kernel
-- src/utils/is_char_japanese.rs:21
example : (!is_char_japanese '1') = true := by decide +kernel
-- src/utils/is_char_japanese.rs:22
example : (!is_char_japanese 'n') = true := by decide +kernel
-- src/utils/is_char_japanese.rs:23
example : (!is_char_japanese 'K') = true := by decide +kernel
-- src/utils/is_char_japanese.rs:24
example : (!is_char_japanese '!') = true := by decide +kernel
-- src/utils/is_char_kana.rs:12
example : is_char_kana 'は' = true := by decide +kernel
-- src/utils/is_char_kana.rs:13
example : is_char_kana 'ナ' = true := by decide +kernel
-- src/utils/is_char_kana.rs:14
example : (!is_char_kana 'n') = true := by decide +kernel
-- src/utils/is_char_kana.rs:15
example : (!is_char_kana '!') = true := by decide +kernel
-- src/utils/is_char_kana.rs:16
example : (!is_char_kana '-') = true := by decide +kernel
-- src/utils/is_char_kana.rs:17
example : is_char_kana 'ー' = true := by decide +kernel
-- src/utils/is_char_kanji.rs:13
example : is_char_kanji '腹' = true := by decide +kernel
-- src/utils/is_char_kanji.rs:14
example : is_char_kanji '一' = true := by decide +kernel
-- src/utils/is_char_kanji.rs:15
example : (!is_char_kanji 'ー') = true := by decide +kernel
-- src/utils/is_char_kanji.rs:16
example : (!is_char_kanji 'は') = true := by decide +kernel
-- src/utils/is_char_kanji.rs:17
example : (!is_char_kanji 'ナ') = true := by decide +kernel
-- src/utils/is_char_kanji.rs:18
example : (!is_char_kanji 'n') = true := by decide +kernel
-- src/utils/is_char_kanji.rs:19
example : (!is_char_kanji '!') = true := by decide +kernel
-- src/utils/is_char_katakana.rs:12
example : is_char_katakana 'ナ' = true := by decide +kernel
-- src/utils/is_char_katakana.rs:13
example : (!is_char_katakana 'は') = true := by decide +kernel
-- src/utils/is_char_katakana.rs:14
example : (!is_char_katakana 'n') = true := by decide +kernel
-- src/utils/is_char_katakana.rs:15
example : (!is_char_katakana '!') = true := by decide +kernel
-- src/utils/is_char_long_dash.rs:10
example : is_char_long_dash 'ー' = true := by decide +kernel
-- src/utils/is_char_long_dash.rs:11
example : (!is_char_long_dash '-') = true := by decide +kernel
-- src/utils/is_char_long_dash.rs:12
example : (!is_char_long_dash 'f') = true := by decide +kernel
-- src/utils/is_char_long_dash.rs:13
example : (!is_char_long_dash 'ふ') = true := by decide +kernel
-- src/utils/is_char_romaji.rs:13
example : is_char_romaji 'n' = true := by decide +kernel
-- src/utils/is_char_romaji.rs:14
example : is_char_romaji '!' = true := by decide +kernel
-- src/utils/is_char_romaji.rs:15
example : (!is_char_romaji 'ナ') = true := by decide +kernel
-- src/utils/is_char_romaji.rs:16
example : (!is_char_romaji 'は') = true := by decide +kernel
-- src/utils/is_char_romaji.rs:17
example : (!is_char_romaji '缶') = true := by decide +kernel
-- src/utils/is_char_slash_dot.rs:11
example : is_char_slash_dot '・' = true := by decide +kernel
-- src/utils/is_char_slash_dot.rs:12
example : (!is_char_slash_dot '/') = true := by decide +kernel
-- src/utils/is_char_upper_case.rs:12
example : is_char_upper_case 'A' = true := by decide +kernel

end WanaKana
