import Verif.Model.Traits
import Verif.Model.Tokenize
import Verif.Model.Trim
import Verif.Model.GetChunk
import Verif.Model.StdConcrete
/-! Generated by tools/gen_repo_tests.py (2 of 4).  110 assertions from the tests and the documentation of
the crate, evaluated in the model.  They test that the model does what the authors of the code expect; no property
rests on them. -/

namespace WanaKana

-- src/to_kana.rs:96
example : to_kana modernStd ['b', 'u', 't', 't', 's', 'u', 'u', 'j', 'i'] = .ok ['ぶ', 'っ', 'つ', 'う', 'じ'] := by decide +kernel
-- src/to_kana.rs:101
example : to_kana modernStd ['O', 'N', 'A', 'J', 'I'] = .ok ['オ', 'ナ', 'ジ'] := by decide +kernel
-- src/to_kana.rs:106
example : to_kana modernStd ['B', 'U', 'T', 'T', 'S', 'U', 'U', 'J', 'I'] = .ok ['ブ', 'ッ', 'ツ', 'ウ', 'ジ'] := by decide +kernel
-- src/to_kana.rs:112
example : to_kana modernStd ['W', 'a', 'n', 'i', 'K', 'a', 'n', 'i'] = .ok ['わ', 'に', 'か', 'に'] := by decide +kernel
-- src/to_kana.rs:117
example : to_kana modernStd ['ワ', 'ニ', 'カ', 'ニ', ' ', 'A', 'i', 'U', 'e', 'O', ' ', '鰐', '蟹', ' ', '1', '2', '3', '4', '5', ' ', '@', '#', '$', '%'] = .ok ['ワ', 'ニ', 'カ', 'ニ', ' ', 'ア', 'い', 'ウ', 'え', 'オ', ' ', '鰐', '蟹', ' ', '1', '2', '3', '4', '5', ' ', '@', '#', '$', '%'] := by decide +kernel
-- src/to_kana.rs:125
example : to_kana modernStd ['座', '禅', '‘', 'z', 'a', 'z', 'e', 'n', '’', 'ス', 'タ', 'イ', 'ル'] = .ok ['座', '禅', '「', 'ざ', 'ぜ', 'ん', '」', 'ス', 'タ', 'イ', 'ル'] := by decide +kernel
-- src/to_kana.rs:130
example : to_kana modernStd ['b', 'a', 't', 's', 'u', 'g', 'e', '-', 'm', 'u'] = .ok ['ば', 'つ', 'げ', 'ー', 'む'] := by decide +kernel
-- src/to_kana.rs:152
example : to_kana modernStd ['n'] = .ok ['ん'] := by decide +kernel
-- src/to_kana.rs:153
example : to_kana modernStd ['s', 'h', 'i', 'n'] = .ok ['し', 'ん'] := by decide +kernel
-- src/to_kana.rs:157
example : to_kana modernStd ['n', 'n'] = .ok ['ん', 'ん'] := by decide +kernel
-- src/to_kana.rs:165
example : to_kana_with_opt modernStd ['n'] { imemode := true } = .ok ['n'] := by decide +kernel
-- src/to_kana.rs:166
example : to_kana_with_opt modernStd ['s', 'h', 'i', 'n'] { imemode := true } = .ok ['し', 'n'] := by decide +kernel
-- src/to_kana.rs:167
example : to_kana_with_opt modernStd ['s', 'h', 'i', 'n', 'y', 'o', 'u'] { imemode := true } = .ok ['し', 'に', 'ょ', 'う'] := by decide +kernel
-- src/to_kana.rs:168
example : to_kana_with_opt modernStd ['s', 'h', 'i', 'n', '\'', 'y', 'o', 'u'] { imemode := true } = .ok ['し', 'ん', 'よ', 'う'] := by decide +kernel
-- src/to_kana.rs:169
example : to_kana_with_opt modernStd ['s', 'h', 'i', 'n', ' ', 'y', 'o', 'u'] { imemode := true } = .ok ['し', 'ん', 'よ', 'う'] := by decide +kernel
-- src/to_kana.rs:173
example : to_kana_with_opt modernStd ['n', 'n'] { imemode := true } = .ok ['ん'] := by decide +kernel
-- src/to_kana.rs:181
example : to_kana modernStd ['w', 'i'] = .ok ['う', 'ぃ'] := by decide +kernel
-- src/to_kana.rs:182
example : to_kana modernStd ['W', 'I'] = .ok ['ウ', 'ィ'] := by decide +kernel
-- src/to_kana.rs:186
example : to_kana_with_opt modernStd ['w', 'i'] { use_obsolete_kana := true } = .ok ['ゐ'] := by decide +kernel
-- src/to_kana.rs:190
example : to_kana_with_opt modernStd ['w', 'e'] { use_obsolete_kana := true } = .ok ['ゑ'] := by decide +kernel
-- src/to_kana.rs:194
example : to_kana_with_opt modernStd ['W', 'I'] { use_obsolete_kana := true } = .ok ['ヰ'] := by decide +kernel
-- src/to_kana.rs:198
example : to_kana_with_opt modernStd ['W', 'E'] { use_obsolete_kana := true } = .ok ['ヱ'] := by decide +kernel
-- src/to_katakana.rs:37
example : to_katakana modernStd [] = .ok [] := by decide +kernel
-- src/to_katakana.rs:44
example : to_katakana_with_opt modernStd ['I', 'R', 'O', 'H', 'A', 'N', 'I', 'H', 'O', 'H', 'E', 'T', 'O'] { use_obsolete_kana := true } = .ok ['イ', 'ロ', 'ハ', 'ニ', 'ホ', 'ヘ', 'ト'] := by decide +kernel
-- src/to_katakana.rs:49
example : to_katakana_with_opt modernStd ['C', 'H', 'I', 'R', 'I', 'N', 'U', 'R', 'U', 'W', 'O'] { use_obsolete_kana := true } = .ok ['チ', 'リ', 'ヌ', 'ル', 'ヲ'] := by decide +kernel
-- src/to_katakana.rs:54
example : to_katakana_with_opt modernStd ['W', 'A', 'K', 'A', 'Y', 'O', 'T', 'A', 'R', 'E', 'S', 'O'] { use_obsolete_kana := true } = .ok ['ワ', 'カ', 'ヨ', 'タ', 'レ', 'ソ'] := by decide +kernel
-- src/to_katakana.rs:59
example : to_katakana_with_opt modernStd ['T', 'S', 'U', 'N', 'E', 'N', 'A', 'R', 'A', 'M', 'U'] { use_obsolete_kana := true } = .ok ['ツ', 'ネ', 'ナ', 'ラ', 'ム'] := by decide +kernel
-- src/to_katakana.rs:64
example : to_katakana_with_opt modernStd ['U', 'W', 'I', 'N', 'O', 'O', 'K', 'U', 'Y', 'A', 'M', 'A'] { use_obsolete_kana := true } = .ok ['ウ', 'ヰ', 'ノ', 'オ', 'ク', 'ヤ', 'マ'] := by decide +kernel
-- src/to_katakana.rs:69
example : to_katakana_with_opt modernStd ['K', 'E', 'F', 'U', 'K', 'O', 'E', 'T', 'E'] { use_obsolete_kana := true } = .ok ['ケ', 'フ', 'コ', 'エ', 'テ'] := by decide +kernel
-- src/to_katakana.rs:74
example : to_katakana_with_opt modernStd ['A', 'S', 'A', 'K', 'I', 'Y', 'U', 'M', 'E', 'M', 'I', 'S', 'H', 'I'] { use_obsolete_kana := true } = .ok ['ア', 'サ', 'キ', 'ユ', 'メ', 'ミ', 'シ'] := by decide +kernel
-- src/to_katakana.rs:79
example : to_katakana_with_opt modernStd ['W', 'E', 'H', 'I', 'M', 'O', 'S', 'E', 'S', 'U'] { use_obsolete_kana := true } = .ok ['ヱ', 'ヒ', 'モ', 'セ', 'ス'] := by decide +kernel
-- src/to_katakana.rs:84
example : to_katakana modernStd ['N', 'L', 'T', 'U'] = .ok ['ン', 'ッ'] := by decide +kernel
-- src/to_katakana.rs:92
example : to_katakana modernStd ['w', 'i'] = .ok ['ウ', 'ィ'] := by decide +kernel
-- src/to_katakana.rs:96
example : to_katakana_with_opt modernStd ['w', 'i'] { use_obsolete_kana := true } = .ok ['ヰ'] := by decide +kernel
-- src/to_katakana.rs:100
example : to_katakana_with_opt modernStd ['w', 'e'] { use_obsolete_kana := true } = .ok ['ヱ'] := by decide +kernel
-- src/to_katakana.rs:108
example : to_katakana modernStd ['o', 'n', 'l', 'y', ' ', 'か', 'な'] = .ok ['オ', 'ン', 'l', 'y', ' ', 'カ', 'ナ'] := by decide +kernel
-- src/to_katakana.rs:109
example : to_katakana_with_opt modernStd ['o', 'n', 'l', 'y', ' ', 'か', 'な'] { pass_romaji := true } = .ok ['o', 'n', 'l', 'y', ' ', 'カ', 'ナ'] := by decide +kernel
-- src/to_romaji.rs:56
example : to_romaji modernStd [] = .ok [] := by decide +kernel
-- src/to_romaji.rs:61
example : to_romaji modernStd ['ワ', 'ニ', 'カ', 'ニ', '　', 'ガ', '　', 'ス', 'ゴ', 'イ', '　', 'ダ'] = .ok ['w', 'a', 'n', 'i', 'k', 'a', 'n', 'i', ' ', 'g', 'a', ' ', 's', 'u', 'g', 'o', 'i', ' ', 'd', 'a'] := by decide +kernel
-- src/to_romaji.rs:69
example : to_romaji modernStd ['わ', 'に', 'か', 'に', '　', 'が', '　', 'す', 'ご', 'い', '　', 'だ'] = .ok ['w', 'a', 'n', 'i', 'k', 'a', 'n', 'i', ' ', 'g', 'a', ' ', 's', 'u', 'g', 'o', 'i', ' ', 'd', 'a'] := by decide +kernel
-- src/to_romaji.rs:77
example : to_romaji modernStd ['ワ', 'ニ', 'カ', 'ニ', '　', 'が', '　', 'す', 'ご', 'い', '　', 'だ'] = .ok ['w', 'a', 'n', 'i', 'k', 'a', 'n', 'i', ' ', 'g', 'a', ' ', 's', 'u', 'g', 'o', 'i', ' ', 'd', 'a'] := by decide +kernel
-- src/to_romaji.rs:90
example : to_romaji_with_opt modernStd ['ワ', 'ニ', 'カ', 'ニ'] { upcase_katakana := true } = .ok ['W', 'A', 'N', 'I', 'K', 'A', 'N', 'I'] := by decide +kernel
-- src/to_romaji.rs:104
example : to_romaji_with_opt modernStd ['ワ', 'ニ', 'カ', 'ニ', '　', 'が', '　', 'す', 'ご', 'い', '　', 'だ'] { upcase_katakana := true } = .ok ['W', 'A', 'N', 'I', 'K', 'A', 'N', 'I', ' ', 'g', 'a', ' ', 's', 'u', 'g', 'o', 'i', ' ', 'd', 'a'] := by decide +kernel
-- src/to_romaji.rs:118
example : to_romaji modernStd ['ば', 'つ', 'げ', 'ー', 'む'] = .ok ['b', 'a', 't', 's', 'u', 'g', 'e', '-', 'm', 'u'] := by decide +kernel
-- src/to_romaji.rs:123
example : to_romaji modernStd ['一', '抹', 'げ', 'ー', 'む'] = .ok ['一', '抹', 'g', 'e', '-', 'm', 'u'] := by decide +kernel
-- src/to_romaji.rs:128
example : to_romaji modernStd ['ス', 'ー', 'パ', 'ー'] = .ok ['s', 'u', 'u', 'p', 'a', 'a'] := by decide +kernel
-- src/to_romaji.rs:133
example : to_romaji modernStd ['缶', 'コ', 'ー', 'ヒ', 'ー'] = .ok ['缶', 'k', 'o', 'o', 'h', 'i', 'i'] := by decide +kernel
-- src/to_romaji.rs:138
example : to_romaji modernStd ['わ', 'に', 'か', 'に', 'が', 'す', 'ご', 'い', 'だ'] ≠ .ok ['w', 'a', 'n', 'i', 'k', 'a', 'n', 'i', ' ', 'g', 'a', ' ', 's', 'u', 'g', 'o', 'i', ' ', 'd', 'a'] := by decide +kernel
-- src/to_romaji.rs:146
example : to_romaji modernStd ['き', 'ん', 'に', 'く', 'ま', 'ん'] = .ok ['k', 'i', 'n', 'n', 'i', 'k', 'u', 'm', 'a', 'n'] := by decide +kernel
-- src/to_romaji.rs:150
example : to_romaji modernStd ['ん', 'ん', 'に', 'ん', 'に', 'ん', 'に', 'ゃ', 'ん', 'や', 'ん'] = .ok ['n', 'n', 'n', 'i', 'n', 'n', 'i', 'n', 'n', 'y', 'a', 'n', '\'', 'y', 'a', 'n'] := by decide +kernel
-- src/to_romaji.rs:154
example : to_romaji modernStd ['か', 'っ', 'ぱ', '　', 'た', 'っ', 'た', '　', 'し', 'ゅ', 'っ', 'し', 'ゅ', ' ', 'ち', 'ゃ', 'っ', 'ち', 'ゃ', '　', 'や', 'っ', 'つ'] = .ok ['k', 'a', 'p', 'p', 'a', ' ', 't', 'a', 't', 't', 'a', ' ', 's', 'h', 'u', 's', 's', 'h', 'u', ' ', 'c', 'h', 'a', 't', 'c', 'h', 'a', ' ', 'y', 'a', 't', 't', 's', 'u'] := by decide +kernel
-- src/to_romaji.rs:161
example : to_romaji modernStd ['か', 'っ', 'ぱ'] = .ok ['k', 'a', 'p', 'p', 'a'] := by decide +kernel
-- src/to_romaji.rs:170
example : to_romaji modernStd ['っ'] = .ok [] := by decide +kernel
-- src/to_romaji.rs:174
example : to_romaji modernStd ['ヶ'] = .ok ['ヶ'] := by decide +kernel
-- src/to_romaji.rs:178
example : to_romaji modernStd ['ヵ'] = .ok ['ヵ'] := by decide +kernel
-- src/to_romaji.rs:182
example : to_romaji modernStd ['ゃ'] = .ok ['y', 'a'] := by decide +kernel
-- src/to_romaji.rs:186
example : to_romaji modernStd ['ゅ'] = .ok ['y', 'u'] := by decide +kernel
-- src/to_romaji.rs:190
example : to_romaji modernStd ['ょ'] = .ok ['y', 'o'] := by decide +kernel
-- src/to_romaji.rs:194
example : to_romaji modernStd ['ぁ'] = .ok ['a'] := by decide +kernel
-- src/to_romaji.rs:198
example : to_romaji modernStd ['ぃ'] = .ok ['i'] := by decide +kernel
-- src/to_romaji.rs:202
example : to_romaji modernStd ['ぅ'] = .ok ['u'] := by decide +kernel
-- src/to_romaji.rs:206
example : to_romaji modernStd ['ぇ'] = .ok ['e'] := by decide +kernel
-- src/to_romaji.rs:210
example : to_romaji modernStd ['ぉ'] = .ok ['o'] := by decide +kernel
-- src/to_romaji.rs:219
example : to_romaji modernStd ['お', 'ん', 'よ', 'み'] = .ok ['o', 'n', '\'', 'y', 'o', 'm', 'i'] := by decide +kernel
-- src/to_romaji.rs:223
example : to_romaji modernStd ['ん', 'よ', ' ', 'ん', 'あ', ' ', 'ん', 'ゆ'] = .ok ['n', '\'', 'y', 'o', ' ', 'n', '\'', 'a', ' ', 'n', '\'', 'y', 'u'] := by decide +kernel
-- src/to_romaji.rs:227
example : to_romaji modernStd ['シ', 'ン', 'ヨ'] = .ok ['s', 'h', 'i', 'n', '\'', 'y', 'o'] := by decide +kernel
-- src/to_romaji.rs:233
example : to_romaji modernStd ['ウ', 'ー', 'ッ', 'ー'] = .ok ['u', 'u'] := by decide +kernel
-- src/to_romaji.rs:238
example : to_romaji modernStd ['ヷ', 'ー'] = .ok ['w', 'a', 'a'] := by decide +kernel
-- src/tokenize.rs:12
example : tokenize ['ふ', 'ふ', 'フ', 'フ'] = [['ふ', 'ふ'], ['フ', 'フ']] := by decide +kernel
-- src/tokenize.rs:13
example : tokenize ['感', 'じ'] = [['感'], ['じ']] := by decide +kernel
-- src/tokenize.rs:14
example : tokenize ['私', 'は', '悲', 'し', 'い'] = [['私'], ['は'], ['悲'], ['し', 'い']] := by decide +kernel
-- src/tokenize.rs:101
example : tokenize ['ふ', 'ふ', 'フ', 'フ'] = [['ふ', 'ふ'], ['フ', 'フ']] := by decide +kernel
-- src/tokenize.rs:102
example : tokenize ['感', 'じ'] = [['感'], ['じ']] := by decide +kernel
-- src/tokenize.rs:103
example : tokenize ['私', 'は', '悲', 'し', 'い'] = [['私'], ['は'], ['悲'], ['し', 'い']] := by decide +kernel
-- src/tokenize.rs:127
example : tokenize_detailed ['5', 'r', 'o', 'm', 'a', 'j', 'i', ' ', 'h', 'e', 'r', 'e', '.', '.', '.', '!', '?', '漢', '字', 'ひ', 'ら', 'が', 'な', 'カ', 'タ', '　', 'カ', 'ナ', '４', '「', 'Ｓ', 'Ｈ', 'Ｉ', 'Ｏ', '」', '。', '！', ' ', 'ل', 'ن', 'ذ', 'ه', 'ب'] true = [(.Other, ['5']), (.En, ['r', 'o', 'm', 'a', 'j', 'i', ' ', 'h', 'e', 'r', 'e']), (.Other, ['.', '.', '.', '!', '?']), (.Ja, ['漢', '字', 'ひ', 'ら', 'が', 'な', 'カ', 'タ', '　', 'カ', 'ナ']), (.Other, ['４', '「']), (.Ja, ['Ｓ', 'Ｈ', 'Ｉ', 'Ｏ']), (.Other, ['」', '。', '！']), (.En, [' ']), (.Other, ['ل', 'ن', 'ذ', 'ه', 'ب'])] := by decide +kernel
-- src/traits.rs:9
example : to_kana modernStd ['o'] = .ok ['お'] := by decide +kernel
-- src/traits.rs:10
example : to_kana modernStd ['o', 'n', 'a'] = .ok ['お', 'な'] := by decide +kernel
-- src/traits.rs:11
example : to_kana modernStd ['o', 'n', 'a', 'j', 'i'] = .ok ['お', 'な', 'じ'] := by decide +kernel
-- src/traits.rs:12
example : to_kana modernStd ['o', 'n', 'a', 'j', 'i', ' ', 'B', 'U', 'T', 'T', 'S', 'U', 'U', 'J', 'I'] = .ok ['お', 'な', 'じ', ' ', 'ブ', 'ッ', 'ツ', 'ウ', 'ジ'] := by decide +kernel
-- src/traits.rs:13
example : to_kana modernStd ['O', 'N', 'A', 'J', 'I', ' ', 'b', 'u', 't', 't', 's', 'u', 'u', 'j', 'i'] = .ok ['オ', 'ナ', 'ジ', ' ', 'ぶ', 'っ', 'つ', 'う', 'じ'] := by decide +kernel
-- src/traits.rs:14
example : to_kana modernStd ['座', '禅', '‘', 'z', 'a', 'z', 'e', 'n', '’', 'ス', 'タ', 'イ', 'ル'] = .ok ['座', '禅', '「', 'ざ', 'ぜ', 'ん', '」', 'ス', 'タ', 'イ', 'ル'] := by decide +kernel
-- src/traits.rs:16
example : to_hiragana modernStd ['t', 'o', 'u', 'k', 'y', 'o', 'u', ',', 'オ', 'オ', 'サ', 'カ'] = .ok ['と', 'う', 'き', 'ょ', 'う', '、', 'お', 'お', 'さ', 'か'] := by decide +kernel
-- src/traits.rs:18
example : to_katakana modernStd ['t', 'o', 'u', 'k', 'y', 'o', 'u', ',', 'お', 'お', 'さ', 'か'] = .ok ['ト', 'ウ', 'キ', 'ョ', 'ウ', '、', 'オ', 'オ', 'サ', 'カ'] := by decide +kernel
-- src/traits.rs:20
example : to_romaji modernStd ['ひ', 'ら', 'が', 'な', '　', 'カ', 'タ', 'カ', 'ナ'] = .ok ['h', 'i', 'r', 'a', 'g', 'a', 'n', 'a', ' ', 'k', 'a', 't', 'a', 'k', 'a', 'n', 'a'] := by decide +kernel
-- src/traits.rs:35
example : to_kana modernStd ['o'] = .ok ['お'] := by decide +kernel
-- src/traits.rs:36
example : to_kana modernStd ['o', 'n', 'a'] = .ok ['お', 'な'] := by decide +kernel
-- src/traits.rs:37
example : to_kana modernStd ['o', 'n', 'a', 'j', 'i'] = .ok ['お', 'な', 'じ'] := by decide +kernel
-- src/traits.rs:38
example : to_kana modernStd ['o', 'n', 'a', 'j', 'i', ' ', 'B', 'U', 'T', 'T', 'S', 'U', 'U', 'J', 'I'] = .ok ['お', 'な', 'じ', ' ', 'ブ', 'ッ', 'ツ', 'ウ', 'ジ'] := by decide +kernel
-- src/traits.rs:39
example : to_kana modernStd ['O', 'N', 'A', 'J', 'I', ' ', 'b', 'u', 't', 't', 's', 'u', 'u', 'j', 'i'] = .ok ['オ', 'ナ', 'ジ', ' ', 'ぶ', 'っ', 'つ', 'う', 'じ'] := by decide +kernel
-- src/traits.rs:40
example : to_kana modernStd ['座', '禅', '‘', 'z', 'a', 'z', 'e', 'n', '’', 'ス', 'タ', 'イ', 'ル'] = .ok ['座', '禅', '「', 'ざ', 'ぜ', 'ん', '」', 'ス', 'タ', 'イ', 'ル'] := by decide +kernel
-- src/traits.rs:42
example : to_hiragana modernStd ['t', 'o', 'u', 'k', 'y', 'o', 'u', ',', 'オ', 'オ', 'サ', 'カ'] = .ok ['と', 'う', 'き', 'ょ', 'う', '、', 'お', 'お', 'さ', 'か'] := by decide +kernel
-- src/traits.rs:44
example : to_katakana modernStd ['t', 'o', 'u', 'k', 'y', 'o', 'u', ',', 'お', 'お', 'さ', 'か'] = .ok ['ト', 'ウ', 'キ', 'ョ', 'ウ', '、', 'オ', 'オ', 'サ', 'カ'] := by decide +kernel
-- src/traits.rs:46
example : to_romaji modernStd ['ひ', 'ら', 'が', 'な', '　', 'カ', 'タ', 'カ', 'ナ'] = .ok ['h', 'i', 'r', 'a', 'g', 'a', 'n', 'a', ' ', 'k', 'a', 't', 'a', 'k', 'a', 'n', 'a'] := by decide +kernel
-- src/traits.rs:53
example : to_kana modernStd ['o'] = .ok ['お'] := by decide +kernel
-- src/traits.rs:54
example : to_kana modernStd ['o', 'n', 'a'] = .ok ['お', 'な'] := by decide +kernel
-- src/traits.rs:55
example : to_kana modernStd ['o', 'n', 'a', 'j', 'i'] = .ok ['お', 'な', 'じ'] := by decide +kernel
-- src/traits.rs:56
example : to_kana modernStd ['o', 'n', 'a', 'j', 'i', ' ', 'B', 'U', 'T', 'T', 'S', 'U', 'U', 'J', 'I'] = .ok ['お', 'な', 'じ', ' ', 'ブ', 'ッ', 'ツ', 'ウ', 'ジ'] := by decide +kernel
-- src/traits.rs:57
example : to_kana modernStd ['O', 'N', 'A', 'J', 'I', ' ', 'b', 'u', 't', 't', 's', 'u', 'u', 'j', 'i'] = .ok ['オ', 'ナ', 'ジ', ' ', 'ぶ', 'っ', 'つ', 'う', 'じ'] := by decide +kernel
-- src/traits.rs:58
example : to_kana modernStd ['座', '禅', '‘', 'z', 'a', 'z', 'e', 'n', '’', 'ス', 'タ', 'イ', 'ル'] = .ok ['座', '禅', '「', 'ざ', 'ぜ', 'ん', '」', 'ス', 'タ', 'イ', 'ル'] := by decide +kernel
-- src/traits.rs:59
example : to_kana modernStd ['!', '?', '.', '/', ',', '~', '-', '‘', '’', '“', '”', '[', ']', '(', ')', '{', '}'] = .ok ['！', '？', '。', '・', '、', '〜', 'ー', '「', '」', '『', '』', '［', '］', '（', '）', '｛', '｝'] := by decide +kernel
-- src/traits.rs:68
example : to_kana_with_opt modernStd ['b', 'a', 't', 's', 'u', 'g', 'e', '-', 'm', 'u'] { use_obsolete_kana := true } = .ok ['ば', 'つ', 'げ', 'ー', 'む'] := by decide +kernel
-- src/traits.rs:69
example : to_kana_with_opt modernStd ['w', 'e'] { use_obsolete_kana := true } = .ok ['ゑ'] := by decide +kernel
-- src/traits.rs:77
example : to_hiragana modernStd ['t', 'o', 'u', 'k', 'y', 'o', 'u', ',', 'オ', 'オ', 'サ', 'カ'] = .ok ['と', 'う', 'き', 'ょ', 'う', '、', 'お', 'お', 'さ', 'か'] := by decide +kernel
-- src/traits.rs:78
example : to_hiragana modernStd ['w', 'i'] = .ok ['う', 'ぃ'] := by decide +kernel
-- src/traits.rs:87
example : to_hiragana_with_opt modernStd ['o', 'n', 'l', 'y', ' ', 'か', 'な'] { pass_romaji := true } = .ok ['o', 'n', 'l', 'y', ' ', 'か', 'な'] := by decide +kernel
-- src/traits.rs:88
example : to_hiragana_with_opt modernStd ['w', 'i'] { use_obsolete_kana := true } = .ok ['ゐ'] := by decide +kernel
-- src/traits.rs:102
example : to_romaji modernStd ['ひ', 'ら', 'が', 'な', '　', 'カ', 'タ', 'カ', 'ナ'] = .ok ['h', 'i', 'r', 'a', 'g', 'a', 'n', 'a', ' ', 'k', 'a', 't', 'a', 'k', 'a', 'n', 'a'] := by decide +kernel
-- src/traits.rs:111
example : to_romaji_with_opt modernStd ['ひ', 'ら', 'が', 'な', '　', 'カ', 'タ', 'カ', 'ナ'] { upcase_katakana := true } = .ok ['h', 'i', 'r', 'a', 'g', 'a', 'n', 'a', ' ', 'K', 'A', 'T', 'A', 'K', 'A', 'N', 'A'] := by decide +kernel
-- src/traits.rs:168
example : is_hiragana ['げ', 'ー', 'む'] = true := by decide +kernel
-- src/traits.rs:169
example : is_hiragana ['A'] = false := by decide +kernel

end WanaKana
