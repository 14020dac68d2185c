import Verif.Model.Traits
import Verif.Model.Tokenize
import Verif.Model.Trim
import Verif.Model.GetChunk
import Verif.Model.StdConcrete
/-! Generated by tools/gen_repo_tests.py (1 of 4).  110 assertions from the tests and the documentation of
the crate, evaluated in the model.  They test that the model does what the authors of the code expect; no property
rests on them. -/

namespace WanaKana

-- README.md:20
example : to_romaji modernStd ['ワ', 'ナ', 'カ', 'ナ'] = .ok ['w', 'a', 'n', 'a', 'k', 'a', 'n', 'a'] := by decide +kernel
-- README.md:21
example : to_hiragana modernStd ['W', 'a', 'n', 'a', 'K', 'a', 'n', 'a'] = .ok ['わ', 'な', 'か', 'な'] := by decide +kernel
-- README.md:22
example : to_kana modernStd ['W', 'A', 'N', 'A', 'K', 'A', 'N', 'A'] = .ok ['ワ', 'ナ', 'カ', 'ナ'] := by decide +kernel
-- src/is_hiragana.rs:13
example : is_hiragana ['げ', 'ー', 'む'] = true := by decide +kernel
-- src/is_hiragana.rs:14
example : (!is_hiragana ['A']) = true := by decide +kernel
-- src/is_hiragana.rs:15
example : (!is_hiragana ['あ', 'ア']) = true := by decide +kernel
-- src/is_hiragana.rs:24
example : (!is_hiragana []) = true := by decide +kernel
-- src/is_hiragana.rs:28
example : is_hiragana ['あ'] = true := by decide +kernel
-- src/is_hiragana.rs:32
example : is_hiragana ['あ', 'あ'] = true := by decide +kernel
-- src/is_hiragana.rs:36
example : (!is_hiragana ['ア']) = true := by decide +kernel
-- src/is_hiragana.rs:40
example : (!is_hiragana ['A']) = true := by decide +kernel
-- src/is_hiragana.rs:44
example : (!is_hiragana ['あ', 'ア']) = true := by decide +kernel
-- src/is_hiragana.rs:48
example : is_hiragana ['げ', 'ー', 'む'] = true := by decide +kernel
-- src/is_kana.rs:17
example : (!is_kana []) = true := by decide +kernel
-- src/is_kana.rs:21
example : is_kana ['あ'] = true := by decide +kernel
-- src/is_kana.rs:25
example : is_kana ['ア'] = true := by decide +kernel
-- src/is_kana.rs:29
example : is_kana ['あ', 'ア'] = true := by decide +kernel
-- src/is_kana.rs:33
example : (!is_kana ['A']) = true := by decide +kernel
-- src/is_kana.rs:37
example : (!is_kana ['あ', 'A', 'ア']) = true := by decide +kernel
-- src/is_kana.rs:41
example : is_kana ['ア', 'ー', 'あ'] = true := by decide +kernel
-- src/is_kanji.rs:27
example : (!is_kanji []) = true := by decide +kernel
-- src/is_kanji.rs:28
example : (!contains_kanji []) = true := by decide +kernel
-- src/is_kanji.rs:33
example : contains_kanji ['勢', 'い'] = true := by decide +kernel
-- src/is_kanji.rs:37
example : (!contains_kanji ['h', 'e', 'l', 'l', 'o']) = true := by decide +kernel
-- src/is_kanji.rs:41
example : is_kanji ['切', '腹'] = true := by decide +kernel
-- src/is_kanji.rs:45
example : is_kanji ['刀'] = true := by decide +kernel
-- src/is_kanji.rs:49
example : (!is_kanji ['🐸']) = true := by decide +kernel
-- src/is_kanji.rs:53
example : (!is_kanji ['あ']) = true := by decide +kernel
-- src/is_kanji.rs:57
example : (!is_kanji ['ア']) = true := by decide +kernel
-- src/is_kanji.rs:61
example : (!is_kanji ['あ', 'ア']) = true := by decide +kernel
-- src/is_kanji.rs:65
example : (!is_kanji ['A']) = true := by decide +kernel
-- src/is_kanji.rs:69
example : (!is_kanji ['あ', 'A', 'ア']) = true := by decide +kernel
-- src/is_kanji.rs:73
example : (!is_kanji ['１', '２', '隻']) = true := by decide +kernel
-- src/is_kanji.rs:77
example : (!is_kanji ['1', '2', '隻']) = true := by decide +kernel
-- src/is_kanji.rs:81
example : (!is_kanji ['隻', '。']) = true := by decide +kernel
-- src/is_katakana.rs:17
example : (!is_katakana []) = true := by decide +kernel
-- src/is_katakana.rs:21
example : is_katakana ['ア', 'ア'] = true := by decide +kernel
-- src/is_katakana.rs:25
example : is_katakana ['ア'] = true := by decide +kernel
-- src/is_katakana.rs:29
example : (!is_katakana ['あ']) = true := by decide +kernel
-- src/is_katakana.rs:33
example : (!is_katakana ['A']) = true := by decide +kernel
-- src/is_katakana.rs:37
example : (!is_katakana ['あ', 'ア']) = true := by decide +kernel
-- src/is_katakana.rs:41
example : is_katakana ['ゲ', 'ー', 'ム'] = true := by decide +kernel
-- src/is_mixed.rs:31
example : (!is_mixed []) = true := by decide +kernel
-- src/is_mixed.rs:35
example : is_mixed ['A', 'ア'] = true := by decide +kernel
-- src/is_mixed.rs:39
example : is_mixed ['A', 'あ'] = true := by decide +kernel
-- src/is_mixed.rs:43
example : is_mixed ['A', 'あ', 'ア'] = true := by decide +kernel
-- src/is_mixed.rs:47
example : (!is_mixed ['２', 'あ', 'ア']) = true := by decide +kernel
-- src/is_mixed.rs:51
example : is_mixed ['お', '腹', 'A'] = true := by decide +kernel
-- src/is_mixed.rs:55
example : (!is_mixed_pass_kanji ['お', '腹', 'A'] false) = true := by decide +kernel
-- src/is_mixed.rs:59
example : (!is_mixed ['お', '腹']) = true := by decide +kernel
-- src/is_mixed.rs:63
example : (!is_mixed ['腹']) = true := by decide +kernel
-- src/is_mixed.rs:67
example : (!is_mixed ['A']) = true := by decide +kernel
-- src/is_mixed.rs:71
example : (!is_mixed ['あ']) = true := by decide +kernel
-- src/is_mixed.rs:75
example : (!is_mixed ['ア']) = true := by decide +kernel
-- src/is_romaji.rs:34
example : is_romaji ['T', 'ō', 'k', 'y', 'ō', ' ', 'a', 'n', 'd', ' ', 'Ō', 's', 'a', 'k', 'a'] = true := by decide +kernel
-- src/is_romaji.rs:35
example : is_romaji ['1', '2', 'a', '*', 'b', '&', 'c', '-', 'd'] = true := by decide +kernel
-- src/is_romaji.rs:36
example : (!is_romaji ['あ', 'ア', 'A']) = true := by decide +kernel
-- src/is_romaji.rs:37
example : (!is_romaji ['お', '願', 'い']) = true := by decide +kernel
-- src/is_romaji.rs:38
example : (!is_romaji ['a', '！', 'b', '&', 'c', 'ー', 'd']) = true := by decide +kernel
-- src/is_romaji.rs:47
example : (!is_romaji []) = true := by decide +kernel
-- src/is_romaji.rs:50
example : is_romaji_with_whitelist [] none = false := by decide +kernel
-- src/is_romaji.rs:54
example : is_romaji ['A'] = true := by decide +kernel
-- src/is_romaji.rs:58
example : is_romaji ['x', 'Y', 'z'] = true := by decide +kernel
-- src/is_romaji.rs:62
example : is_romaji ['T', 'ō', 'k', 'y', 'ō', ' ', 'a', 'n', 'd', ' ', 'Ō', 's', 'a', 'k', 'a'] = true := by decide +kernel
-- src/is_romaji.rs:66
example : (!is_romaji ['あ', 'ア', 'A']) = true := by decide +kernel
-- src/is_romaji.rs:70
example : (!is_romaji ['お', '願', 'い']) = true := by decide +kernel
-- src/is_romaji.rs:74
example : (!is_romaji ['熟', '成']) = true := by decide +kernel
-- src/is_romaji.rs:78
example : is_romaji ['a', '*', 'b', '&', 'c', '-', 'd'] = true := by decide +kernel
-- src/is_romaji.rs:82
example : is_romaji ['0', '1', '2', '3', '4', '5', '6', '7', '8', '9'] = true := by decide +kernel
-- src/is_romaji.rs:86
example : (!is_romaji ['a', '！', 'b', '&', 'c', 'ー', 'd']) = true := by decide +kernel
-- src/is_romaji.rs:90
example : (!is_romaji ['ｈ', 'ｅ', 'ｌ', 'ｌ', 'ｏ']) = true := by decide +kernel
-- src/is_romaji.rs:96
example : is_romaji_with_whitelist ['a', '！', 'b', '&', 'c', 'ー', 'd'] (some ⟨fun s => s.any fun c => ['！', 'ー'].contains c⟩) = true := by decide +kernel
-- src/lib.rs:15
example : to_kana modernStd ['o'] = .ok ['お'] := by decide +kernel
-- src/lib.rs:16
example : to_kana modernStd ['o', 'n', 'a'] = .ok ['お', 'な'] := by decide +kernel
-- src/lib.rs:17
example : to_kana modernStd ['o', 'n', 'a', 'j', 'i'] = .ok ['お', 'な', 'じ'] := by decide +kernel
-- src/lib.rs:18
example : to_kana modernStd ['o', 'n', 'a', 'j', 'i', ' ', 'B', 'U', 'T', 'T', 'S', 'U', 'U', 'J', 'I'] = .ok ['お', 'な', 'じ', ' ', 'ブ', 'ッ', 'ツ', 'ウ', 'ジ'] := by decide +kernel
-- src/lib.rs:19
example : to_kana modernStd ['O', 'N', 'A', 'J', 'I', ' ', 'b', 'u', 't', 't', 's', 'u', 'u', 'j', 'i'] = .ok ['オ', 'ナ', 'ジ', ' ', 'ぶ', 'っ', 'つ', 'う', 'じ'] := by decide +kernel
-- src/lib.rs:20
example : to_kana modernStd ['座', '禅', '‘', 'z', 'a', 'z', 'e', 'n', '’', 'ス', 'タ', 'イ', 'ル'] = .ok ['座', '禅', '「', 'ざ', 'ぜ', 'ん', '」', 'ス', 'タ', 'イ', 'ル'] := by decide +kernel
-- src/lib.rs:22
example : to_hiragana modernStd ['t', 'o', 'u', 'k', 'y', 'o', 'u', ',', 'オ', 'オ', 'サ', 'カ'] = .ok ['と', 'う', 'き', 'ょ', 'う', '、', 'お', 'お', 'さ', 'か'] := by decide +kernel
-- src/lib.rs:24
example : to_katakana modernStd ['t', 'o', 'u', 'k', 'y', 'o', 'u', ',', 'お', 'お', 'さ', 'か'] = .ok ['ト', 'ウ', 'キ', 'ョ', 'ウ', '、', 'オ', 'オ', 'サ', 'カ'] := by decide +kernel
-- src/lib.rs:26
example : to_romaji modernStd ['ひ', 'ら', 'が', 'な', '　', 'カ', 'タ', 'カ', 'ナ'] = .ok ['h', 'i', 'r', 'a', 'g', 'a', 'n', 'a', ' ', 'k', 'a', 't', 'a', 'k', 'a', 'n', 'a'] := by decide +kernel
-- src/lib.rs:35
example : is_hiragana ['げ', 'ー', 'む'] = true := by decide +kernel
-- src/lib.rs:36
example : is_kana ['ア'] = true := by decide +kernel
-- src/lib.rs:37
example : is_romaji ['T', 'ō', 'k', 'y', 'ō', ' ', 'a', 'n', 'd', ' ', 'Ō', 's', 'a', 'k', 'a'] = true := by decide +kernel
-- src/lib.rs:38
example : is_kanji ['切', '腹'] = true := by decide +kernel
-- src/lib.rs:39
example : is_mixed ['A', 'あ', 'ア'] = true := by decide +kernel
-- src/lib.rs:40
example : contains_kanji ['勢', 'い'] = true := by decide +kernel
-- src/lib.rs:98
example : to_hiragana modernStd ['シ', 'ー', 'ク', 'ヮ', 'ー', 'サ', 'ー'] = .ok ['し', 'い', 'く', 'ゎ', 'あ', 'さ', 'あ'] := by decide +kernel
-- src/to_hiragana.rs:50
example : to_hiragana modernStd [] = .ok [] := by decide +kernel
-- src/to_hiragana.rs:57
example : to_hiragana_with_opt modernStd ['I', 'R', 'O', 'H', 'A', 'N', 'I', 'H', 'O', 'H', 'E', 'T', 'O'] { use_obsolete_kana := true } = .ok ['い', 'ろ', 'は', 'に', 'ほ', 'へ', 'と'] := by decide +kernel
-- src/to_hiragana.rs:62
example : to_hiragana_with_opt modernStd ['C', 'H', 'I', 'R', 'I', 'N', 'U', 'R', 'U', 'W', 'O'] { use_obsolete_kana := true } = .ok ['ち', 'り', 'ぬ', 'る', 'を'] := by decide +kernel
-- src/to_hiragana.rs:67
example : to_hiragana_with_opt modernStd ['W', 'A', 'K', 'A', 'Y', 'O', 'T', 'A', 'R', 'E', 'S', 'O'] { use_obsolete_kana := true } = .ok ['わ', 'か', 'よ', 'た', 'れ', 'そ'] := by decide +kernel
-- src/to_hiragana.rs:72
example : to_hiragana_with_opt modernStd ['T', 'S', 'U', 'N', 'E', 'N', 'A', 'R', 'A', 'M', 'U'] { use_obsolete_kana := true } = .ok ['つ', 'ね', 'な', 'ら', 'む'] := by decide +kernel
-- src/to_hiragana.rs:77
example : to_hiragana_with_opt modernStd ['U', 'W', 'I', 'N', 'O', 'O', 'K', 'U', 'Y', 'A', 'M', 'A'] { use_obsolete_kana := true } = .ok ['う', 'ゐ', 'の', 'お', 'く', 'や', 'ま'] := by decide +kernel
-- src/to_hiragana.rs:82
example : to_hiragana_with_opt modernStd ['K', 'E', 'F', 'U', 'K', 'O', 'E', 'T', 'E'] { use_obsolete_kana := true } = .ok ['け', 'ふ', 'こ', 'え', 'て'] := by decide +kernel
-- src/to_hiragana.rs:87
example : to_hiragana_with_opt modernStd ['A', 'S', 'A', 'K', 'I', 'Y', 'U', 'M', 'E', 'M', 'I', 'S', 'H', 'I'] { use_obsolete_kana := true } = .ok ['あ', 'さ', 'き', 'ゆ', 'め', 'み', 'し'] := by decide +kernel
-- src/to_hiragana.rs:92
example : to_hiragana_with_opt modernStd ['W', 'E', 'H', 'I', 'M', 'O', 'S', 'E', 'S', 'U'] { use_obsolete_kana := true } = .ok ['ゑ', 'ひ', 'も', 'せ', 'す'] := by decide +kernel
-- src/to_hiragana.rs:97
example : to_hiragana modernStd ['N', 'L', 'T', 'U'] = .ok ['ん', 'っ'] := by decide +kernel
-- src/to_hiragana.rs:104
example : to_hiragana modernStd ['w', 'i'] = .ok ['う', 'ぃ'] := by decide +kernel
-- src/to_hiragana.rs:108
example : to_hiragana_with_opt modernStd ['w', 'i'] { use_obsolete_kana := true } = .ok ['ゐ'] := by decide +kernel
-- src/to_hiragana.rs:112
example : to_hiragana_with_opt modernStd ['w', 'e'] { use_obsolete_kana := true } = .ok ['ゑ'] := by decide +kernel
-- src/to_hiragana.rs:116
example : to_hiragana_with_opt modernStd ['w', 'i'] { use_obsolete_kana := false } = .ok ['う', 'ぃ'] := by decide +kernel
-- src/to_hiragana.rs:133
example : to_hiragana modernStd ['o', 'n', 'l', 'y', ' ', 'カ', 'ナ'] = .ok ['お', 'ん', 'l', 'y', ' ', 'か', 'な'] := by decide +kernel
-- src/to_hiragana.rs:134
example : to_hiragana_with_opt modernStd ['o', 'n', 'l', 'y', ' ', 'カ', 'ナ'] { pass_romaji := true } = .ok ['o', 'n', 'l', 'y', ' ', 'か', 'な'] := by decide +kernel
-- src/to_hiragana.rs:151
example : to_hiragana modernStd ['ス', 'ー', 'パ', 'ー'] = .ok ['す', 'う', 'ぱ', 'あ'] := by decide +kernel
-- src/to_hiragana.rs:152
example : to_hiragana modernStd ['バ', 'ン', 'ゴ', 'ー'] = .ok ['ば', 'ん', 'ご', 'う'] := by decide +kernel
-- src/to_hiragana.rs:158
example : to_hiragana modernStd ['#', '2', '2', ' ', '２', '２', '漢', '字', '、', 't', 'o', 'u', 'k', 'y', 'o', 'u', ',', ' ', 'オ', 'オ', 'サ', 'カ'] = .ok ['#', '2', '2', ' ', '２', '２', '漢', '字', '、', 'と', 'う', 'き', 'ょ', 'う', '、', ' ', 'お', 'お', 'さ', 'か'] := by decide +kernel
-- src/to_kana.rs:82
example : to_kana modernStd [] = .ok [] := by decide +kernel
-- src/to_kana.rs:86
example : to_kana modernStd ['W', 'A', 'N', 'A', 'K', 'A', 'N', 'A'] = .ok ['ワ', 'ナ', 'カ', 'ナ'] := by decide +kernel
-- src/to_kana.rs:91
example : to_kana modernStd ['o', 'n', 'a', 'j', 'i'] = .ok ['お', 'な', 'じ'] := by decide +kernel

end WanaKana
