import Verif.Model.Traits
import Verif.Model.Tokenize
import Verif.Model.Trim
import Verif.Model.GetChunk
import Verif.Model.StdConcrete
/-! Generated by tools/gen_repo_tests.py (4 of 4).  110 assertions from the tests and the documentation of
the crate, evaluated in the model.  They test that the model does what the authors of the code expect; no property
rests on them. -/

namespace WanaKana

-- src/utils/is_char_upper_case.rs:13
example : is_char_upper_case 'D' = true := by decide +kernel
-- src/utils/is_char_upper_case.rs:14
example : (!is_char_upper_case '-') = true := by decide +kernel
-- src/utils/is_char_upper_case.rs:15
example : (!is_char_upper_case 'ー') = true := by decide +kernel
-- src/utils/is_char_upper_case.rs:16
example : (!is_char_upper_case 'a') = true := by decide +kernel
-- src/utils/is_char_upper_case.rs:17
example : (!is_char_upper_case 'd') = true := by decide +kernel
-- src/utils/is_char_vowel.rs:19
example : (!is_char_vowel_opt 'y' false) = true := by decide +kernel
-- src/utils/is_char_vowel.rs:20
example : is_char_vowel_opt 'y' true = true := by decide +kernel
-- src/utils/is_char_vowel.rs:21
example : (!is_char_vowel 'x') = true := by decide +kernel
-- src/utils/is_char_vowel.rs:22
example : (!is_char_vowel '!') = true := by decide +kernel
-- src/utils/katakana_to_hiragana.rs:107
example : katakana_to_hiragana modernStd ['カ', 'タ', 'カ', 'ナ'] = .ok ['か', 'た', 'か', 'な'] := by decide +kernel
-- src/utils/katakana_to_hiragana.rs:108
example : katakana_to_hiragana modernStd ['カ', 'タ', 'カ', 'ナ', ' ', 'i', 's', ' ', 'a', ' ', 't', 'y', 'p', 'e', ' ', 'o', 'f', ' ', 'k', 'a', 'n', 'a'] = .ok ['か', 'た', 'か', 'な', ' ', 'i', 's', ' ', 'a', ' ', 't', 'y', 'p', 'e', ' ', 'o', 'f', ' ', 'k', 'a', 'n', 'a'] := by decide +kernel
-- src/utils/mod.rs:64
example : is_char_english_punctuation ' ' = true := by decide +kernel
-- src/utils/mod.rs:65
example : (!is_char_english_punctuation 'a') = true := by decide +kernel
-- src/utils/mod.rs:66
example : (!is_char_english_punctuation 'ふ') = true := by decide +kernel
-- src/utils/mod.rs:67
example : (!is_char_english_punctuation '字') = true := by decide +kernel
-- src/utils/mod.rs:74
example : is_char_punctuation ' ' = true := by decide +kernel
-- src/utils/mod.rs:75
example : is_char_punctuation '　' = true := by decide +kernel
-- src/utils/mod.rs:76
example : (!is_char_punctuation 'a') = true := by decide +kernel
-- src/utils/mod.rs:77
example : (!is_char_punctuation 'ふ') = true := by decide +kernel
-- src/utils/mod.rs:78
example : (!is_char_punctuation '字') = true := by decide +kernel
-- src/utils/mod.rs:85
example : is_char_japanese_punctuation '　' = true := by decide +kernel
-- src/utils/mod.rs:86
example : (!is_char_japanese_punctuation '?') = true := by decide +kernel
-- src/utils/mod.rs:87
example : (!is_char_japanese_punctuation 'a') = true := by decide +kernel
-- src/utils/mod.rs:88
example : (!is_char_japanese_punctuation 'ふ') = true := by decide +kernel
-- src/utils/mod.rs:89
example : (!is_char_japanese_punctuation '字') = true := by decide +kernel
-- tests/is_japanese.rs:7
example : (!is_japanese []) = true := by decide +kernel
-- tests/is_japanese.rs:11
example : is_japanese ['泣', 'き', '虫'] = true := by decide +kernel
-- tests/is_japanese.rs:18
example : is_japanese_with_whitelist ['≪', '偽', '括', '弧', '≫'] (some ⟨fun s => s.any fun c => ['≪', '≫'].contains c⟩) = true := by decide +kernel
-- tests/is_japanese.rs:25
example : is_japanese ['あ', 'ア'] = true := by decide +kernel
-- tests/is_japanese.rs:29
example : (!is_japanese ['A', '泣', 'き', '虫']) = true := by decide +kernel
-- tests/is_japanese.rs:33
example : (!is_japanese ['A']) = true := by decide +kernel
-- tests/is_japanese.rs:37
example : is_japanese ['　'] = true := by decide +kernel
-- tests/is_japanese.rs:41
example : (!is_japanese [' ']) = true := by decide +kernel
-- tests/is_japanese.rs:45
example : is_japanese ['泣', 'き', '虫', '。', '＃', '！', '〜', '〈', '〉', '《', '》', '〔', '〕', '［', '］', '【', '】', '（', '）', '｛', '｝', '〝', '〟'] = true := by decide +kernel
-- tests/is_japanese.rs:49
example : (!is_japanese ['泣', 'き', '虫', '.', '!', '~']) = true := by decide +kernel
-- tests/is_japanese.rs:53
example : is_japanese ['０', '１', '２', '３', '４', '５', '６', '７', '８', '９'] = true := by decide +kernel
-- tests/is_japanese.rs:57
example : (!is_japanese ['0', '1', '2', '3', '4', '5', '6', '7', '8', '9']) = true := by decide +kernel
-- tests/is_japanese.rs:61
example : is_japanese ['Ｍ', 'ｅ', 'Ｔ', 'ｏ', 'ｏ'] = true := by decide +kernel
-- tests/is_japanese.rs:65
example : is_japanese ['２', '０', '１', '１', '年'] = true := by decide +kernel
-- tests/is_japanese.rs:69
example : is_japanese ['ﾊ', 'ﾝ', 'ｶ', 'ｸ', 'ｶ', 'ﾀ', 'ｶ', 'ﾅ'] = true := by decide +kernel
-- tests/is_japanese.rs:73
example : is_japanese ['＃', 'Ｍ', 'ｅ', 'Ｔ', 'ｏ', 'ｏ', '、', 'こ', 'れ', 'を', '前', 'に', '「', 'Ｋ', 'Ｕ', 'Ｒ', 'Ｏ', 'Ｓ', 'Ｈ', 'Ｉ', 'Ｏ', '」', 'は', '、', '都', '内', 'で', '報', '道', '陣', 'を', '前', 'に', '水', '中', '探', '査', 'ロ', 'ボ', 'ッ', 'ト', 'の', '最', '終', '点', '検', 'の', '様', '子', 'を', '公', '開', 'し', 'ま', 'し', 'た', '。', 'イ', 'ル', 'カ', 'の', 'よ', 'う', 'な', '形', 'を', 'し', 'た', '探', '査', 'ロ', 'ボ', 'ッ', 'ト', 'は', '、', '全', '長', '３', 'メ', 'ー', 'ト', 'ル', '、', '重', 'さ', 'は', '３', '５', '０', 'キ', 'ロ', 'あ', 'り', 'ま', 'す', '。', '《', 'は', 'じ', 'め', 'に', '》', '冒', '頭', '、', '安', '倍', '総', '理', '大', '臣', 'は', '、', 'こ', 'と', 'し', 'が', '明', '治', '元', '年', 'か', 'ら', '１', '５', '０', '年', 'に', 'あ', 'た', 'る', 'こ', 'と', 'に', '触', 'れ', '「', '明', '治', 'と', 'い', 'う', '新', 'し', 'い', '時', '代', 'が', '育', 'て', 'た', 'あ', 'ま', 'た', 'の', '人', '材', 'が', '、', '技', '術', '優', '位', 'の', '欧', '米', '諸', '国', 'が', '迫', 'る', '『', '国', '難', '』', 'と', 'も', '呼', 'ぶ', 'べ', 'き', '危', '機', 'の', '中', 'で', '、', 'わ', 'が', '国', 'が', '急', '速', 'に', '近', '代', '化', 'を', '遂', 'げ', 'る', '原', '動', '力', 'と', 'な', 'っ', 'た', '。', '今', 'ま', 'た', '、', '日', '本', 'は', '少', '子', '高', '齢', '化', 'と', 'い', 'う', '『', '国', '難', '』', 'と', 'も', '呼', 'ぶ', 'べ', 'き', '危', '機', 'に', '直', '面', 'し', 'て', 'い', 'る', '。', 'も', 'う', '１', '度', '、', 'あ', 'ら', 'ゆ', 'る', '日', '本', '人', 'に', 'チ', 'ャ', 'ン', 'ス', 'を', '創', 'る', 'こ', 'と', 'で', '、', '少', '子', '高', '齢', '化', 'も', '克', '服', 'で', 'き', 'る', '」', 'と', '呼', 'び', 'か', 'け', 'ま', 'し', 'た', '。', '《', '働', 'き', '方', '改', '革', '》', '続', 'い', 'て', '安', '倍', '総', '理', '大', '臣', 'は', '、', '具', '体', '的', 'な', '政', '策', '課', '題', 'の', '最', '初', 'に', '「', '働', 'き', '方', '改', '革', '」', 'を', '取', 'り', '上', 'げ', '、', '「', '戦', '後', 'の', '労', '働', '基', '準', '法', '制', '定', '以', '来', '、', '７', '０', '年', 'ぶ', 'り', 'の', '大', '改', '革', 'だ', '。', '誰', 'も', 'が', '生', 'き', 'が', 'い', 'を', '感', 'じ', 'て', '、', 'そ', 'の', '能', '力', 'を', '思', 'う', '存', '分', '発', '揮', 'す', 'れ', 'ば', '少', '子', '高', '齢', '化', 'も', '克', '服', 'で', 'き', 'る', '」', 'と', '述', 'べ', 'ま', 'し', 'た', '。', 'そ', 'し', 'て', '、', '同', '一', '労', '働', '同', '一', '賃', '金', 'の', '実', '現', 'や', '、', '時', '間', '外', '労', '働', 'の', '上', '限', '規', '制', 'の', '導', '入', '、', 'そ', 'れ', 'に', '労', '働', '時', '間', 'で', 'な', 'く', '成', '果', 'で', '評', '価', 'す', 'る', 'と', 'し', 'て', '労', '働', '時', '間', 'の', '規', '制', 'か', 'ら', '外', 'す', '「', '高', '度', 'プ', 'ロ', 'フ', 'ェ', 'ッ', 'シ', 'ョ', 'ナ', 'ル', '制', '度', '」', 'の', '創', '設', 'な', 'ど', 'に', '取', 'り', '組', 'む', '考', 'え', 'を', '強', '調', 'し', 'ま', 'し', 'た', '。'] = true := by decide +kernel
-- tests/tests.rs:61
example : to_hiragana modernStd ['バ', 'ケ', 'ル'] = .ok ['ば', 'け', 'る'] := by decide +kernel
-- tests/tests.rs:65
example : to_katakana modernStd ['ば', 'け', 'る'] = .ok ['バ', 'ケ', 'ル'] := by decide +kernel
-- tests/tests.rs:70
example : to_katakana modernStd ['ス', 'タ', 'イ', 'ル'] = .ok ['ス', 'タ', 'イ', 'ル'] := by decide +kernel
-- tests/tests.rs:74
example : to_hiragana modernStd ['す', 'た', 'ー', 'い', 'る'] = .ok ['す', 'た', 'ー', 'い', 'る'] := by decide +kernel
-- tests/tests.rs:78
example : to_katakana modernStd ['ア', 'メ', 'リ', 'カ', 'じ', 'ん'] = .ok ['ア', 'メ', 'リ', 'カ', 'ジ', 'ン'] := by decide +kernel
-- tests/tests.rs:82
example : to_hiragana modernStd ['ア', 'メ', 'リ', 'カ', 'じ', 'ん'] = .ok ['あ', 'め', 'り', 'か', 'じ', 'ん'] := by decide +kernel
-- tests/tests.rs:89
example : to_hiragana modernStd ['バ', 'ツ', 'ゴ', 'ー'] = .ok ['ば', 'つ', 'ご', 'う'] := by decide +kernel
-- tests/tests.rs:93
example : to_katakana modernStd ['ば', 'つ', 'ゲ', 'ー', 'ム'] = .ok ['バ', 'ツ', 'ゲ', 'ー', 'ム'] := by decide +kernel
-- tests/tests.rs:97
example : to_hiragana modernStd ['ば', 'つ', 'げ', 'ー', 'む'] = .ok ['ば', 'つ', 'げ', 'ー', 'む'] := by decide +kernel
-- tests/tests.rs:101
example : to_katakana modernStd ['バ', 'ツ', 'ゲ', 'ー', 'ム'] = .ok ['バ', 'ツ', 'ゲ', 'ー', 'ム'] := by decide +kernel
-- tests/tests.rs:105
example : to_katakana modernStd ['バ', 'ツ', 'ゲ', 'ー', 'ム'] = .ok ['バ', 'ツ', 'ゲ', 'ー', 'ム'] := by decide +kernel
-- tests/tests.rs:109
example : to_katakana modernStd ['テ', 'ス', 'ー', 'と'] = .ok ['テ', 'ス', 'ー', 'ト'] := by decide +kernel
-- tests/tests.rs:113
example : to_hiragana modernStd ['て', 'す', 'ー', 'ト'] = .ok ['て', 'す', 'ー', 'と'] := by decide +kernel
-- tests/tests.rs:117
example : to_hiragana modernStd ['て', 'す', 'ー', '戸'] = .ok ['て', 'す', 'ー', '戸'] := by decide +kernel
-- tests/tests.rs:121
example : to_hiragana modernStd ['手', '巣', 'ー', 'ト'] = .ok ['手', '巣', 'ー', 'と'] := by decide +kernel
-- tests/tests.rs:125
example : to_hiragana modernStd ['t', 'e', 's', 'ー', 'ト'] = .ok ['て', 's', 'ー', 'と'] := by decide +kernel
-- tests/tests.rs:129
example : to_hiragana modernStd ['ー', 'ト', 't', 'e', 's', 'u'] = .ok ['ー', 'と', 'て', 'す'] := by decide +kernel
-- tests/tests.rs:137
example : to_hiragana_with_opt modernStd ['座', '禅', '‘', 'z', 'a', 'z', 'e', 'n', '’', 'ス', 'タ', 'イ', 'ル'] { pass_romaji := true } = .ok ['座', '禅', '‘', 'z', 'a', 'z', 'e', 'n', '’', 'す', 'た', 'い', 'る'] := by decide +kernel
-- tests/tests.rs:147
example : to_katakana_with_opt modernStd ['座', '禅', '‘', 'z', 'a', 'z', 'e', 'n', '’', 'す', 'た', 'い', 'る'] { pass_romaji := true } = .ok ['座', '禅', '‘', 'z', 'a', 'z', 'e', 'n', '’', 'ス', 'タ', 'イ', 'ル'] := by decide +kernel
-- tests/tests.rs:157
example : to_hiragana modernStd ['座', '禅', '‘', 'z', 'a', 'z', 'e', 'n', '’', 'ス', 'タ', 'イ', 'ル'] = .ok ['座', '禅', '「', 'ざ', 'ぜ', 'ん', '」', 'す', 'た', 'い', 'る'] := by decide +kernel
-- tests/tests.rs:164
example : to_katakana modernStd ['座', '禅', '‘', 'z', 'a', 'z', 'e', 'n', '’', 'す', 'た', 'い', 'る'] = .ok ['座', '禅', '「', 'ザ', 'ゼ', 'ン', '」', 'ス', 'タ', 'イ', 'ル'] := by decide +kernel
-- tests/tests.rs:177
example : to_hiragana modernStd ['a', 'i', 'u', 'e', 'o'] = to_hiragana modernStd ['A', 'I', 'U', 'E', 'O'] := by decide +kernel
-- tests/tests.rs:181
example : to_katakana modernStd ['a', 'i', 'u', 'e', 'o'] = to_katakana modernStd ['A', 'I', 'U', 'E', 'O'] := by decide +kernel
-- tests/tests.rs:185
example : to_kana modernStd ['a', 'i', 'u', 'e', 'o'] ≠ to_kana modernStd ['A', 'I', 'U', 'E', 'O'] := by decide +kernel
-- tests/tests.rs:194
example : to_kana modernStd ['n'] = .ok ['ん'] := by decide +kernel
-- tests/tests.rs:198
example : to_kana modernStd ['o', 'n', 'n'] = .ok ['お', 'ん', 'ん'] := by decide +kernel
-- tests/tests.rs:202
example : to_kana modernStd ['o', 'n', 'n', 'a'] = .ok ['お', 'ん', 'な'] := by decide +kernel
-- tests/tests.rs:206
example : to_kana modernStd ['n', 'n', 'n'] = .ok ['ん', 'ん', 'ん'] := by decide +kernel
-- tests/tests.rs:210
example : to_kana modernStd ['o', 'n', 'n', 'n', 'a'] = .ok ['お', 'ん', 'ん', 'な'] := by decide +kernel
-- tests/tests.rs:214
example : to_kana modernStd ['n', 'n', 'n', 'n'] = .ok ['ん', 'ん', 'ん', 'ん'] := by decide +kernel
-- tests/tests.rs:218
example : to_kana modernStd ['n', 'y', 'a', 'n'] = .ok ['に', 'ゃ', 'ん'] := by decide +kernel
-- tests/tests.rs:222
example : to_kana modernStd ['n', 'n', 'y', 'a', 'n', 'n'] = .ok ['ん', 'に', 'ゃ', 'ん', 'ん'] := by decide +kernel
-- tests/tests.rs:226
example : to_kana modernStd ['n', 'n', 'n', 'y', 'a', 'n', 'n', 'n'] = .ok ['ん', 'ん', 'に', 'ゃ', 'ん', 'ん', 'ん'] := by decide +kernel
-- tests/tests.rs:230
example : to_kana modernStd ['n', '\'', 'y', 'a'] = .ok ['ん', 'や'] := by decide +kernel
-- tests/tests.rs:234
example : to_kana modernStd ['k', 'i', 'n', '\'', 'y', 'a'] = .ok ['き', 'ん', 'や'] := by decide +kernel
-- tests/tests.rs:238
example : to_kana modernStd ['s', 'h', 'i', 'n', '\'', 'y', 'a'] = .ok ['し', 'ん', 'や'] := by decide +kernel
-- tests/tests.rs:242
example : to_kana modernStd ['k', 'i', 'n', 'y', 'o', 'u'] = .ok ['き', 'に', 'ょ', 'う'] := by decide +kernel
-- tests/tests.rs:246
example : to_kana modernStd ['k', 'i', 'n', '\'', 'y', 'o', 'u'] = .ok ['き', 'ん', 'よ', 'う'] := by decide +kernel
-- tests/tests.rs:250
example : to_kana modernStd ['k', 'i', 'n', '\'', 'y', 'u'] = .ok ['き', 'ん', 'ゆ'] := by decide +kernel
-- tests/tests.rs:254
example : to_kana modernStd ['i', 'c', 'h', 'i', 'b', 'a', 'n', ' ', 'w', 'a', 'r', 'u', 'i'] = .ok ['い', 'ち', 'ば', 'ん', ' ', 'わ', 'る', 'い'] := by decide +kernel
-- tests/tests.rs:263
example : to_kana modernStd ['c', 'h', 'y', 'a'] = .ok ['ち', 'ゃ'] := by decide +kernel
-- tests/tests.rs:267
example : to_kana modernStd ['c', 'h', 'y', 'x'] = .ok ['c', 'h', 'y', 'x'] := by decide +kernel
-- tests/tests.rs:271
example : to_kana modernStd ['s', 'h', 'y', 'p'] = .ok ['s', 'h', 'y', 'p'] := by decide +kernel
-- tests/tests.rs:275
example : to_kana modernStd ['l', 't', 's', 'b'] = .ok ['l', 't', 's', 'b'] := by decide +kernel
-- tests/tokenize.rs:17
example : tokenize ['ふ', 'ふ'] = [['ふ', 'ふ']] := by decide +kernel
-- tests/tokenize.rs:18
example : tokenize ['フ', 'フ'] = [['フ', 'フ']] := by decide +kernel
-- tests/tokenize.rs:19
example : tokenize ['ふ', 'ふ', 'フ', 'フ'] = [['ふ', 'ふ'], ['フ', 'フ']] := by decide +kernel
-- tests/tokenize.rs:20
example : tokenize ['阮', '咸'] = [['阮', '咸']] := by decide +kernel
-- tests/tokenize.rs:21
example : tokenize ['感', 'じ'] = [['感'], ['じ']] := by decide +kernel
-- tests/tokenize.rs:22
example : tokenize ['私', 'は', '悲', 'し', 'い'] = [['私'], ['は'], ['悲'], ['し', 'い']] := by decide +kernel
-- tests/tokenize.rs:23
example : tokenize ['o', 'k', ' ', 'ل', 'ن', 'ذ', 'ه', 'ب', '!'] = [['o', 'k'], [' '], ['ل', 'ن', 'ذ', 'ه', 'ب'], ['!']] := by decide +kernel
-- tests/tokenize.rs:24
example : tokenize ['w', 'h', 'a', 't', ' ', 't', 'h', 'e', '.', '.', '.', '私', 'は', '「', '悲', 'し', 'い', '」', '。'] = [['w', 'h', 'a', 't'], [' '], ['t', 'h', 'e'], ['.', '.', '.'], ['私'], ['は'], ['「'], ['悲'], ['し', 'い'], ['」', '。']] := by decide +kernel
-- tests/tokenize.rs:32
example : tokenize ['5', 'r', 'o', 'm', 'a', 'j', 'i', ' ', 'h', 'e', 'r', 'e', '.', '.', '.', '!', '?', '漢', '字', 'ひ', 'ら', 'が', 'な', 'カ', 'タ', '　', 'カ', 'ナ', '４', '「', 'Ｓ', 'Ｈ', 'Ｉ', 'Ｏ', '」', '。', '！'] = [['5'], ['r', 'o', 'm', 'a', 'j', 'i'], [' '], ['h', 'e', 'r', 'e'], ['.', '.', '.', '!', '?'], ['漢', '字'], ['ひ', 'ら', 'が', 'な'], ['カ', 'タ'], ['　'], ['カ', 'ナ'], ['４'], ['「'], ['Ｓ', 'Ｈ', 'Ｉ', 'Ｏ'], ['」', '。', '！']] := by decide +kernel
-- tests/tokenize.rs:55
example : tokenize_with_opt ['5', 'r', 'o', 'm', 'a', 'j', 'i', ' ', 'h', 'e', 'r', 'e', '.', '.', '.', '!', '?', '漢', '字', 'ひ', 'ら', 'が', 'な', 'カ', 'タ', '　', 'カ', 'ナ', '４', '「', 'Ｓ', 'Ｈ', 'Ｉ', 'Ｏ', '」', '。', '！', ' ', 'ل', 'ن', 'ذ', 'ه', 'ب'] true = [['5'], ['r', 'o', 'm', 'a', 'j', 'i', ' ', 'h', 'e', 'r', 'e'], ['.', '.', '.', '!', '?'], ['漢', '字', 'ひ', 'ら', 'が', 'な', 'カ', 'タ', '　', 'カ', 'ナ'], ['４', '「'], ['Ｓ', 'Ｈ', 'Ｉ', 'Ｏ'], ['」', '。', '！'], [' '], ['ل', 'ن', 'ذ', 'ه', 'ب']] := by decide +kernel
-- tests/tokenize.rs:76
example : tokenize_detailed ['5', 'r', 'o', 'm', 'a', 'j', 'i', ' ', 'h', 'e', 'r', 'e', '.', '.', '.', '!', '?', '漢', '字', 'ひ', 'ら', 'が', 'な', 'カ', 'タ', '　', 'カ', 'ナ', '４', '「', 'Ｓ', 'Ｈ', 'Ｉ', 'Ｏ', '」', '。', '！', ' ', 'ل', 'ن', 'ذ', 'ه', 'ب'] false = [(.EnNum, ['5']), (.En, ['r', 'o', 'm', 'a', 'j', 'i']), (.Space, [' ']), (.En, ['h', 'e', 'r', 'e']), (.EnPunc, ['.', '.', '.', '!', '?']), (.Kanji, ['漢', '字']), (.Hiragana, ['ひ', 'ら', 'が', 'な']), (.Katakana, ['カ', 'タ']), (.Space, ['　']), (.Katakana, ['カ', 'ナ']), (.JaNum, ['４']), (.JaPunc, ['「']), (.Ja, ['Ｓ', 'Ｈ', 'Ｉ', 'Ｏ']), (.JaPunc, ['」', '。', '！']), (.Space, [' ']), (.Other, ['ل', 'ن', 'ذ', 'ه', 'ب'])] := by decide +kernel
-- tests/tokenize.rs:104
example : tokenize_detailed ['5', 'r', 'o', 'm', 'a', 'j', 'i', ' ', 'h', 'e', 'r', 'e', '.', '.', '.', '!', '?', '漢', '字', 'ひ', 'ら', 'が', 'な', 'カ', 'タ', '　', 'カ', 'ナ', '４', '「', 'Ｓ', 'Ｈ', 'Ｉ', 'Ｏ', '」', '。', '！', ' ', 'ل', 'ن', 'ذ', 'ه', 'ب'] true = [(.Other, ['5']), (.En, ['r', 'o', 'm', 'a', 'j', 'i', ' ', 'h', 'e', 'r', 'e']), (.Other, ['.', '.', '.', '!', '?']), (.Ja, ['漢', '字', 'ひ', 'ら', 'が', 'な', 'カ', 'タ', '　', 'カ', 'ナ']), (.Other, ['４', '「']), (.Ja, ['Ｓ', 'Ｈ', 'Ｉ', 'Ｏ']), (.Other, ['」', '。', '！']), (.En, [' ']), (.Other, ['ل', 'ن', 'ذ', 'ه', 'ب'])] := by decide +kernel
-- tests/trim_okurigana.rs:11
example : trim_okurigana [] = .ok [] := by decide +kernel
-- tests/trim_okurigana.rs:16
example : trim_okurigana ['踏', 'み', '込', 'む'] = .ok ['踏', 'み', '込'] := by decide +kernel
-- tests/trim_okurigana.rs:17
example : trim_okurigana ['使', 'い', '方'] = .ok ['使', 'い', '方'] := by decide +kernel
-- tests/trim_okurigana.rs:18
example : trim_okurigana ['申', 'し', '申', 'し'] = .ok ['申', 'し', '申'] := by decide +kernel
-- tests/trim_okurigana.rs:19
example : trim_okurigana ['お', '腹'] = .ok ['お', '腹'] := by decide +kernel
-- tests/trim_okurigana.rs:20
example : trim_okurigana ['お', '祝', 'い'] = .ok ['お', '祝'] := by decide +kernel
-- tests/trim_okurigana.rs:25
example : trim_okurigana_with_opt ['踏', 'み', '込', 'む'] true none = .ok ['踏', 'み', '込', 'む'] := by decide +kernel
-- tests/trim_okurigana.rs:26
example : trim_okurigana_with_opt ['お', '腹'] true none = .ok ['腹'] := by decide +kernel
-- tests/trim_okurigana.rs:27
example : trim_okurigana_with_opt ['お', '祝', 'い'] true none = .ok ['祝', 'い'] := by decide +kernel
-- tests/trim_okurigana.rs:32
example : trim_okurigana_with_opt ['お', 'は', 'ら'] false (some ['お', '腹']) = .ok ['お', 'は', 'ら'] := by decide +kernel
-- tests/trim_okurigana.rs:36
example : trim_okurigana_with_opt ['お', 'は', 'ら'] true (some ['お', '腹']) = .ok ['は', 'ら'] := by decide +kernel
-- tests/trim_okurigana.rs:40
example : trim_okurigana_with_opt ['ふ', 'み', 'こ', 'む'] false (some ['踏', 'み', '込', 'む']) = .ok ['ふ', 'み', 'こ'] := by decide +kernel
-- tests/trim_okurigana.rs:44
example : trim_okurigana_with_opt ['お', 'み', 'ま', 'い'] true (some ['お', '祝', 'い']) = .ok ['み', 'ま', 'い'] := by decide +kernel

end WanaKana
