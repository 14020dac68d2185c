import Verif.Spec.ToRomaji
/-! # Specification: texts that survive a trip through romaji -/

namespace Spec

/-- kana whose romaji is converted back to the same kana.  Missing: small kana (only used in
contractions), ぢ and づ (written like じ and ず), and, unless obsolete kana are on, ゐ and ゑ. -/
def singleSyllables (obsolete : Bool) : List (List Char) :=
  (['あ', 'い', 'う', 'え', 'お', 'か', 'き', 'く', 'け', 'こ', 'が', 'ぎ', 'ぐ', 'げ', 'ご', 'さ', 'し',
    'す', 'せ', 'そ', 'ざ', 'じ', 'ず', 'ぜ', 'ぞ', 'た', 'ち', 'つ', 'て', 'と', 'だ', 'で', 'ど', 'な',
    'に', 'ぬ', 'ね', 'の']
    ++ ['は', 'ひ', 'ふ', 'へ', 'ほ', 'ば', 'び', 'ぶ', 'べ', 'ぼ', 'ぱ', 'ぴ', 'ぷ', 'ぺ', 'ぽ', 'ま', 'み',
    'む', 'め', 'も', 'や', 'ゆ', 'よ', 'ら', 'り', 'る', 'れ', 'ろ', 'わ', 'を', 'ん']
    ++ if obsolete then "ゐゑ".toList else []).map fun c => [c]

/-- contracted syllables: きゃ, しゅ, りょ … -/
def contractedSyllables : List (List Char) :=
  ['き', 'ぎ', 'し', 'じ', 'ち', 'に', 'ひ', 'び', 'ぴ', 'ふ', 'み', 'り'].flatMap fun k => ['ゃ', 'ぃ', 'ゅ', 'ぇ', 'ょ'].map fun y => [k, y]

/-- kana that can follow っ.  Missing: vowels, na-row, ya-row (the っ is lost in romaji), ち (tchi is not
converted back), ん, obsolete and small kana. -/
def afterSmallTsu : List Char :=
  ['か', 'き', 'く', 'け', 'こ', 'が', 'ぎ', 'ぐ', 'げ', 'ご', 'さ', 'し', 'す', 'せ', 'そ', 'ざ', 'じ',
    'ず', 'ぜ', 'ぞ', 'た', 'つ', 'て', 'と', 'だ', 'で', 'ど', 'は', 'ひ', 'ふ', 'へ', 'ほ', 'ば', 'び',
    'ぶ', 'べ', 'ぼ', 'ぱ', 'ぴ', 'ぷ', 'ぺ', 'ぽ', 'ま', 'み', 'む', 'め', 'も', 'ら', 'り', 'る', 'れ',
    'ろ', 'わ', 'を']

/-- regular hiragana syllables -/
def regularSyllables (obsolete : Bool) : List (List Char) :=
  let plain := singleSyllables obsolete ++ contractedSyllables
  plain ++ (plain.filter fun w => decide (w.head? ∈ afterSmallTsu.map some)).map fun w => 'っ' :: w

/-- Japanese marks with a Latin counterpart, except the wide space (which becomes a space) -/
def reversibleMarks : List Char := ['、', '。', '「', '」', '『', '』', '〜', '・', 'ー', '！', '（', '）', '：', '？', '［', '］', '｛',
    '｝']

/-- characters that neither `to_romaji` nor `to_kana` converts: kanji, digits, spaces, ヵ … -/
def Neutral (c : Char) : Prop :=
  ¬ Convertible c ∧ ¬ AsciiLetter c ∧ c ∉ ['!', '(', ')', ',', '-', '.', '/', ':', '?', '[', ']', '{', '}', '~', '‘', '’', '“',
    '”', '\'']

/-- a piece of text: a regular syllable in hiragana or (if `kata`) in katakana, a mark or a neutral
character -/
def RegularPiece (kata obsolete : Bool) (w : List Char) : Prop :=
  w ∈ regularSyllables obsolete ∨ (kata = true ∧ ∃ h ∈ regularSyllables obsolete, w = h.map toKata) ∨
    (∃ c ∈ reversibleMarks, w = [c]) ∨ ∃ c, Neutral c ∧ w = [c]

/-- the kana before which ん is written with an apostrophe -/
def vowelOrY : List Char := ['あ', 'い', 'う', 'え', 'お', 'や', 'ゆ', 'よ']

end Spec
