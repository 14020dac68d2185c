/-! # Specification of the romaji → kana table

The romanization rules (Hepburn, Kunrei and Nihon-shiki spellings, IME spellings of small
kana, doubled consonants), written as rules, independently of the node tree of
`src/to_kana_node_tree.rs`.  A table is a list of (romaji, kana) rows; the first row with a
given romaji counts. -/

namespace Spec

/-- rows of a table -/
abbrev Table := List (List Char × List Char)

/-- a row, written with string literals -/
def row (r k : String) : List Char × List Char := (r.toList, k.toList)

/-- prefix the romaji and the kana of each row -/
def Table.under (r k : String) (t : Table) : Table :=
  t.map fun x => (r.toList ++ x.1, k.toList ++ x.2)

/-- five kana for the vowels a i u e o -/
def aiueo (a i u e o : String) : Table :=
  [row "a" a, row "i" i, row "u" u, row "e" e, row "o" o]

/-- the gojūon with voiced rows -/
def gojuon : Table :=
  aiueo "あ" "い" "う" "え" "お"
  ++ (aiueo "か" "き" "く" "け" "こ").under "k" ""
  ++ (aiueo "さ" "し" "す" "せ" "そ").under "s" ""
  ++ (aiueo "た" "ち" "つ" "て" "と").under "t" ""
  ++ (aiueo "な" "に" "ぬ" "ね" "の").under "n" ""
  ++ (aiueo "は" "ひ" "ふ" "へ" "ほ").under "h" ""
  ++ (aiueo "ま" "み" "む" "め" "も").under "m" ""
  ++ (aiueo "や" "い" "ゆ" "いぇ" "よ").under "y" ""
  ++ (aiueo "ら" "り" "る" "れ" "ろ").under "r" ""
  ++ (aiueo "わ" "うぃ" "う" "うぇ" "を").under "w" ""
  ++ (aiueo "が" "ぎ" "ぐ" "げ" "ご").under "g" ""
  ++ (aiueo "ざ" "じ" "ず" "ぜ" "ぞ").under "z" ""
  ++ (aiueo "だ" "ぢ" "づ" "で" "ど").under "d" ""
  ++ (aiueo "ば" "び" "ぶ" "べ" "ぼ").under "b" ""
  ++ (aiueo "ぱ" "ぴ" "ぷ" "ぺ" "ぽ").under "p" ""
  ++ (aiueo "ゔぁ" "ゔぃ" "ゔ" "ゔぇ" "ゔぉ").under "v" ""

/-- small vowels -/
def smallVowels : Table := aiueo "ぁ" "ぃ" "ぅ" "ぇ" "ぉ"

/-- small ya-row -/
def smallY : Table := aiueo "ゃ" "ぃ" "ゅ" "ぇ" "ょ"

/-- きゃ, にゅ, りょ …: a kana of the i-column and a small ya-row kana -/
def contracted : Table :=
  smallY.under "ky" "き" ++ smallY.under "sy" "し" ++ smallY.under "ty" "ち"
  ++ smallY.under "ny" "に" ++ smallY.under "hy" "ひ" ++ smallY.under "my" "み"
  ++ smallY.under "ry" "り" ++ smallY.under "gy" "ぎ" ++ smallY.under "zy" "じ"
  ++ smallY.under "dy" "ぢ" ++ smallY.under "by" "び" ++ smallY.under "py" "ぴ"
  ++ smallY.under "vy" "ゔ" ++ smallY.under "qy" "く" ++ smallY.under "fy" "ふ"

/-- くぁ, つぇ, てぃ …: a kana and a small vowel; with their irregular members -/
def extended : Table :=
  [row "fu" "ふ", row "tsu" "つ", row "whu" "う", row "kwa" "くぁ",
   row "tha" "てゃ", row "thu" "てゅ", row "tho" "てょ",
   row "dha" "でゃ", row "dhu" "でゅ", row "dho" "でょ"]
  ++ smallVowels.under "f" "ふ" ++ smallVowels.under "fw" "ふ" ++ smallVowels.under "ts" "つ"
  ++ smallVowels.under "wh" "う" ++ smallVowels.under "q" "く" ++ smallVowels.under "qw" "く"
  ++ smallVowels.under "gw" "ぐ" ++ smallVowels.under "sw" "す" ++ smallVowels.under "th" "て"
  ++ smallVowels.under "tw" "と" ++ smallVowels.under "dh" "で" ++ smallVowels.under "dw" "ど"

/-- Hepburn and other spellings of しゃ, ちゃ, じゃ and of the ka-row with c -/
def aliases : Table :=
  [row "shi" "し", row "chi" "ち", row "ji" "じ"]
  ++ smallY.under "sh" "し" ++ smallY.under "shy" "し"
  ++ smallY.under "ch" "ち" ++ smallY.under "chy" "ち" ++ smallY.under "cy" "ち"
  ++ smallY.under "j" "じ" ++ smallY.under "jy" "じ"
  ++ (aiueo "か" "き" "く" "け" "こ").under "c" ""

/-- everything that can be doubled -/
def syllables : Table := gojuon ++ contracted ++ extended ++ aliases

/-- letters that double to っ (all consonants except n and the small-kana prefixes l, x) -/
def doubling : List Char := "bcdfghjkmpqrstvwyz".toList

/-- っ + a syllable, written by doubling its first consonant -/
def doubled : Table :=
  (syllables.filter fun x => match x.1 with
    | c :: _ => doubling.contains c
    | [] => false).map
    fun x => (x.1.take 1 ++ x.1, 'っ' :: x.2)

/-- small kana after l or x -/
def small : Table :=
  smallVowels ++ smallY.under "y" "" ++
  [row "tu" "っ", row "tsu" "っ", row "wa" "ゎ", row "ka" "ヵ", row "ca" "ヵ", row "ke" "ヶ", row "ce" "ヶ"]

/-- punctuation -/
def symbols : Table :=
  [row "." "。", row "," "、", row ":" "：", row "/" "・", row "!" "！", row "?" "？",
   row "~" "〜", row "-" "ー", row "‘" "「", row "’" "」", row "“" "『", row "”" "』",
   row "[" "［", row "]" "］", row "(" "（", row ")" "）", row "{" "｛", row "}" "｝"]

/-- everything but a single n -/
def common : Table :=
  syllables ++ doubled ++ small.under "l" "" ++ small.under "x" "" ++ symbols
  ++ [row "n'" "ん", row "xn" "ん"]

/-- the default table -/
def normalTable : Table := row "n" "ん" :: common

/-- with obsolete kana -/
def obsoleteTable : Table := row "wi" "ゐ" :: row "we" "ゑ" :: normalTable

/-- while typing: a single n waits for the next key -/
def imeTable : Table := row "nn" "ん" :: row "n " "ん" :: common

end Spec
