import Verif.Spec.KanaShift
/-! # Specification of the kana → romaji table (Hepburn) and of greedy transliteration

Written as rules, independently of the node tree of `src/to_romaji_node_tree.rs`.  ゔ is treated
apart (`vuRows`): the tree lists it five times with different romaji. -/

namespace Spec

/-- one romaji row: consonant and the kana of its five vowels (`・` for a missing one) -/
def romajiRow (c : String) (kana : String) : Table :=
  (kana.toList.zip "aiueo".toList).filterMap fun x =>
    if x.1 = '・' then none else some ([x.1], c.toList ++ [x.2])

/-- single kana -/
def singleKana : Table :=
  romajiRow "" "あいうえお" ++ romajiRow "" "ぁぃぅぇぉ"
  ++ romajiRow "k" "かきくけこ" ++ romajiRow "g" "がぎぐげご"
  ++ romajiRow "s" "さ・すせそ" ++ romajiRow "sh" "・し・・・"
  ++ romajiRow "z" "ざ・ずぜぞ" ++ romajiRow "j" "・じ・・・"
  ++ romajiRow "t" "た・・てと" ++ romajiRow "ch" "・ち・・・" ++ romajiRow "ts" "・・つ・・"
  ++ romajiRow "d" "だ・・でど" ++ romajiRow "j" "・ぢ・・・" ++ romajiRow "z" "・・づ・・"
  ++ romajiRow "n" "なにぬねの" ++ romajiRow "h" "はひ・へほ" ++ romajiRow "f" "・・ふ・・"
  ++ romajiRow "b" "ばびぶべぼ" ++ romajiRow "p" "ぱぴぷぺぽ" ++ romajiRow "m" "まみむめも"
  ++ romajiRow "y" "や・ゆ・よ" ++ romajiRow "y" "ゃ・ゅ・ょ" ++ romajiRow "r" "らりるれろ"
  ++ romajiRow "w" "わゐ・ゑを" ++ romajiRow "w" "ゎ・・・・"

/-- a kana followed by a small kana; `c` is the contracted consonant.  The i-form always has a y. -/
def contractedKana (k c ci : String) : Table :=
  [row (k ++ "ゃ") (c ++ "a"), row (k ++ "ぃ") (ci ++ "i"), row (k ++ "ゅ") (c ++ "u"),
   row (k ++ "ぇ") (c ++ "e"), row (k ++ "ょ") (c ++ "o")]

/-- きゃ, しゅ, りょ … -/
def contractions : Table :=
  contractedKana "き" "ky" "ky" ++ contractedKana "ぎ" "gy" "gy" ++ contractedKana "く" "ky" "ky"
  ++ contractedKana "し" "sh" "shy" ++ contractedKana "じ" "j" "jy"
  ++ contractedKana "ち" "ch" "chy" ++ contractedKana "ぢ" "j" "jy"
  ++ contractedKana "に" "ny" "ny" ++ contractedKana "ひ" "hy" "hy" ++ contractedKana "び" "by" "by"
  ++ contractedKana "ぴ" "py" "py" ++ contractedKana "ふ" "fy" "fy" ++ contractedKana "み" "my" "my"
  ++ contractedKana "り" "ry" "ry"

/-- Japanese punctuation -/
def japaneseMarks : Table :=
  [row "　" " ", row "、" ",", row "。" ".", row "「" "‘", row "」" "’", row "『" "“", row "』" "”",
   row "〜" "~", row "・" "/", row "ー" "-", row "！" "!", row "（" "(", row "）" ")", row "：" ":",
   row "？" "?", row "［" "[", row "］" "]", row "｛" "{", row "｝" "}"]

/-- romaji after っ: the first consonant is doubled (ch becomes tch); n, y, vowels and
punctuation are not doubled, the っ is then lost -/
def afterSokuon : List Char → List Char
  | 'c' :: r => 't' :: 'c' :: r
  | c :: r => if c ∈ "kgsztdhfbpmrwj".toList then c :: c :: r else c :: r
  | [] => []

/-- everything that may follow っ: all of the above but ゎ, and ん -/
def sokuonBase : Table :=
  (singleKana.filter fun x => x.1 ≠ ['ゎ']) ++ contractions ++ japaneseMarks ++ [row "ん" "n"]

/-- ん before a vowel or the ya-row is separated by an apostrophe -/
def nBefore : Table :=
  [row "んあ" "n'a", row "んい" "n'i", row "んう" "n'u", row "んえ" "n'e", row "んお" "n'o",
   row "んや" "n'ya", row "んゆ" "n'yu", row "んよ" "n'yo"]

/-- the kana → romaji table -/
def kanaTable : Table :=
  singleKana ++ contractions ++ japaneseMarks ++ [row "ん" "n", row "っ" ""] ++ nBefore
  ++ sokuonBase.map fun x => ('っ' :: x.1, afterSokuon x.2)

/-- the rows for ゔ when the search finds the node with vowel `x`: only the u-node has contractions -/
def vuRows (x : Char) : Table :=
  if x = 'u' then row "ゔ" "vu" :: contractedKana "ゔ" "vy" "vy" else [(['ゔ'], ['v', x])]

/-- the whole table: `x` is the vowel found for ゔ, `y` the one found for っゔ -/
def kanaTableV (x y : Char) : Table :=
  kanaTable ++ (vuRows x ++ (vuRows y).map fun r => ('っ' :: r.1, 'v' :: r.2))

/-- a hiragana text with, for every character, whether it was katakana originally -/
abbrev Marked := List (Char × Bool)

/-- `q` is the longest prefix of `l` that is a key of the table. -/
structure LongestKey (t : Table) (l q : List Char) : Prop where
  isPrefix : q <+: l
  key : (t.lookup q).isSome
  longest : ∀ q', q' <+: l → (t.lookup q').isSome → q'.length ≤ q.length

/-- `Romanized t up s r`: scanning the hiragana `s` from the left, always taking the longest key of
the table `t`, produces `r`; with `up` the romaji of what was entirely katakana is in capitals.  Characters
without an entry are copied. -/
inductive Romanized (t : Table) (up : Bool) : Marked → List Char → Prop
  | nil : Romanized t up [] []
  | hit {s : Marked} {q out r : List Char} : LongestKey t (s.map Prod.fst) q →
      t.lookup q = some out → Romanized t up (s.drop q.length) r →
      Romanized t up s ((if up = true ∧ ∀ x ∈ s.take q.length, x.2 = true then out.map asciiUpper else out) ++ r)
  | miss {x : Char × Bool} {s : Marked} {r : List Char} :
      (∀ q, q <+: (x :: s).map Prod.fst → t.lookup q = none) → Romanized t up s r →
      Romanized t up (x :: s) (x.1 :: r)

/-- characters that `to_romaji` converts: all kana except the symbols ヵ ヶ ゕ ゖ, and the
Japanese punctuation listed above -/
def Convertible (c : Char) : Prop :=
  (Kana c ∧ c ∉ ['ヵ', 'ヶ', 'ゕ', 'ゖ']) ∨ c ∈ japaneseMarks.flatMap fun x => x.1

/-- the hiragana form with the script of the original character *at the same position* -/
def marked (s : List Char) : Marked :=
  (hiraFrom true [] s).zip (s.map fun c => decide (Katakana c))

/-- the same if ゔ is taken to end in the vowel `x` -/
def markedV (x : Char) (s : List Char) : Marked :=
  (hiraFromV x true [] s).zip (s.map fun c => decide (Katakana c))

/-- a piece of text, its hiragana form, and its plain romaji -/
structure Segment where
  orig : List Char
  hira : List Char
  romaji : List Char

/-- the romaji of a segment is the table entry of its hiragana, or the segment is a single
character that was copied -/
def Segment.Valid (t : Table) (g : Segment) : Prop :=
  g.orig.length = g.hira.length ∧
    (t.lookup g.hira = some g.romaji ∨ ∃ c, g.hira = [c] ∧ g.romaji = [c] ∧ ¬ Convertible c)

/-- capitals exactly for all-katakana segments; copied characters are copied -/
def Segment.cased (t : Table) (g : Segment) : List Char :=
  if t.lookup g.hira = some g.romaji ∧ ∀ c ∈ g.orig, Katakana c
  then g.romaji.map asciiUpper else g.romaji

end Spec
