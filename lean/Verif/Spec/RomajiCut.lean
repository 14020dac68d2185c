import Verif.Spec.ToRomaji
/-! # Where a Japanese text may be cut before it is converted to romaji -/

namespace Spec

/-- the vowels and y-kana that make ん an apostrophe syllable (n'a … n'yo) -/
def afterN : List Char := ['あ', 'い', 'う', 'え', 'お', 'や', 'ゆ', 'よ']

/-- the small kana that merge with the syllable in front of them -/
def smallKana : List Char := ['ぃ', 'ぇ', 'ゃ', 'ゅ', 'ょ']

/-- The last kana `x` (as hiragana) and the next kana `y` (as hiragana) are never romanized together: `x` is
not っ in front of something to double, not ん in front of a vowel or y-kana, and `y` is not a small kana. -/
def SyllableBreak (x y : Char) : Prop :=
  (x = 'っ' → ¬ Convertible y) ∧ (x = 'ん' → y ∉ afterN) ∧ y ∉ smallKana

/-- the hiragana form of `a` that `to_romaji` works on -/
def hiraganaForm (a : List Char) : List Char := hiraFromV 'u' true [] a

/-- A text may be cut between `a` and `b`: the kana at the cut are not romanized together, and no long vowel
mark at the beginning of `b` prolongs a katakana letter of `a`. -/
structure CutPoint (a b : List Char) : Prop where
  syllables : ∀ x y, (hiraganaForm a).getLast? = some x → b.head? = some y → SyllableBreak x (toHira y)
  marks : ∀ g, governing a = some g → KatakanaLetter g → 'ー' ∉ b.takeWhile fun c => decide (c ∈ chain)

end Spec
