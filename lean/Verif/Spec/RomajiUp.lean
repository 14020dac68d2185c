import Verif.Spec.RomajiVu
/-! # When a text can be converted to romaji piece by piece, with katakana in capitals -/

namespace Spec

/-- hiragana in front of which っ is lost without a trace: vowels, y and n -/
def unchangedBySokuon : List Char := "ぁあぃいぅうぇえぉおなにぬねのゃやゅゆょよん".toList

/-- `a` ends in a hiragana っ that is lost in front of the first syllable of `b`, which is in katakana: together the two are
not all katakana, so the syllable is not in capitals -/
def Spoiled (a b : List Char) : Prop :=
  a.getLast? = some 'っ' ∧ ∃ c, b.head? = some c ∧ Katakana c ∧ toHira c ∈ unchangedBySokuon ∧
    (c = 'ニ' → ∀ k, b[1]? = some k → toHira k ∈ smallKana → Katakana k)

/-- The two texts are not romanized independently of each other if katakana are put in capitals; ゔ is written `v` and `x`,
and after っ `vv` and `y`. -/
def MergedUp (x y : Char) (a b : List Char) : Prop := MergedV x y a b ∨ Spoiled a b

end Spec
