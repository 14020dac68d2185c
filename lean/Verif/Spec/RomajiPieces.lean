import Verif.Spec.RomajiPairs
/-! # When a text can be converted to romaji piece by piece -/

namespace Spec

/-- The hiragana `z` and `w` are romanized together where they meet: a small っ doubles the consonant of `w` (in front of
ん it takes the apostrophe away that ん would get), ん gets an apostrophe (unless it follows っ directly), or a small kana
merges. -/
def MergedKana (z w : List Char) : Prop :=
  ∃ x y, z.getLast? = some x ∧ w.head? = some y ∧
    (x = 'っ' ∧ y ∈ changedBySokuon ∧ (y = 'ん' → ∃ u ∈ afterN, w[1]? = some u) ∨
     x = 'ん' ∧ y ∈ afterN ∧ z.dropLast.getLast? ≠ some 'っ' ∨
     x ∈ contractionHeads ∧ y ∈ smallKana)

/-- A long vowel mark among the first characters of `b` prolongs (or is lost after) a katakana letter of `a`. -/
def Prolonged (a b : List Char) : Prop :=
  ∃ g, governing a = some g ∧ KatakanaLetter g ∧ 'ー' ∈ b.takeWhile fun c => decide (c ∈ chain)

/-- The two texts are not romanized independently of each other. -/
def Merged (a b : List Char) : Prop := Prolonged a b ∨ MergedKana (hiraganaForm a) (hiraganaForm b)

/-- `a` ends in ゔ and `b` begins with a small kana: whether they merge is not determined (the tree lists ゔ five
times). -/
def VuMeetsSmall (a b : List Char) : Prop :=
  (hiraganaForm a).getLast? = some 'ゔ' ∧ ∃ y ∈ smallKana, (hiraganaForm b).head? = some y

end Spec
