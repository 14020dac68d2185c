import Verif.Spec.RomajiCut
/-! # Which neighbouring characters are romanized together -/

namespace Spec

/-- hiragana that merge with a following small kana -/
def contractionHeads : List Char := "きぎくしじちぢにひびぴふみりゔ".toList

/-- hiragana whose romaji changes after っ: a consonant that is doubled, or the apostrophe of ん that is lost -/
def changedBySokuon : List Char :=
  ("かきくけこがぎぐげごさしすせそざじずぜぞたちつてとだぢづでど" ++
   "はひふへほばびぶべぼぱぴぷぺぽまみむめもらりるれろわゐゑをゔん").toList

/-- `x` directly before `y` can make a difference to the romaji: a ー may prolong a katakana letter across the
cut, っ may double a consonant, ん may get an apostrophe, a small kana may merge.  After ー everything that can happen
after っ and ん can happen, as the ー of ッー and ンー is lost. -/
def Joined (x y : Char) : Prop :=
  (y ∈ chain ∧ (x ∈ chain ∨ KatakanaLetter x)) ∨
  ((toHira x = 'っ' ∨ x = 'ー') ∧ toHira y ∈ changedBySokuon) ∨
  ((toHira x = 'ん' ∨ x = 'ー') ∧ toHira y ∈ afterN) ∨
  (toHira x ∈ contractionHeads ∧ toHira y ∈ smallKana)

instance (x y : Char) : Decidable (Joined x y) := by unfold Joined KatakanaLetter; infer_instance

end Spec
