import Verif.Spec.KanaShift
/-! # Long vowel marks that are romanized differently once the katakana are hiragana -/

namespace Spec

/-- a long vowel mark of `s` prolongs a katakana letter ending in o; ヴ counts if its vowel `x` is o -/
def ProlongedO (x : Char) (s : List Char) : Prop := ∃ a b g, s = a ++ 'ー' :: b ∧ governing a = some g ∧
  KatakanaLetter g ∧ (toHira g ∈ columnO ∨ g = 'ヴ' ∧ x = 'o')

/-- a long vowel mark of `s` prolongs a hiragana letter -/
def ProlongedHiragana (s : List Char) : Prop := ∃ a b g, s = a ++ 'ー' :: b ∧ governing a = some g ∧ HiraganaLetter g

end Spec
