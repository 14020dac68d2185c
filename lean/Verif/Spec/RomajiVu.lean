import Verif.Spec.RomajiPieces
/-! # When a text with ゔ can be converted to romaji piece by piece

The tree lists ゔ five times, so the romaji of ゔ depends on the entry that the search of the standard library finds; only
the entry for `vu` merges with small kana. -/

namespace Spec

/-- `MergedKana`, where ゔ is written `v` and `x`, and after っ `vv` and `y` -/
def MergedKanaV (x y : Char) (z w : List Char) : Prop :=
  MergedKana z w ∧ (z.getLast? = some 'ゔ' → if z.dropLast.getLast? = some 'っ' then y = 'u' else x = 'u')

/-- `Merged`, where ゔ is written `v` and `x`, and after っ `vv` and `y` -/
def MergedV (x y : Char) (a b : List Char) : Prop :=
  Prolonged a b ∨ MergedKanaV x y (hiraganaForm a) (hiraganaForm b)

end Spec
