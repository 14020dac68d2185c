import Verif.Spec.KanaShift
/-! # Texts whose hiragana depend on the standard library -/

namespace Spec

/-- a long vowel mark of `s` prolongs ヴ -/
def ProlongedVu (s : List Char) : Prop := ∃ pre post, s = pre ++ 'ー' :: post ∧ governing pre = some 'ヴ'

end Spec
