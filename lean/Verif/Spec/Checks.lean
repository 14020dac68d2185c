import Verif.Spec.ToKana
/-! # Characters of texts that can become pure kana -/

namespace Spec

/-- kana, Latin letters, `-` (ー), `/` (・), and the apostrophe and space that can follow `n` -/
def KanaText (c : Char) : Prop := Kana c ∨ AsciiLetter c ∨ c ∈ ['-', '/', '\'', ' ']

instance (c : Char) : Decidable (KanaText c) := by unfold KanaText; infer_instance

/-- nothing but っ, and ッ with the long vowel marks behind it -/
inductive OnlySokuon : List Char → Prop
  | nil : OnlySokuon []
  | hira {s : List Char} : OnlySokuon s → OnlySokuon ('っ' :: s)
  | kata (n : Nat) {s : List Char} : OnlySokuon s → OnlySokuon ('ッ' :: (List.replicate n 'ー' ++ s))

end Spec
