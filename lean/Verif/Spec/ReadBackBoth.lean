import Verif.Spec.RoundTrip
import Verif.Spec.Latin
/-! # Texts in both scripts that are read back from their romaji, Latin letters and apostrophes included (C117) -/

namespace Spec

/-- Regular syllables, each wholly in hiragana or wholly in katakana, Japanese marks, characters that are not converted,
Latin letters and apostrophes; ん and the vowel or y-kana after it in hiragana; ん and ン not continued by a letter or an
apostrophe; no long vowel mark that prolongs katakana; and no letter that is read as kana together with the `romaji` of
what follows. -/
structure ReadBackBoth (table : Table) (obsolete : Bool) (romaji : List Char → List Char → Prop) (s : List Char) : Prop where
  words : ∃ ws : List (List Char), s = ws.flatten ∧ ∀ w ∈ ws, RegularPiece true obsolete w ∨ LatinPiece w
  nasal : ∀ a x y b, s = a ++ x :: y :: b → toHira x = 'ん' → toHira y ∈ vowelOrY → x = 'ん' ∧ ¬ Katakana y
  marks : ∀ a b, s = a ++ 'ー' :: b → ∀ g, governing a = some g → ¬ KatakanaLetter g
  open_ : ∀ a x d b, s = a ++ x :: d :: b → toHira x = 'ん' → d ∉ ['y', 'Y', '\'']
  letters : ∀ a c b t, s = a ++ c :: b → AsciiLetter c → romaji b t → StaysLetter table c t

end Spec
