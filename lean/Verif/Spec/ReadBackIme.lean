import Verif.Spec.RoundTrip
import Verif.Spec.Latin
import Verif.Spec.ConversionTable
/-! # Texts that are read back from their romaji in IME mode (C126, C128) -/

namespace Spec

/-- The conditions of C123: regular hiragana syllables, Japanese marks, characters that are not converted, Latin letters
and apostrophes; every ん directly before a vowel or や ゆ よ; and no letter at which a key of the `table` of IME mode
begins, together with the `romaji` of what follows. -/
structure ReadBackIme (table : Table) (romaji : List Char → List Char → Prop) (s : List Char) : Prop where
  words : ∃ ws : List (List Char), s = ws.flatten ∧ ∀ w ∈ ws, RegularPiece false false w ∨ LatinPiece w
  nasal : ∀ a b, s = a ++ 'ん' :: b → ∃ d, b.head? = some d ∧ d ∈ vowelOrY
  letters : ∀ a c b t, s = a ++ c :: b → AsciiLetter c → romaji b t → ∀ k ∈ table, ¬ k.1 <+: (c :: t).map asciiLower

/-- The same with `upcase_katakana` (C128): syllables wholly in hiragana or wholly in katakana; every ん and ン is ん
directly before a vowel or や ゆ よ in hiragana; no long vowel mark that prolongs katakana; and the letters as before. -/
structure ReadBackBothIme (table : Table) (romaji : List Char → List Char → Prop) (s : List Char) : Prop where
  words : ∃ ws : List (List Char), s = ws.flatten ∧ ∀ w ∈ ws, RegularPiece true false w ∨ LatinPiece w
  nasal : ∀ a x b, s = a ++ x :: b → toHira x = 'ん' → x = 'ん' ∧ ∃ d, b.head? = some d ∧ d ∈ vowelOrY
  marks : ∀ a b, s = a ++ 'ー' :: b → ∀ g, governing a = some g → ¬ KatakanaLetter g
  letters : ∀ a c b t, s = a ++ c :: b → AsciiLetter c → romaji b t → ∀ k ∈ table, ¬ k.1 <+: (c :: t).map asciiLower

end Spec
