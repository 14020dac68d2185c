import Verif.Spec.RoundTrip
import Verif.Spec.Latin
/-! # Texts that are read back from their romaji, Latin letters and apostrophes included (C116) -/

namespace Spec

/-- The conditions of C112: regular hiragana syllables, Japanese marks, characters that are not converted, Latin letters
and apostrophes; no ん that is continued; and no letter that is read as kana together with the `romaji` of what
follows. -/
structure ReadBack (table : Table) (obsolete : Bool) (romaji : List Char → List Char → Prop) (s : List Char) : Prop where
  words : ∃ ws : List (List Char), s = ws.flatten ∧ ∀ w ∈ ws, RegularPiece false obsolete w ∨ LatinPiece w
  nasal : ∀ a d b, s = a ++ 'ん' :: d :: b → d ∉ ['y', 'Y', '\'']
  letters : ∀ a c b t, s = a ++ c :: b → AsciiLetter c → romaji b t → StaysLetter table c t

end Spec
