import Verif.Spec.Canonical
import Verif.Spec.Latin
/-! # Specification: canonical romaji, Latin letters and apostrophes included (C115) -/

namespace Spec

/-- Canonical romaji, read from the left: a romaji of the kana → romaji table or a character that is not converted, an n
that is not continued, an apostrophe, or a Latin letter that `to_kana` does not read in this place. -/
inductive CanonicalText (table : Table) (obsolete : Bool) : List Char → Prop
  | nil : CanonicalText table obsolete []
  | piece {u r : List Char} : CanonicalPiece obsolete u → u ≠ ['n'] → CanonicalText table obsolete r →
      CanonicalText table obsolete (u ++ r)
  | n {r : List Char} : (∀ d, r.head? = some d → d ∉ "aiueoyAIUEOY'".toList) → CanonicalText table obsolete r →
      CanonicalText table obsolete ('n' :: r)
  | quote {r : List Char} : CanonicalText table obsolete r → CanonicalText table obsolete ('\'' :: r)
  | letter {c : Char} {r : List Char} : AsciiLetter c → StaysLetter table c r → CanonicalText table obsolete r →
      CanonicalText table obsolete (c :: r)

end Spec
