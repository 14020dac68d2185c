import Verif.Spec.Canonical
import Verif.Spec.Latin
/-! # Specification: canonical romaji with katakana in capitals (C132) -/

namespace Spec

/-- Canonical romaji with katakana in capitals, read from the left; `k` says whether the kana before is katakana (one looks
past - / ヵ ヶ).  A romaji of the kana → romaji table, or the same in capitals if it consists of letters; a character that is
not converted; an n or N that is not continued; an apostrophe; a Latin letter that `to_kana` does not read in this place;
and - only where it does not prolong katakana. -/
inductive CanonicalUp (table : Table) (obsolete : Bool) : Bool → List Char → Prop
  | nil {k : Bool} : CanonicalUp table obsolete k []
  | hira {k : Bool} {u r : List Char} : CanonicalPiece obsolete u → u ∉ [[], ['n'], ['-'], ['/'], ['ヵ'], ['ヶ']] →
      CanonicalUp table obsolete false r → CanonicalUp table obsolete k (u ++ r)
  | kata {k : Bool} {u r : List Char} : CanonicalPiece obsolete u → (∀ c ∈ u, AsciiLetter c) → u ∉ [[], ['n']] →
      CanonicalUp table obsolete true r → CanonicalUp table obsolete k (u.map asciiUpper ++ r)
  | mark {k : Bool} {c : Char} {r : List Char} : c ∈ ['-', '/', 'ヵ', 'ヶ'] → (c = '-' → k = false) →
      CanonicalUp table obsolete k r → CanonicalUp table obsolete k (c :: r)
  | n {k : Bool} {c : Char} {r : List Char} : c ∈ ['n', 'N'] → (∀ d, r.head? = some d → d ∉ "aiueoyAIUEOY'".toList) →
      CanonicalUp table obsolete (c == 'N') r → CanonicalUp table obsolete k (c :: r)
  | quote {k : Bool} {r : List Char} : CanonicalUp table obsolete false r → CanonicalUp table obsolete k ('\'' :: r)
  | letter {k : Bool} {c : Char} {r : List Char} : AsciiLetter c → StaysLetter table c r →
      CanonicalUp table obsolete false r → CanonicalUp table obsolete k (c :: r)

end Spec
