import Verif.Spec.CanonicalUp
import Verif.Spec.RomajiTable
/-! # Specification: canonical romaji with katakana in capitals, in IME mode (C134) -/

namespace Spec

/-- Canonical romaji with katakana in capitals in IME mode, read from the left; `k` says whether the kana before is katakana
(one looks past - / ヵ ヶ).  A romaji of the kana → romaji table other than n, or the same in capitals if it consists of
letters; a character that is not converted; an apostrophe; a Latin letter at which no key of the IME table begins; and - only
where it does not prolong katakana. -/
inductive CanonicalUpIme : Bool → List Char → Prop
  | nil {k : Bool} : CanonicalUpIme k []
  | hira {k : Bool} {u r : List Char} : CanonicalPiece false u → u ∉ [[], ['n'], ['-'], ['/'], ['ヵ'], ['ヶ']] →
      CanonicalUpIme false r → CanonicalUpIme k (u ++ r)
  | kata {k : Bool} {u r : List Char} : CanonicalPiece false u → (∀ c ∈ u, AsciiLetter c) → u ∉ [[], ['n']] →
      CanonicalUpIme true r → CanonicalUpIme k (u.map asciiUpper ++ r)
  | mark {k : Bool} {c : Char} {r : List Char} : c ∈ ['-', '/', 'ヵ', 'ヶ'] → (c = '-' → k = false) →
      CanonicalUpIme k r → CanonicalUpIme k (c :: r)
  | quote {k : Bool} {r : List Char} : CanonicalUpIme false r → CanonicalUpIme k ('\'' :: r)
  | letter {k : Bool} {c : Char} {r : List Char} : AsciiLetter c →
      (∀ key ∈ imeTable, ¬ key.1 <+: (c :: r).map asciiLower) → CanonicalUpIme false r → CanonicalUpIme k (c :: r)

end Spec
