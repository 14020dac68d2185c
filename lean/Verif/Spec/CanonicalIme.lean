import Verif.Spec.Canonical
import Verif.Spec.RomajiTable
/-! # Specification: canonical romaji in IME mode (C124) -/

namespace Spec

/-- Canonical romaji in IME mode, read from the left: a romaji of the kana → romaji table other than n or a character
that is not converted, an apostrophe, or a Latin letter at which no key of the IME table begins. -/
inductive CanonicalIme : List Char → Prop
  | nil : CanonicalIme []
  | piece {u r : List Char} : CanonicalPiece false u → u ≠ ['n'] → CanonicalIme r → CanonicalIme (u ++ r)
  | quote {r : List Char} : CanonicalIme r → CanonicalIme ('\'' :: r)
  | letter {c : Char} {r : List Char} : AsciiLetter c → (∀ k ∈ imeTable, ¬ k.1 <+: (c :: r).map asciiLower) →
      CanonicalIme r → CanonicalIme (c :: r)

end Spec
