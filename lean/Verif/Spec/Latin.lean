import Verif.Spec.ToKana
/-! # When a Latin letter stays a letter (C112) -/

namespace Spec

/-- The letter `c` in front of the romaji `t` is not read as kana: no key of the table begins there; the key `n`, which
longer keys continue, does not count if y follows. -/
def StaysLetter (table : Table) (c : Char) (t : List Char) : Prop :=
  (∀ k ∈ table, k.1 <+: (c :: t).map asciiLower → k.1 = ['n']) ∧
  (asciiLower c = 'n' → ∃ d, t.head? = some d ∧ asciiLower d = 'y')

/-- a piece of text `to_romaji` copies and `to_kana` may read: a Latin letter or an apostrophe -/
def LatinPiece (w : List Char) : Prop := ∃ c, (AsciiLetter c ∨ c = '\'') ∧ w = [c]

end Spec
