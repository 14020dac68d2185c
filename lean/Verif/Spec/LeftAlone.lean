import Verif.Spec.ToKana
/-! # What `to_kana` leaves alone (C95), in terms of the letters of the text only -/

namespace Spec

/-- characters that are converted wherever they stand (in either case): the vowels and the marks -/
def alwaysConverted : List Char :=
  ['a', 'i', 'u', 'e', 'o', '.', ',', ':', '/', '!', '?', '~', '-', '‘', '’', '“', '”', '[', ']', '(', ')', '{', '}']

/-- the letters `p` stand next to each other in `s` -/
def Occurs (p s : List Char) : Prop := ∃ a b, s = a ++ p ++ b

/-- Nothing in `s` is converted: no vowel and no mark, no `xn`, and no `n` that can be read as ん. Outside IME mode
that is every `n` not directly before `y`; in IME mode only `nn`, `n'` and `n` with a space. -/
def LeftAlone (ime : Bool) (s : List Char) : Prop :=
  (∀ c ∈ s.map asciiLower, c ∉ alwaysConverted) ∧ ¬ Occurs ['x', 'n'] (s.map asciiLower) ∧
  if ime then ∀ d ∈ ['n', '\'', ' '], ¬ Occurs ['n', d] (s.map asciiLower)
  else ∀ a b, s.map asciiLower = a ++ 'n' :: b → b.head? = some 'y'

end Spec
