import Verif.Spec.LeftAlone
/-! # Which texts are results of `to_kana` (C97) -/

namespace Spec

/-- っ and the beginning of a y-syllable, in both scripts: what `yya`, `YYA`, `yyi` … become -/
def tsuY : List (List Char) :=
  [['っ', 'や'], ['っ', 'い'], ['っ', 'ゆ'], ['っ', 'よ'], ['ッ', 'ヤ'], ['ッ', 'イ'], ['ッ', 'ユ'], ['ッ', 'ヨ']]

/-- No vowel and no mark, no `xn`; outside IME mode every `n` stands directly before `y` or before a doubled y-syllable
(from `nyya` …), in IME mode none before `n`, an apostrophe or a space. -/
def KanaResult (ime : Bool) (r : List Char) : Prop :=
  (∀ c ∈ r.map asciiLower, c ∉ alwaysConverted) ∧ ¬ Occurs ['x', 'n'] (r.map asciiLower) ∧
  if ime then ∀ d ∈ ['n', '\'', ' '], ¬ Occurs ['n', d] (r.map asciiLower)
  else ∀ a b, r.map asciiLower = a ++ 'n' :: b → b.head? = some 'y' ∨ ∃ w ∈ tsuY, w <+: b

end Spec
