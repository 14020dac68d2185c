import Verif.Spec.Casing
/-! # Specification: where `upcase_katakana` changes the romaji (C135) -/

namespace Spec

/-- reading the hiragana of `z` from the left, always taking the longest key of the table `t`, one meets a syllable that is
written with letters and entirely marked as katakana -/
inductive HasCapitals (t : Table) : Marked → Prop
  | here {z : Marked} {q out : List Char} : LongestKey t (z.map Prod.fst) q → t.lookup q = some out →
      (∃ c ∈ out, asciiUpper c ≠ c) → (∀ x ∈ z.take q.length, x.2 = true) → HasCapitals t z
  | later {z : Marked} {q : List Char} : LongestKey t (z.map Prod.fst) q → HasCapitals t (z.drop q.length) → HasCapitals t z
  | skip {x : Char × Bool} {z : Marked} : (∀ q, q <+: (x :: z).map Prod.fst → t.lookup q = none) →
      HasCapitals t z → HasCapitals t (x :: z)

end Spec
