import Verif.Spec.Scripts
/-! # Specification of the pieces in which mixed text is converted -/

namespace Spec

/-- neighbours have different flags -/
def Alternating : List (Bool × List Char) → Prop
  | [] => True
  | [_] => True
  | x :: y :: l => x.1 ≠ y.1 ∧ Alternating (y :: l)

/-- `s` is cut into maximal runs of kana (flag `true`) and of other characters (flag `false`). -/
structure KanaRuns (ts : List (Bool × List Char)) (s : List Char) : Prop where
  runs : ∀ x ∈ ts, x.2 ≠ [] ∧ ∀ c ∈ x.2, (Kana c ↔ x.1 = true)
  alternating : Alternating ts
  text : ts.flatMap (·.2) = s

end Spec
