import Verif.Spec.ToKana
/-! # Text whose last letter is still open -/

namespace Spec

/-- the text ends in an `n` or `N` that stands for itself (not the second letter of `xn`) -/
def OpenN (a : List Char) : Prop :=
  ∃ p n, a = p ++ [n] ∧ (n = 'n' ∨ n = 'N') ∧ ∀ x, p.getLast? = some x → x ≠ 'x' ∧ x ≠ 'X'

/-- characters that continue an `n` -/
def ContinuesN (d : Char) : Prop := asciiLower d ∈ ['a', 'i', 'u', 'e', 'o', 'y', '\'']

instance (d : Char) : Decidable (ContinuesN d) := by unfold ContinuesN; infer_instance

end Spec
