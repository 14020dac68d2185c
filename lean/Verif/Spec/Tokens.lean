/-! # Specification of tokenizing: maximal homogeneous runs -/

namespace Spec

/-- Adjacent entries carry different labels. -/
def AdjacentDiffer {κ : Type} : List (κ × List Char) → Prop
  | [] => True
  | [_] => True
  | a :: b :: rest => a.1 ≠ b.1 ∧ AdjacentDiffer (b :: rest)

/-- `L` splits `s` into non-empty maximal runs of characters with the same `ty`. -/
structure IsTokenization {κ : Type} (ty : Char → κ) (s : List Char) (L : List (κ × List Char)) :
    Prop where
  /-- nothing lost, nothing added, order kept -/
  concat : (L.map fun t => t.2).flatten = s
  /-- no empty token -/
  nonempty : ∀ t ∈ L, t.2 ≠ []
  /-- every character of a token has the reported type -/
  typed : ∀ t ∈ L, ∀ c ∈ t.2, ty c = t.1
  /-- tokens are maximal -/
  maximal : AdjacentDiffer L

end Spec
