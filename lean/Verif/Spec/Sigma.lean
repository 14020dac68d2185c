import Verif.Spec.Convert
/-! # Specification: capital sigma in texts with kana and romaji (C137) -/

namespace Spec

/-- the second text is the first with every capital sigma replaced by one of its two small forms -/
inductive SigmaLowered : List Char → List Char → Prop
  | nil : SigmaLowered [] []
  | keep {c : Char} {s t : List Char} : c ≠ 'Σ' → SigmaLowered s t → SigmaLowered (c :: s) (c :: t)
  | sigma {d : Char} {s t : List Char} : d ∈ ['σ', 'ς'] → SigmaLowered s t → SigmaLowered ('Σ' :: s) (d :: t)

/-- the same for a text cut into runs: run by run -/
inductive RunsLowered : List (Bool × List Char) → List (Bool × List Char) → Prop
  | nil : RunsLowered [] []
  | cons {b : Bool} {s t : List Char} {ts us : List (Bool × List Char)} : SigmaLowered s t → RunsLowered ts us →
      RunsLowered ((b, s) :: ts) ((b, t) :: us)

end Spec
