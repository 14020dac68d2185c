import Verif.Spec.Scripts
import Verif.Spec.ScriptResult
/-! # Texts in which IME mode leaves no n waiting (C129), and texts without a wi or we of its own (C130) -/

namespace Spec

/-- every n is followed by a vowel, y or an apostrophe, or follows an x -/
def NSettled (t : List Char) : Prop :=
  ∀ a b, t = a ++ 'n' :: b → a.getLast? = some 'x' ∨ ∃ d, b.head? = some d ∧ d ∈ ['a', 'i', 'u', 'e', 'o', 'y', '\'']

/-- every w before i or e directly follows a letter that takes it up (C130) -/
def WJoined (t : List Char) : Prop :=
  ∀ a v b, t = a ++ 'w' :: v :: b → v ∈ ['i', 'e'] → ∃ d, a.getLast? = some d ∧ d ∈ ['d', 'f', 'g', 'q', 's', 't', 'w']

end Spec
