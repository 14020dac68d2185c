import Verif.Spec.Scripts
/-! # Specification: a hiragana letter next to a katakana letter -/

namespace Spec

/-- one of the two is a hiragana letter, the other a katakana letter -/
def ScriptChange (c d : Char) : Prop := (HiraganaLetter c ∧ KatakanaLetter d) ∨ (KatakanaLetter c ∧ HiraganaLetter d)

instance (c d : Char) : Decidable (ScriptChange c d) := by unfold ScriptChange; infer_instance

end Spec
