import Verif.Spec.ToKana
/-! # Specification of cutting and typing romaji -/

namespace Spec

/-- `x` stands directly before `y` in some key of the table -/
def Adjacent (t : Table) (x y : Char) : Prop := ∃ k ∈ t, [x, y] <:+: k.1

/-- the Latin vowels, in both cases -/
def latinVowels : List Char := ['a', 'i', 'u', 'e', 'o', 'A', 'I', 'U', 'E', 'O']

/-- kana written for one typed key: katakana if it is typed in capitals -/
def typed (t : Table) (w : List Char) : List Char :=
  match t.lookup (w.map asciiLower) with
  | some out => if ∀ c ∈ w, AsciiUpper c then out.map toKata else out
  | none => w

/-- `w` is a key of the table, typed in any mixture of cases -/
def IsKey (t : Table) (w : List Char) : Prop := (t.lookup (w.map asciiLower)).isSome

instance (t : Table) (w : List Char) : Decidable (IsKey t w) := by unfold IsKey; infer_instance

/-- kana that can be written with ASCII characters: all letters up to ゔ ヴ (ゐ ゑ ヰ ヱ with obsolete
kana only) and ー ・ ヵ ヶ -/
def Typeable (use_obsolete_kana : Bool) (c : Char) : Prop :=
  (In 0x3041 0x3094 c ∨ In 0x30A1 0x30F4 c) ∧ (use_obsolete_kana = true ∨ c ∉ ['ゐ', 'ゑ', 'ヰ', 'ヱ']) ∨
    c ∈ ['ー', '・', 'ヵ', 'ヶ']

instance (b : Bool) (c : Char) : Decidable (Typeable b c) := by unfold Typeable; infer_instance

end Spec
