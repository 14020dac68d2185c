import Verif.Spec.Scripts
/-! # Specification: ordinary text -/

namespace Spec

/-- characters of ordinary text: ASCII, the blocks without case (kana, kanji, Japanese and typographic marks, half and
full width forms other than full width letters) and the vowels with a macron -/
def Ordinary (c : Char) : Prop :=
  c.toNat < 0x80 ∨ In 0x2010 0x2027 c ∨ In 0x3000 0x9FFF c ∨ In 0xFF01 0xFF20 c ∨ In 0xFF3B 0xFF40 c ∨
    In 0xFF5B 0xFFDF c ∨ c ∈ ['Ā', 'ā', 'Ē', 'ē', 'Ī', 'ī', 'Ō', 'ō', 'Ū', 'ū']

end Spec
