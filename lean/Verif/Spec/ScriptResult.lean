import Verif.Spec.KanaResult
/-! # Which texts are results of `to_katakana` and `to_hiragana` (C118) -/

namespace Spec

/-- what `to_kana` writes for punctuation of the keyboard (besides ー and ・) -/
def keyboardMarks : List Char := ['。', '、', '：', '！', '？', '〜', '［', '］', '（', '）', '｛', '｝']

/-- what it writes for ‘ ’ “ ” -/
def quoteMarks : List Char := ['「', '」', '『', '』']

/-- Some kana of the text is neither directly behind an `n` nor behind an `n` and a small tsu, so it does not stem from a
doubled syllable like `nyya`. -/
def FreeKana (t : List Char) : Prop :=
  ∃ a k b, t = a ++ k :: b ∧ Kana k ∧ ¬ ['n'] <:+ a ∧ ¬ ['n', 'っ'] <:+ a ∧ ¬ ['n', 'ッ'] <:+ a

/-- kana next to romaji -/
def MixedText (t : List Char) : Prop := (∃ c ∈ t, Kana c) ∧ ∃ c ∈ t, Romaji c

/-- romaji only -/
def RomajiText (t : List Char) : Prop := t ≠ [] ∧ ∀ c ∈ t, Romaji c

/-- everything in the text can have been typed with romaji -/
def AllTyped (t : List Char) : Prop := ∀ c ∈ t, Romaji c ∨ Kana c ∨ c ∈ keyboardMarks

/-- The first character is an English punctuation mark or stands for one. -/
def PunctFirst (t : List Char) : Prop :=
  ∃ c, t.head? = some c ∧ (EnglishPunct c ∨ c ∈ keyboardMarks ∨ c ∈ quoteMarks)

end Spec
