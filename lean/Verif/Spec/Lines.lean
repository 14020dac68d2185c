import Verif.Spec.Scripts
import Verif.Spec.LeftAlone
import Verif.Model.Std
/-! # Converting line by line -/

namespace Spec
open WanaKana

/-- lines put together with a line feed between them -/
def joinLines : List Str → Str
  | [] => []
  | [l] => l
  | l :: ls => l ++ '\n' :: joinLines ls

/-- the standard library lowercases line by line: the test whether Σ ends a word does not look beyond a line feed, and
nothing else becomes a line feed -/
structure LineWise (std : Std) : Prop where
  before : ∀ x a b, std.finalSigma (x ++ '\n' :: a) b = std.finalSigma a b
  after : ∀ a b y, std.finalSigma a (b ++ '\n' :: y) = std.finalSigma a b
  lower : ∀ c, '\n' ∈ std.lowerChar c → c = '\n'

/-- a text of romaji only, or with kana and romaji -/
def ReadsRomaji (s : Str) : Prop := (∀ c ∈ s, Romaji c) ∨ ((∃ c ∈ s, Kana c) ∧ ∃ c ∈ s, Romaji c)

/-- a text that starts with English punctuation (curly quotes included) -/
def Quoted (s : Str) : Prop := ∃ c, s.head? = some c ∧ EnglishPunct c

/-- the only katakana are ー ・ ヵ ヶ -/
def NoKatakana (s : Str) : Prop := ∀ c ∈ s, Katakana c → c ∈ ['ー', '・', 'ヵ', 'ヶ']

/-- in lower case, and `to_kana` finds nothing in it -/
def Unmoved (std : Std) (ime : Bool) (s : Str) : Prop := std.toLowercase s = s ∧ LeftAlone ime s

end Spec
