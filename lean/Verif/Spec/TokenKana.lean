import Verif.Spec.ToKana
/-! # When converting token by token gives the conversion of the whole text (C96) -/

namespace Spec

/-- what the letters read so far leave open: nothing, an `x` that makes `xn` with an `n`, or an `n` -/
inductive Open where
  | nothing | x | n
  deriving DecidableEq

/-- the next letter; in IME mode two `n` make a syllable -/
def Open.next (ime : Bool) (p : Open) (c : Char) : Open :=
  if c = 'x' then .x
  else if c = 'n' then
    match p with
    | .nothing => .n
    | .x => .nothing
    | .n => if ime then .nothing else .n
  else .nothing

/-- what is open at the end of a text -/
def openAt (ime : Bool) (s : List Char) : Open := (s.map asciiLower).foldl (Open.next ime) .nothing

/-- An `n` that is open stands before an apostrophe, or in IME mode before a space that is a token of its own. -/
def OpenBeforeMark (ime compact : Bool) (s : List Char) : Prop :=
  ∃ a q b, s = a ++ q :: b ∧ (q = '\'' ∨ ime = true ∧ compact = false ∧ q = ' ') ∧ openAt ime a = .n

end Spec
