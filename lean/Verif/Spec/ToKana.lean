import Verif.Spec.Scripts
import Verif.Spec.RomajiTable
/-! # Specification of greedy transliteration -/

namespace Spec

/-- A … Z -/
def AsciiUpper (c : Char) : Prop := In 0x41 0x5A c
/-- A … Z, a … z -/
def AsciiLetter (c : Char) : Prop := In 0x41 0x5A c ∨ In 0x61 0x7A c

instance (c : Char) : Decidable (AsciiUpper c) := by unfold AsciiUpper; infer_instance
instance (c : Char) : Decidable (AsciiLetter c) := by unfold AsciiLetter; infer_instance

/-- lowercase of an ASCII character -/
def asciiLower (c : Char) : Char := if AsciiUpper c then Char.ofNat (c.toNat + 0x20) else c

/-- uppercase of an ASCII character -/
def asciiUpper (c : Char) : Char := if In 0x61 0x7A c then Char.ofNat (c.toNat - 0x20) else c

/-- katakana counterpart of a hiragana letter; other characters unchanged -/
def toKata (c : Char) : Char := if HiraganaLetter c then Char.ofNat (c.toNat + 0x60) else c

/-- `q` is the longest prefix of `l` that is also a prefix of some key of the table. -/
structure LongestKeyPrefix (t : Table) (l q : List Char) : Prop where
  isPrefix : q <+: l
  key : ∃ k ∈ t, q <+: k.1
  longest : ∀ q', q' <+: l → (∃ k ∈ t, q' <+: k.1) → q'.length ≤ q.length

/-- `Greedy t s r`: scanning `s` from the left with table `t` produces `r`. -/
inductive Greedy (t : Table) : List Char → List Char → Prop
  | nil : Greedy t [] []
  | hit {s q out r : List Char} : LongestKeyPrefix t (s.map asciiLower) q → t.lookup q = some out →
      Greedy t (s.drop q.length) r →
      Greedy t s ((if ∀ c ∈ s.take q.length, AsciiUpper c then out.map toKata else out) ++ r)
  | miss {c : Char} {s q r : List Char} : LongestKeyPrefix t ((c :: s).map asciiLower) q →
      t.lookup q = none → Greedy t s r → Greedy t (c :: s) (c :: r)

/-- the table selected by the two options; obsolete kana wins over IME mode -/
def tableFor (use_obsolete_kana imemode : Bool) : Table :=
  if use_obsolete_kana then obsoleteTable else if imemode then imeTable else normalTable

/-- the romaji `n` as kana: ん for n, ン for N -/
def nKana (c : Char) : Char := if c = 'n' then 'ん' else if c = 'N' then 'ン' else c

/-- every `n` (`N`) directly before a small っ or ッ becomes ん (ン) -/
def settleN : List Char → List Char
  | [] => []
  | [c] => [c]
  | c :: d :: s => (if d = 'っ' ∨ d = 'ッ' then nKana c else c) :: settleN (d :: s)

end Spec
