import Verif.Spec.ToKana
/-! # Specification of the hiragana/katakana conversions -/

namespace Spec

/-- hiragana counterpart of a katakana letter.  ヵ and ヶ are used as symbols (counters, place
names) and stay; ヷ ヸ ヹ ヺ have no hiragana of their own and lose their voicing mark. -/
def toHira (c : Char) : Char :=
  if c = 'ヷ' then 'わ' else if c = 'ヸ' then 'ゐ' else if c = 'ヹ' then 'ゑ'
  else if c = 'ヺ' then 'を'
  else if In 0x30A1 0x30F4 c then Char.ofNat (c.toNat - 0x60) else c

/-- characters through which a long vowel mark refers to an earlier letter -/
def chain : List Char := ['ー', '・', 'ヵ', 'ヶ']

/-- the last character of `before` that is not in `chain` -/
def governing (before : List Char) : Option Char :=
  (before.reverse.dropWhile fun c => decide (c ∈ chain)).head?

/-- hiragana ending in a -/
def columnA : List Char := "ぁあかがさざただなはばぱまゃやらゎわ".toList
/-- hiragana ending in i -/
def columnI : List Char := "ぃいきぎしじちぢにひびぴみりゐ".toList
/-- hiragana ending in u (ゔ apart) -/
def columnU : List Char := "ぅうくぐすずつづぬふぶぷむゅゆる".toList
/-- hiragana ending in e -/
def columnE : List Char := "ぇえけげせぜてでねへべぺめれゑ".toList
/-- hiragana ending in o -/
def columnO : List Char := "ぉおこごそぞとどのほぼぽもょよろを".toList

/-- the kana prolonging `h`; `forRomaji`: on the way to romaji (おお instead of おう).
っ and ん cannot be prolonged. -/
def longVowel (forRomaji : Bool) (h : Char) : List Char :=
  if h ∈ columnA then ['あ'] else if h ∈ columnI then ['い'] else if h ∈ columnU then ['う']
  else if h ∈ columnE then ['え'] else if h ∈ columnO then [if forRomaji then 'お' else 'う']
  else []

/-- what a long vowel mark after `before` becomes -/
def markAfter (forRomaji : Bool) (before : List Char) : List Char :=
  match governing before with
  | some g => if KatakanaLetter g then longVowel forRomaji (toHira g) else ['ー']
  | none => ['ー']

/-- the hiragana for a text `s` that stands after `before` -/
def hiraFrom (forRomaji : Bool) (before : List Char) : List Char → List Char
  | [] => []
  | c :: cs => (if c = 'ー' then markAfter forRomaji before else [toHira c])
      ++ hiraFrom forRomaji (before ++ [c]) cs

/-! The tree lists ゔ five times, as va, vi, vu, ve and vo; which one the search finds is up to the
standard library.  The following variants take the vowel `x` that was found. -/

/-- the kana prolonging `h` if ゔ is taken to end in the vowel `x` -/
def longVowelV (x : Char) (forRomaji : Bool) (h : Char) : List Char :=
  if h = 'ゔ' then
    (if x = 'a' then ['あ'] else if x = 'i' then ['い'] else if x = 'u' then ['う'] else if x = 'e' then ['え']
      else [if forRomaji then 'お' else 'う'])
  else longVowel forRomaji h

/-- what a long vowel mark after `before` becomes -/
def markAfterV (x : Char) (forRomaji : Bool) (before : List Char) : List Char :=
  match governing before with
  | some g => if KatakanaLetter g then longVowelV x forRomaji (toHira g) else ['ー']
  | none => ['ー']

/-- the hiragana for a text `s` that stands after `before` -/
def hiraFromV (x : Char) (forRomaji : Bool) (before : List Char) : List Char → List Char
  | [] => []
  | c :: cs => (if c = 'ー' then markAfterV x forRomaji before else [toHira c])
      ++ hiraFromV x forRomaji (before ++ [c]) cs

/-- number of long vowel marks of `s` (standing after `before`) that prolong ン or ッ -/
def swallowed (before : List Char) : List Char → Nat
  | [] => 0
  | c :: cs => (if c = 'ー' ∧ (governing before = some 'ン' ∨ governing before = some 'ッ') then 1 else 0)
      + swallowed (before ++ [c]) cs

end Spec
