import Verif.Spec.ToRomaji
/-! # The right case of romanized katakana -/

namespace Spec

/-- the hiragana for a text `s` that stands after `before`, every character with the script of the character it comes
from (a lost ー leaves nothing) -/
def ownFrom (x : Char) (before : List Char) : List Char → Marked
  | [] => []
  | c :: cs => (if c = 'ー' then markAfterV x true before else [toHira c]).map (fun h => (h, decide (Katakana c)))
      ++ ownFrom x (before ++ [c]) cs

/-- two markings `z` and `w` of a hiragana text put the romaji of some syllable in different cases -/
inductive Miscased (t : Table) : Marked → Marked → Prop
  | here {z w : Marked} {q out : List Char} : LongestKey t (z.map Prod.fst) q → t.lookup q = some out →
      (∃ c ∈ out, asciiUpper c ≠ c) →
      ¬ ((∀ x ∈ z.take q.length, x.2 = true) ↔ ∀ x ∈ w.take q.length, x.2 = true) → Miscased t z w
  | later {z w : Marked} {q : List Char} : LongestKey t (z.map Prod.fst) q →
      Miscased t (z.drop q.length) (w.drop q.length) → Miscased t z w
  | skip {x y : Char × Bool} {z w : Marked} : (∀ q, q <+: (x :: z).map Prod.fst → t.lookup q = none) →
      Miscased t z w → Miscased t (x :: z) (y :: w)

end Spec
