import Verif.Model.KanaNode
import Verif.Model.RomajiNode
/-! # Reading the trees without assumptions about their order -/

namespace Spec
open WanaKana

/-- `Below n m`: the node `m` is `n` or a descendant of `n` -/
inductive Below : RNode → RNode → Prop
  | refl (n : RNode) : Below n n
  | step {t : List (Char × RNode)} {o : Str} {c : Char} {x m : RNode} :
      (c, x) ∈ t → Below x m → Below (.mk (some t) o) m

/-- no node lists a character twice -/
def Distinct (n : RNode) : Prop :=
  ∀ t o, Below n (.mk (some t) o) → (t.map fun e => e.1).Nodup

/-- the first child listed for a character -/
def child (n : RNode) (c : Char) : Option RNode :=
  match n.transitions with
  | some t => t.lookup c
  | none => none

/-- read a text as long as there are children: the node reached and the number of characters -/
def readTree (n : RNode) : Str → RNode × Nat
  | [] => (n, 0)
  | c :: cs =>
    match child n c with
    | some x => ((readTree x cs).1, (readTree x cs).2 + 1)
    | none => (n, 0)

/-- `Path n p m`: following `p` one can get from `n` to `m` -/
inductive Path : RNode → Str → RNode → Prop
  | nil (n : RNode) : Path n [] n
  | cons {t : List (Char × RNode)} {o : Str} {c : Char} {x m : RNode} {p : Str} :
      (c, x) ∈ t → Path x p m → Path (.mk (some t) o) (c :: p) m

/-- `KBelow n m`: the node `m` is `n` or a descendant of `n` -/
inductive KBelow : KNode → KNode → Prop
  | refl (n : KNode) : KBelow n n
  | step {t : List (Char × KNode)} {o : Option Str} {c : Char} {x m : KNode} :
      (c, x) ∈ t → KBelow x m → KBelow (.mk t o) m

end Spec
