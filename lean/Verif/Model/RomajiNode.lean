import Verif.Model.Std
/-! # The kana → romaji trie: `Node` of src/to_romaji_node_tree.rs -/

namespace WanaKana

/-- src/to_romaji_node_tree.rs:2-5
`struct Node { transitions: Option<Vec<(char, Node)>>, output: &str }` -/
inductive RNode where
  | mk (transitions : Option (List (Char × RNode))) (output : Str)

namespace RNode

/-- field access. src/to_romaji_node_tree.rs:2-5. -/
def transitions : RNode → Option (List (Char × RNode))
  | mk t _ => t

/-- field access. src/to_romaji_node_tree.rs:2-5. -/
def output : RNode → Str
  | mk _ o => o

/-- src/to_romaji_node_tree.rs:22-30: binary search by key, then index the vector -/
def find_transition_node (std : Std) (n : RNode) (c : Char) : Res (Option RNode) :=
  match n.transitions with
  | some t =>
    match std.binarySearch (t.map fun t => t.1) c with
    | some i => do
      let e ← index t i
      .ok (some e.2)
    | none => .ok none
  | none => .ok none

/-- The `for char in chars.iter()` loop of src/to_romaji_node_tree.rs:11-18 with loop state
`(curr_node, i)`; `break` ends the recursion. -/
def getLoop (std : Std) (curr_node : RNode) (i : Nat) : Str → Res (RNode × Nat)
  | [] => .ok (curr_node, i)
  | c :: cs => do
    match ← curr_node.find_transition_node std c with
    | some trans_node => getLoop std trans_node (i + 1) cs
    | none => .ok (curr_node, i)

/-- src/to_romaji_node_tree.rs:8-20 -/
def get (std : Std) (n : RNode) (chars : Str) : Res (Str × Nat) := do
  let r ← getLoop std n 0 chars
  .ok (r.1.output, r.2)

mutual
/-- src/to_romaji_node_tree.rs:32-39: sort the transitions by key, then sort every child.
(Sorting children first or last gives the same tree, as the keys are not changed.) -/
def sort : RNode → RNode
  | mk none o => mk none o
  | mk (some t) o => mk (some (sortByKey (sortChildren t))) o
/-- the `for el in transitions { el.1.sort() }` loop, src/to_romaji_node_tree.rs:35-37 -/
def sortChildren : List (Char × RNode) → List (Char × RNode)
  | [] => []
  | (c, n) :: rest => (c, sort n) :: sortChildren rest
end

end RNode
end WanaKana
