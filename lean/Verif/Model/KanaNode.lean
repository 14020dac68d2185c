import Verif.Model.Std
/-! # The romaji → kana trie: `Node` of src/to_kana_node_tree.rs -/

namespace WanaKana

/-- src/to_kana_node_tree.rs:2-5 `struct Node { transitions: Vec<(char, Node)>, output: Option<&str> }` -/
inductive KNode where
  | mk (transitions : List (Char × KNode)) (output : Option Str)

namespace KNode

/-- field access. src/to_kana_node_tree.rs:2-5. -/
def transitions : KNode → List (Char × KNode)
  | mk t _ => t

/-- field access. src/to_kana_node_tree.rs:2-5. -/
def output : KNode → Option Str
  | mk _ o => o

/-- src/to_kana_node_tree.rs:27-31: linear search for the first matching transition -/
def find_transition_node (n : KNode) (c : Char) : Option KNode :=
  (n.transitions.find? fun t => t.1 == c).map fun t => t.2

/-- The `for char in chars.iter()` loop of src/to_kana_node_tree.rs:11-18 with loop state
`(curr_node, i)`; `break` ends the recursion. -/
def getLoop (curr_node : KNode) (i : Nat) : Str → KNode × Nat
  | [] => (curr_node, i)
  | c :: cs =>
    match curr_node.find_transition_node (toAsciiLowercase c) with
    | some trans_node => getLoop trans_node (i + 1) cs
    | none => (curr_node, i)

/-- src/to_kana_node_tree.rs:8-25 -/
def get (n : KNode) (chars : Str) : Option Str × Nat :=
  let r := getLoop n 0 chars
  if r.1.output.isSome then (r.1.output, r.2) else (none, 0)

mutual
/-- src/to_kana_node_tree.rs:37-42: sort the transitions by key, then sort every child.
(Sorting children first or last gives the same tree, as the keys are not changed.) -/
def sort : KNode → KNode
  | mk t o => mk (sortByKey (sortChildren t)) o
/-- the `for el in &mut self.transitions { el.1.sort() }` loop, src/to_kana_node_tree.rs:39-41 -/
def sortChildren : List (Char × KNode) → List (Char × KNode)
  | [] => []
  | (c, n) :: rest => (c, sort n) :: sortChildren rest
end

/-- `find_transition_mut(char).unwrap()` (src/to_kana_node_tree.rs:33-35) followed by a
mutation `f` of the node found: replace the first matching transition; panic if there is
none. -/
def modifyTransition (c : Char) (f : KNode → KNode) : List (Char × KNode) → Res (List (Char × KNode))
  | [] => .error .panic
  | (k, n) :: rest =>
    if k = c then .ok ((k, f n) :: rest)
    else do
      let rest' ← modifyTransition c f rest
      .ok ((k, n) :: rest')

end KNode
end WanaKana
