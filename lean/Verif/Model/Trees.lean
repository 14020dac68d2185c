import Verif.Model.KanaTreeData
import Verif.Model.RomajiTreeData
/-! # The static trees built from the literals -/

namespace WanaKana

/-- src/to_kana_node_tree.rs:51-4818 `TO_KANA_NODE_TREE`: the literal, sorted. -/
def TO_KANA_NODE_TREE : KNode := (KNode.mk kanaTransitions none).sort

/-- src/to_kana_node_tree.rs:4822-4836: the changes made below 'w' -/
def obsoleteEdit (w : KNode) : KNode :=
  .mk (w.transitions.filter (fun x => x.1 != 'i' && x.1 != 'e')
        ++ [('i', .mk [] (some ['ゐ']))] ++ [('e', .mk [] (some ['ゑ']))])
    w.output

/-- src/to_kana_node_tree.rs:4819-4839 `TO_KANA_NODE_TREE_OBSOLETE` (the `unwrap` of
line 4821 may panic) -/
def TO_KANA_NODE_TREE_OBSOLETE : Res KNode := do
  let t ← KNode.modifyTransition 'w' obsoleteEdit TO_KANA_NODE_TREE.transitions
  .ok (KNode.mk t TO_KANA_NODE_TREE.output).sort

/-- src/to_kana_node_tree.rs:4843-4857: the changes made below 'n' -/
def imeEdit (w : KNode) : KNode :=
  .mk (w.transitions ++ [('n', .mk [] (some ['ん']))] ++ [(' ', .mk [] (some ['ん']))]) none

/-- src/to_kana_node_tree.rs:4840-4860 `TO_KANA_NODE_TREE_IMEMODE` (the `unwrap` of line
4842 may panic) -/
def TO_KANA_NODE_TREE_IMEMODE : Res KNode := do
  let t ← KNode.modifyTransition 'n' imeEdit TO_KANA_NODE_TREE.transitions
  .ok (KNode.mk t TO_KANA_NODE_TREE.output).sort

/-- src/to_romaji_node_tree.rs:43-2682 `TO_ROMAJI_NODE_TREE`: the literal, sorted. -/
def TO_ROMAJI_NODE_TREE : RNode := (RNode.mk (some romajiTransitions) []).sort

end WanaKana
