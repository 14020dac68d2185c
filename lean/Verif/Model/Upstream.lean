import Verif.Model.KanaNode
import Verif.Model.RomajiNode
/-! # The generators of the two trees: upstream_conversions/src/bin/*.rs

The generators turn a JSON table (copied from the JavaScript WanaKana) into the node literals
that were pasted into src/to_kana_node_tree.rs and src/to_romaji_node_tree.rs.  Printing the
result (`println!("{:#?}", ..)`) is in Model/DebugPrint.lean; pasting it is not modelled. -/

namespace WanaKana
namespace Upstream

/-- `serde_json::value::Value`: objects, strings, and everything else (the generators only
distinguish these).  `Map` is a `BTreeMap<String, Value>` (upstream_conversions/Cargo.toml:10
does not enable `preserve_order`), modelled by its list of entries in iteration order. -/
inductive Json where
  | obj (fields : List (Str × Json))
  | str (s : Str)
  | other

/-- `str` comparison.  `str` compares UTF-8 bytes, which is the same order as comparing code
points (`C103_order`). Used for the keys of the maps, upstream_conversions/src/bin/to_kana_tree.rs:1910. -/
def strLt : Str → Str → Bool
  | _, [] => false
  | [], _ :: _ => true
  | a :: as, b :: bs => decide (a.toNat < b.toNat) || (a == b && strLt as bs)

/-- `BTreeMap::insert`: the value of an existing key is replaced.
Used in upstream_conversions/src/bin/to_kana_tree.rs. -/
def mapInsert (m : List (Str × Json)) (k : Str) (v : Json) : List (Str × Json) :=
  match m with
  | [] => [(k, v)]
  | (k', v') :: rest =>
    if k = k' then (k', v) :: rest
    else if strLt k k' then (k, v) :: (k', v') :: rest
    else (k', v') :: mapInsert rest k v

/-- `json!({ .. })`: insert the entries of the literal one after the other into a new map.
Used in upstream_conversions/src/bin/to_kana_tree.rs. -/
def object (entries : List (Str × Json)) : Json :=
  .obj (entries.foldl (fun m e => mapInsert m e.1 e.2) [])

/-- `Value::as_object`. Used in upstream_conversions/src/bin/to_kana_tree.rs:1910. -/
def Json.as_object : Json → Option (List (Str × Json))
  | .obj m => some m
  | _ => none

/-- `Value::as_str`. Used in upstream_conversions/src/bin/to_kana_tree.rs:1918. -/
def Json.as_str : Json → Option Str
  | .str s => some s
  | _ => none

/-- `Map::get`. Used in upstream_conversions/src/bin/to_kana_tree.rs:1918. -/
def mapGet (m : List (Str × Json)) (k : Str) : Option Json :=
  (m.find? fun e => e.1 == k).map fun e => e.2

/-- `Option::unwrap`. Used in upstream_conversions/src/bin/to_kana_tree.rs:1918,1920. -/
def unwrap {α : Type} : Option α → Res α
  | some a => .ok a
  | none => .error .panic

/-- `v.as_object().unwrap().get("").map(|out| out.as_str().unwrap().to_string())`,
upstream_conversions/src/bin/to_kana_tree.rs:1918 -/
def kanaOutput (v : Json) : Res (Option Str) := do
  let o ← unwrap v.as_object
  match mapGet o [] with
  | some out => do
    let s ← unwrap out.as_str
    .ok (some s)
  | none => .ok none

/-- `v.as_object().unwrap().get("").unwrap().as_str().unwrap().to_string()`,
upstream_conversions/src/bin/to_romaji_tree.rs:1149 -/
def romajiOutput (v : Json) : Res Str := do
  let o ← unwrap v.as_object
  let out ← unwrap (mapGet o [])
  unwrap out.as_str

mutual
/-- upstream_conversions/src/bin/to_kana_tree.rs:1907-1928 `get_transitions` -/
def kanaGet : Json → Res (List (Char × KNode))
  | .obj obj => kanaGetLoop obj
  | .str _ => .error .panic
  | .other => .error .panic
/-- the `for (k, v) in obj.iter()` loop, upstream_conversions/src/bin/to_kana_tree.rs:1911-1922;
`transitions.push` at the end of an iteration is consing in front of the later ones -/
def kanaGetLoop : List (Str × Json) → Res (List (Char × KNode))
  | [] => .ok []
  | (k, v) :: rest =>
    if k = [] then kanaGetLoop rest
    else do
      let t ← kanaGet v
      let output ← kanaOutput v
      let char ← unwrap k.head?
      let transitions ← kanaGetLoop rest
      .ok ((char, .mk t output) :: transitions)
end

/-- `if transitions.is_empty() { None } else { Some(transitions) }`,
upstream_conversions/src/bin/to_romaji_tree.rs:1158-1162 -/
def noneIfEmpty {α : Type} : List α → Option (List α)
  | [] => none
  | a :: l => some (a :: l)

mutual
/-- upstream_conversions/src/bin/to_romaji_tree.rs:1132-1163 `get_transitions` -/
def romajiGet : Json → Res (Option (List (Char × RNode)))
  | .obj obj => do
    let transitions ← romajiGetLoop obj
    .ok (noneIfEmpty transitions)
  | .str _ => .error .panic
  | .other => .error .panic
/-- the `for (k, v) in obj.iter()` loop,
upstream_conversions/src/bin/to_romaji_tree.rs:1136-1153 -/
def romajiGetLoop : List (Str × Json) → Res (List (Char × RNode))
  | [] => .ok []
  | (k, v) :: rest =>
    if k = [] then romajiGetLoop rest
    else do
      let t ← romajiGet v
      let output ← romajiOutput v
      let char ← unwrap k.head?
      let transitions ← romajiGetLoop rest
      .ok ((char, .mk t output) :: transitions)
end

end Upstream
end WanaKana
