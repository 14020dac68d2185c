import Verif.Model.Upstream
/-! # Printing the generated trees: `println!("{:#?}", get_transitions(&val))`

upstream_conversions/src/bin/to_kana_tree.rs:1903 and
upstream_conversions/src/bin/to_romaji_tree.rs:1128 print the list of transitions with the
alternate `Debug` format.  `Node` derives `Debug` (to_kana_tree.rs:8-13, to_romaji_tree.rs:8-13);
the rest is `core::fmt`.  Texts that a value writes in several calls are modelled by their
concatenation: `PadAdapter` keeps its state between the calls, so only the concatenation counts. -/

namespace WanaKana
namespace Upstream

/-- `core::fmt::builders::PadAdapter::write_str`: four spaces in front of every line.  The flag
says whether a line begins here.  Used by `{:#?}`, upstream_conversions/src/bin/to_kana_tree.rs:1903. -/
def pad : Bool → Str → Str
  | _, [] => []
  | onNewline, c :: cs => (if onNewline then "    ".toList else []) ++ c :: pad (c == '\n') cs

/-- `DebugStruct::field`, alternate format: a fresh `PadAdapter` for every field.
`#[derive(Debug)]`, upstream_conversions/src/bin/to_kana_tree.rs:8. -/
def debugField (name value : Str) : Str :=
  pad true (name ++ ": ".toList ++ value ++ ",\n".toList)

/-- an element of `DebugTuple::field` or `DebugList::entry`, alternate format.
Used by `{:#?}`, upstream_conversions/src/bin/to_kana_tree.rs:1903. -/
def debugEntry (value : Str) : Str :=
  pad true (value ++ ",\n".toList)

/-- `DebugStruct` with two fields, alternate format.
`#[derive(Debug)]`, upstream_conversions/src/bin/to_kana_tree.rs:8-13. -/
def debugStruct2 (name f₁ v₁ f₂ v₂ : Str) : Str :=
  name ++ " {\n".toList ++ debugField f₁ v₁ ++ debugField f₂ v₂ ++ "}".toList

/-- `DebugTuple` with two fields and no name, alternate format: the pairs `(char, Node)`,
upstream_conversions/src/bin/to_kana_tree.rs:10. -/
def debugPair (v₁ v₂ : Str) : Str :=
  "(\n".toList ++ debugEntry v₁ ++ debugEntry v₂ ++ ")".toList

/-- `DebugTuple` with one field, alternate format: `Some(..)`,
upstream_conversions/src/bin/to_kana_tree.rs:12. -/
def debugSome (v : Str) : Str :=
  "Some(\n".toList ++ debugEntry v ++ ")".toList

/-- one hexadecimal digit, lower case. Part of `char::escape_unicode`,
used by `{:#?}`, upstream_conversions/src/bin/to_kana_tree.rs:1903. -/
def hexDigit (d : Nat) : Char :=
  if d < 10 then Char.ofNat ('0'.toNat + d) else Char.ofNat ('a'.toNat + (d - 10))

/-- hexadecimal digits without leading zeros, as `char::escape_unicode` writes them.
Used by `{:#?}`, upstream_conversions/src/bin/to_kana_tree.rs:1903. -/
def hexDigits (n : Nat) : Str :=
  if _ : n < 16 then [hexDigit n] else hexDigits (n / 16) ++ [hexDigit (n % 16)]

/-- `char::escape_debug_ext` inside quotes `q`.  `unprintable` stands for the two tables of the
standard library (grapheme extending or not printable); they depend on its Unicode version and
are left open.  Used by `{:#?}`, upstream_conversions/src/bin/to_kana_tree.rs:1903. -/
def escapeDebug (unprintable : Char → Bool) (q c : Char) : Str :=
  if c = '\x00' then "\\0".toList
  else if c = '\t' then "\\t".toList
  else if c = '\r' then "\\r".toList
  else if c = '\n' then "\\n".toList
  else if c = '\\' then "\\\\".toList
  else if c = q then ['\\', q]
  else if unprintable c then "\\u{".toList ++ hexDigits c.toNat ++ "}".toList
  else [c]

/-- `<char as Debug>::fmt`: single quotes around the escaped character.
upstream_conversions/src/bin/to_kana_tree.rs:10,1903. -/
def debugChar (unprintable : Char → Bool) (c : Char) : Str :=
  '\'' :: escapeDebug unprintable '\'' c ++ ['\'']

/-- `<str as Debug>::fmt`: double quotes around the escaped characters.
upstream_conversions/src/bin/to_kana_tree.rs:12,1903. -/
def debugStr (unprintable : Char → Bool) (s : Str) : Str :=
  '"' :: s.flatMap (escapeDebug unprintable '"') ++ ['"']

/-- `<Option<String> as Debug>::fmt`, upstream_conversions/src/bin/to_kana_tree.rs:12,1903. -/
def debugOptStr (unprintable : Char → Bool) : Option Str → Str
  | none => "None".toList
  | some s => debugSome (debugStr unprintable s)

/-- `<[T] as Debug>::fmt`, given the text its entries write: the line break after the bracket
comes with the first entry.  upstream_conversions/src/bin/to_kana_tree.rs:10,1903. -/
def debugList (isEmpty : Bool) (entries : Str) : Str :=
  "[".toList ++ (if isEmpty then [] else "\n".toList) ++ entries ++ "]".toList

mutual
/-- `<Node as Debug>::fmt`, derived, upstream_conversions/src/bin/to_kana_tree.rs:8-13 -/
def debugKNode (u : Char → Bool) : KNode → Str
  | .mk t o => debugStruct2 "Node".toList "transitions".toList (debugList t.isEmpty (debugKEntries u t))
      "output".toList (debugOptStr u o)
/-- the entries of `<Vec<(char, Node)> as Debug>::fmt`,
upstream_conversions/src/bin/to_kana_tree.rs:10 -/
def debugKEntries (u : Char → Bool) : List (Char × KNode) → Str
  | [] => []
  | (c, n) :: rest => debugEntry (debugPair (debugChar u c) (debugKNode u n)) ++ debugKEntries u rest
end

/-- upstream_conversions/src/bin/to_kana_tree.rs:15-1905 `main`, given its table: the first call's
result is dropped, the second is printed -/
def kanaMain (u : Char → Bool) (val : Json) : Res Str := do
  let _ ← kanaGet val
  let t ← kanaGet val
  .ok (debugList t.isEmpty (debugKEntries u t) ++ "\n".toList)

mutual
/-- `<Node as Debug>::fmt`, derived, upstream_conversions/src/bin/to_romaji_tree.rs:8-13 -/
def debugRNode (u : Char → Bool) : RNode → Str
  | .mk t o => debugStruct2 "Node".toList "transitions".toList (debugROpt u t)
      "output".toList (debugStr u o)
/-- `<Option<Vec<(char, Node)>> as Debug>::fmt`,
upstream_conversions/src/bin/to_romaji_tree.rs:10 -/
def debugROpt (u : Char → Bool) : Option (List (Char × RNode)) → Str
  | none => "None".toList
  | some t => debugSome (debugList t.isEmpty (debugREntries u t))
/-- the entries of `<Vec<(char, Node)> as Debug>::fmt`,
upstream_conversions/src/bin/to_romaji_tree.rs:10 -/
def debugREntries (u : Char → Bool) : List (Char × RNode) → Str
  | [] => []
  | (c, n) :: rest => debugEntry (debugPair (debugChar u c) (debugRNode u n)) ++ debugREntries u rest
end

/-- upstream_conversions/src/bin/to_romaji_tree.rs:15-1130 `main`, given its table -/
def romajiMain (u : Char → Bool) (val : Json) : Res Str := do
  let _ ← romajiGet val
  let t ← romajiGet val
  .ok (debugROpt u t ++ "\n".toList)

end Upstream
end WanaKana
