import Verif.Model.Std
/-! # Concrete standard libraries

Two implementations of `slice::binary_search_by` that shipped with Rust, and a case mapping that
is exact on ASCII, the macron vowels and Σ, and the identity elsewhere (a simplification; only used
to show that `Std.Lawful` is satisfiable and for concrete counterexamples). -/

namespace WanaKana

/-- The loop of `binary_search_by`, library/core/src/slice/mod.rs of Rust 1.82 and later:
`while size > 1 { let half = size / 2; let mid = base + half; let cmp = f(&self[mid]);
base = if cmp == Greater { base } else { mid }; size -= half; }`.  `fuel ≥ size` always holds. -/
def modernLoop (keys : List Char) (k : Char) : (fuel size base : Nat) → Nat
  | 0, _, base => base
  | fuel + 1, size, base =>
    if 1 < size then
      let half := size / 2
      let mid := base + half
      modernLoop keys k fuel (size - half) (if k.toNat < (keys.getD mid default).toNat then base else mid)
    else base

/-- `binary_search_by` of Rust 1.82 and later: `if size == 0 { return Err(0) }`, the loop, then
`if cmp == Equal { Ok(base) } else { Err(_) }`. Used in src/to_romaji_node_tree.rs:24. -/
def modernSearch (keys : List Char) (k : Char) : Option Nat :=
  if keys.length = 0 then none
  else
    let base := modernLoop keys k keys.length keys.length 0
    if keys[base]? = some k then some base else none

/-- `binary_search_by`, library/core/src/slice/mod.rs of Rust 1.52–1.81:
`while left < right { let mid = left + size / 2; let cmp = f(&self[mid]);
left = if cmp == Less { mid + 1 } else { left }; right = if cmp == Greater { mid } else { right };
if cmp == Equal { return Ok(mid) }; size = right - left; } Err(left)`. -/
def legacyLoop (keys : List Char) (k : Char) : (fuel left right : Nat) → Option Nat
  | 0, _, _ => none
  | fuel + 1, left, right =>
    if left < right then
      let mid := left + (right - left) / 2
      let x := keys.getD mid default
      if x.toNat < k.toNat then legacyLoop keys k fuel (mid + 1) right
      else if k.toNat < x.toNat then legacyLoop keys k fuel left mid
      else some mid
    else none

/-- `binary_search_by` of Rust 1.52–1.81. Used in src/to_romaji_node_tree.rs:24. -/
def legacySearch (keys : List Char) (k : Char) : Option Nat :=
  legacyLoop keys k (keys.length + 1) 0 keys.length

/-- the macron vowels -/
def isMacron (c : Char) : Bool :=
  [0x100, 0x101, 0x112, 0x113, 0x12a, 0x12b, 0x14c, 0x14d, 0x16a, 0x16b].contains c.toNat

/-- case mapping on ASCII and macron vowels, with a given binary search -/
def stdWith (search : List Char → Char → Option Nat) : Std where
  isUppercase c := decide (65 ≤ c.toNat ∧ c.toNat ≤ 90)
  lowerChar c := if c = 'Σ' then ['σ'] else if isMacron c then [Char.ofNat (c.toNat ||| 1)] else [toAsciiLowercase c]
  finalSigma _ _ := false
  upperChar c := [if 97 ≤ c.toNat ∧ c.toNat ≤ 122 then Char.ofNat (c.toNat - 32) else c]
  binarySearch := search

/-- Rust 1.82 and later -/
def modernStd : Std := stdWith modernSearch
/-- Rust 1.52–1.81 -/
def legacyStd : Std := stdWith legacySearch

end WanaKana
