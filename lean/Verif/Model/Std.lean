/-!
# The Rust standard library, as far as wana_kana uses it

`Str` models `&str`/`String`/`Vec<char>`: a finite sequence of Unicode scalar values.
Functions that can panic return `Res`.
-/

namespace WanaKana

/-- Model of `&str`, `String`, `Vec<char>`, `&[char]`: Lean's `Char` is a Unicode scalar value,
exactly Rust's `char`.  Simplification: the UTF-8 encoding is not represented (only
`Model/GetChunk.lean` needs byte widths). Used throughout `src`. -/
abbrev Str := List Char

/-- Ways in which a Rust computation can fail to return. Used throughout `src`. -/
inductive Fault where
  /-- a Rust panic: index/slice out of range, failed `unwrap`, `usize` underflow -/
  | panic
  /-- loop fuel exhausted: the modelled loop would still be running -/
  | diverge
deriving DecidableEq, Repr

/-- A Rust computation that may panic or run forever. Used throughout `src`. -/
abbrev Res (α : Type) := Except Fault α

/-- Results can be compared (used by the examples). -/
instance {α : Type} [DecidableEq α] : DecidableEq (Res α)
  | .ok a, .ok b => if h : a = b then .isTrue (h ▸ rfl) else .isFalse fun e => h (Except.ok.inj e)
  | .error a, .error b =>
    if h : a = b then .isTrue (h ▸ rfl) else .isFalse fun e => h (Except.error.inj e)
  | .ok _, .error _ => .isFalse fun e => nomatch e
  | .error _, .ok _ => .isFalse fun e => nomatch e

/-- `Option::unwrap`.
Used in src/to_kana.rs:40,42, src/trim_okurigana.rs:29,37,93, src/utils/hiragana_to_katakana.rs:31. -/
def unwrap {α : Type} : Option α → Res α
  | some a => .ok a
  | none => .error .panic

/-- Indexing `v[i]` (panics out of range).
Used in src/to_kana.rs:33, src/to_romaji.rs:25, src/trim_okurigana.rs:91. -/
def index {α : Type} (v : List α) (i : Nat) : Res α := unwrap v[i]?

/-- Slicing `&v[i..j]` (panics unless `i ≤ j ≤ v.len()`). Used in src/to_kana.rs:36, src/to_romaji.rs:29. -/
def slice {α : Type} (v : List α) (i j : Nat) : Res (List α) :=
  if i ≤ j ∧ j ≤ v.length then .ok ((v.drop i).take (j - i)) else .error .panic

/-- Slicing `&v[i..]` (panics unless `i ≤ v.len()`). Used in src/to_kana.rs:24-28, src/to_romaji.rs:22. -/
def sliceFrom {α : Type} (v : List α) (i : Nat) : Res (List α) :=
  if i ≤ v.length then .ok (v.drop i) else .error .panic

/-- `usize` subtraction `a - b` (panics on underflow in debug builds).
Used in src/utils/katakana_to_hiragana.rs:69. -/
def usizeSub (a b : Nat) : Res Nat := if b ≤ a then .ok (a - b) else .error .panic

/-- `std::char::from_u32`. Used in src/utils/katakana_to_hiragana.rs:90, src/utils/hiragana_to_katakana.rs:31. -/
def charFromU32 (n : Nat) : Option Char :=
  if n.isValidChar then some (Char.ofNat n) else none

/-- `x as u32` for an `i32` value: two's complement reinterpretation.
Used in src/utils/katakana_to_hiragana.rs:90, src/utils/hiragana_to_katakana.rs:31. -/
def i32AsU32 (n : Int) : Nat := (n % 4294967296).toNat

/-- `char::to_ascii_lowercase`. Used in src/to_kana_node_tree.rs:12. -/
def toAsciiLowercase (c : Char) : Char :=
  if 65 ≤ c.toNat ∧ c.toNat ≤ 90 then Char.ofNat (c.toNat + 32) else c

/-- `slice::sort_by_key(|el| el.0)` for `char` keys: a *stable* sort.  Modelled by insertion
sort; `Proofs/Sort.lean` proves that the result is the sorted, stable permutation, which
determines it uniquely. Insert `x` before the first element whose key is not smaller.
Used in src/to_kana_node_tree.rs:38, src/to_romaji_node_tree.rs:34. -/
def insertByKey {β : Type} (x : Char × β) : List (Char × β) → List (Char × β)
  | [] => [x]
  | y :: ys => if x.1.toNat ≤ y.1.toNat then x :: y :: ys else y :: insertByKey x ys

/-- `slice::sort_by_key(|el| el.0)`, see `insertByKey`.
Used in src/to_kana_node_tree.rs:38, src/to_romaji_node_tree.rs:34. -/
def sortByKey {β : Type} : List (Char × β) → List (Char × β)
  | [] => []
  | x :: xs => insertByKey x (sortByKey xs)

/-- The parts of `std` whose exact behaviour the crate takes from outside and that may vary
between Rust/Unicode versions.  Everything is proved for every `Std` satisfying
`Std.Lawful`.
Used in src/to_kana.rs:38, src/to_romaji.rs:40, src/to_romaji_node_tree.rs:24, src/utils/romaji_to_hiragana.rs:9. -/
structure Std where
  /-- `char::is_uppercase` -/
  isUppercase : Char → Bool
  /-- the per-character lowercase mapping (`char::to_lowercase`), up to three chars -/
  lowerChar : Char → Str
  /-- the word-final test of `str::to_lowercase` for 'Σ' (text before, text after) -/
  finalSigma : Str → Str → Bool
  /-- the per-character uppercase mapping (`char::to_uppercase`), up to three chars -/
  upperChar : Char → Str
  /-- `keys.binary_search(&k).ok()`: the index of an equal element, if any -/
  binarySearch : List Char → Char → Option Nat

/-- `str::to_lowercase` (library/alloc/src/str.rs): charwise, except that 'Σ' depends on
its context. `pre` is the text before the current position. -/
def Std.lowerFrom (std : Std) : (pre : Str) → Str → Str
  | _, [] => []
  | pre, c :: cs =>
    (if c = 'Σ' then (if std.finalSigma pre cs then ['ς'] else ['σ']) else std.lowerChar c)
      ++ std.lowerFrom (pre ++ [c]) cs

/-- `str::to_lowercase`. Used in src/utils/romaji_to_hiragana.rs:9. -/
def Std.toLowercase (std : Std) (s : Str) : Str := std.lowerFrom [] s

/-- `str::to_uppercase`: charwise. Used in src/to_romaji.rs:40. -/
def Std.toUppercase (std : Std) (s : Str) : Str := s.flatMap std.upperChar

/-- Keys in non-decreasing order: the precondition of `binary_search`. Used in src/to_romaji_node_tree.rs:24. -/
def SortedKeys : List Char → Prop
  | [] => True
  | x :: xs => (∀ y ∈ xs, x.toNat ≤ y.toNat) ∧ SortedKeys xs

/-- Code points without case that occur in the conversion tables or in Japanese text:
general punctuation quotes/dashes, everything from CJK symbols to the CJK ideographs, and the
full and half width forms other than full width letters. -/
def Uncased (c : Char) : Prop :=
  (0x2010 ≤ c.toNat ∧ c.toNat ≤ 0x2027) ∨ (0x3000 ≤ c.toNat ∧ c.toNat ≤ 0x9FFF)
    ∨ (0xFF01 ≤ c.toNat ∧ c.toNat ≤ 0xFF20) ∨ (0xFF3B ≤ c.toNat ∧ c.toNat ≤ 0xFF40)
    ∨ (0xFF5B ≤ c.toNat ∧ c.toNat ≤ 0xFFDF)

/-- What the standard library promises.  These are facts about the Unicode character
database about ASCII, the macron vowels of `constants.rs`, uncased blocks and lowercasing, and
the documented contract of `binary_search`. -/
structure Std.Lawful (std : Std) : Prop where
  isUppercase_ascii : ∀ c : Char, c.toNat < 128 →
    (std.isUppercase c = true ↔ 65 ≤ c.toNat ∧ c.toNat ≤ 90)
  isUppercase_uncased : ∀ c : Char, Uncased c → std.isUppercase c = false
  lowerChar_ascii : ∀ c : Char, c.toNat < 128 → std.lowerChar c = [toAsciiLowercase c]
  lowerChar_uncased : ∀ c : Char, Uncased c → std.lowerChar c = [c]
  /-- Ā/ā Ē/ē Ī/ī Ō/ō Ū/ū: the even code point is the capital of the following odd one -/
  lowerChar_macron : ∀ c : Char,
    c.toNat ∈ [0x100, 0x101, 0x112, 0x113, 0x12a, 0x12b, 0x14c, 0x14d, 0x16a, 0x16b] →
    std.lowerChar c = [Char.ofNat (c.toNat ||| 1)]
  /-- a lowercase mapping never leads into the uncased blocks -/
  lowerChar_target : ∀ c d : Char, d ∈ std.lowerChar c → d ≠ c → ¬ Uncased d
  /-- lowercase characters stay as they are; 'Σ' is not one of them -/
  lowerChar_idem : ∀ c d : Char, d ∈ std.lowerChar c → std.lowerChar d = [d] ∧ d ≠ 'Σ'
  lowerChar_sigma : std.lowerChar 'σ' = ['σ'] ∧ std.lowerChar 'ς' = ['ς']
  upperChar_ascii : ∀ c : Char, c.toNat < 128 →
    std.upperChar c =
      [if 97 ≤ c.toNat ∧ c.toNat ≤ 122 then Char.ofNat (c.toNat - 32) else c]
  upperChar_uncased : ∀ c : Char, Uncased c → std.upperChar c = [c]
  /-- "If the value is found then `Ok` is returned, containing the index of the matching
  element. If there are multiple matches, then any one of the matches could be returned." -/
  binarySearch_some : ∀ keys k i, SortedKeys keys →
    std.binarySearch keys k = some i → keys[i]? = some k
  /-- "If the value is not found then `Err` is returned" -/
  binarySearch_none : ∀ keys k, SortedKeys keys →
    std.binarySearch keys k = none → k ∉ keys

end WanaKana
