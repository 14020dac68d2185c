import Verif.Model.StdConcrete
import Verif.Model.UnicodeData
/-! # The standard library with the case mappings of the Unicode character database

`char::is_uppercase`, `char::to_lowercase`, `char::to_uppercase` and the word-final test of `str::to_lowercase` as
in library/core/src/char/methods.rs and library/alloc/src/str.rs, over the tables of `Model/UnicodeData.lean`. -/

namespace WanaKana
open Unicode

/-- look up a code point in a mapping -/
def uniFind (n : Nat) : List (Nat × List Nat) → Option (List Nat)
  | [] => none
  | x :: t => if Nat.beq x.1 n then some x.2 else uniFind n t

/-- is a code point in one of the ranges? -/
def uniIn (n : Nat) : List (Nat × Nat) → Bool
  | [] => false
  | x :: t => Nat.ble x.1 n && Nat.ble n x.2 || uniIn n t

/-- the mapping of a character; characters without entry are mapped to themselves -/
def uniMap (t : List (Nat × List Nat)) (c : Char) : Str :=
  match uniFind c.toNat t with
  | some l => l.map Char.ofNat
  | none => [c]

/-- `case_ignorable_then_cased`, library/alloc/src/str.rs:
`match iter.skip_while(|&c| Case_Ignorable(c)).next() { Some(c) => Cased(c), None => false }` -/
def ignorableThenCased (s : Str) : Bool :=
  match s.dropWhile fun c => uniIn c.toNat ignorableRanges with
  | [] => false
  | c :: _ => uniIn c.toNat casedRanges

/-- Rust's case functions with the given binary search -/
def unicodeStd (search : List Char → Char → Option Nat) : Std where
  isUppercase c := uniIn c.toNat uppercaseRanges
  lowerChar := uniMap lowerTable
  finalSigma pre post := ignorableThenCased pre.reverse && !ignorableThenCased post
  upperChar := uniMap upperTable
  binarySearch := search

end WanaKana
