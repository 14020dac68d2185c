import Verif.Model.Upstream
/-! # Reading a JSON conversion table

An upstream table is a nested JSON object: the keys are the letters of the text to be
converted, the key `""` holds the result.  This file says how such a table is read,
independently of the trees. -/

namespace Spec
open WanaKana
open WanaKana.Upstream (Json)

/-- the value under a key of an object -/
def field : Json → Str → Option Json
  | .obj m, k => m.lookup k
  | _, _ => none

/-- the result stored in a table -/
def entry (j : Json) : Option Str :=
  match field j [] with
  | some (.str s) => some s
  | _ => none

/-- read text letter by letter as long as the table continues: the table reached and the
number of letters read -/
def walk (j : Json) : Str → Json × Nat
  | [] => (j, 0)
  | c :: cs =>
    match field j [c] with
    | some v => ((walk v cs).1, (walk v cs).2 + 1)
    | none => (j, 0)

/-- look a text up: the result stored where reading stops (at least one letter must have been
read), and the number of letters read -/
def lookup (j : Json) (s : Str) : Option Str × Nat :=
  match walk j s with
  | (_, 0) => (none, 0)
  | (v, n + 1) =>
    match entry v with
    | some o => (some o, n + 1)
    | none => (none, 0)

/-- a key that is empty, a single letter, or begins with a letter outside `p` -/
def singleKey (p : Char → Bool) : Str → Bool
  | [] => true
  | [_] => true
  | c :: _ :: _ => !p c

mutual
/-- keys beginning with a letter of `p` are single letters -/
def singleKeys (p : Char → Bool) : Json → Bool
  | .obj m => singleKeysIn p m
  | .str _ => true
  | .other => true
def singleKeysIn (p : Char → Bool) : List (Str × Json) → Bool
  | [] => true
  | (k, v) :: rest => singleKey p k && singleKeys p v && singleKeysIn p rest
end

/-- keys strictly ascending in the order of `str` -/
def ascending : List Str → Bool
  | [] => true
  | k :: ks => ks.all (fun k' => Upstream.strLt k k') && ascending ks

mutual
/-- the entries of all objects are listed in ascending order, without repetition: the
invariant of `BTreeMap` -/
def mapped : Json → Bool
  | .obj m => ascending (m.map fun e => e.1) && mappedIn m
  | .str _ => true
  | .other => true
def mappedIn : List (Str × Json) → Bool
  | [] => true
  | (_, v) :: rest => mapped v && mappedIn rest
end

mutual
/-- a table for `to_kana`: objects all the way down; a result, where present, is a string
(what the outermost object stores under `""` is not looked at) -/
def isKanaTable : Json → Bool
  | .obj m => isKanaTableIn m
  | .str _ => false
  | .other => false
def isKanaTableIn : List (Str × Json) → Bool
  | [] => true
  | (k, v) :: rest =>
    (k == [] || isKanaTable v && ((field v []).isNone || (entry v).isSome)) && isKanaTableIn rest
end

mutual
/-- a table for `to_romaji`: every object but the outermost stores a result -/
def isRomajiTable : Json → Bool
  | .obj m => isRomajiTableIn m
  | .str _ => false
  | .other => false
def isRomajiTableIn : List (Str × Json) → Bool
  | [] => true
  | (k, v) :: rest => (k == [] || isRomajiTable v && (entry v).isSome) && isRomajiTableIn rest
end

end Spec
