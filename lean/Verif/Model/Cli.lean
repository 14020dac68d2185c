import Verif.Model.Convert
/-! # src/bin/to_kana.rs and src/bin/to_romaji.rs

A run of a program is a function from its arguments (including the program name; `none` = not
valid Unicode) and the content of standard input (`none` = unreadable or not UTF-8) to the
text written to standard output. -/

namespace WanaKana

/-- `Vec<String>::join(" ")`. Used in src/bin/to_kana.rs:7, src/bin/to_romaji.rs:7. -/
def joinSpace : List Str → Str
  | [] => []
  | [a] => a
  | a :: b :: rest => a ++ [' '] ++ joinSpace (b :: rest)

/-- `env::args()`: panics if an argument is not valid Unicode.
Used in src/bin/to_kana.rs:7, src/bin/to_romaji.rs:7. -/
def envArgs : List (Option Str) → Res (List Str)
  | [] => .ok []
  | a :: rest => do
    let a ← unwrap a
    let rest ← envArgs rest
    .ok (a :: rest)

/-- the body common to src/bin/to_kana.rs:6-17 and src/bin/to_romaji.rs:6-17 -/
def cliMain (convert : Str → Res Str) (argv : List (Option Str)) (stdin : Option Str) : Res Str := do
  let args ← envArgs argv
  let args := joinSpace (args.drop 1)
  if !args.isEmpty then do
    let out ← convert args
    .ok (out ++ ['\n'])
  else do
    let buffer ← unwrap stdin
    if !buffer.isEmpty then convert buffer else .ok []

/-- src/bin/to_kana.rs:6-17 -/
def toKanaMain (std : Std) : List (Option Str) → Option Str → Res Str := cliMain (to_kana std)

/-- src/bin/to_romaji.rs:6-17 -/
def toRomajiMain (std : Std) : List (Option Str) → Option Str → Res Str := cliMain (to_romaji std)

end WanaKana
