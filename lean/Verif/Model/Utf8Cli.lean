import Verif.Model.Utf8Convert
import Verif.Model.Cli
/-! # src/bin/to_kana.rs and src/bin/to_romaji.rs on bytes

What the operating system hands over are bytes: the arguments (on Unix) and the content of standard input.  Both are
checked to be UTF-8 by `core::str::from_utf8`.  The calls of the operating system are modelled in
Model/Stdio. -/

namespace WanaKana

/-- `byte as i8 < -64`: a continuation byte (core::str::validations; src/bin/to_kana.rs:7,12) -/
def isContByte (b : UInt8) : Bool := decide (128 ≤ b.toNat) && decide (b.toNat < 192)

/-- is a byte in a range? (core::str::validations; src/bin/to_kana.rs:7,12) -/
def byteIn (lo hi : Nat) (b : UInt8) : Bool := decide (lo ≤ b.toNat) && decide (b.toNat ≤ hi)

/-- `core::str::validations::run_utf8_validation` (`String::from_utf8`, used by `env::args()` and `read_to_string`,
src/bin/to_kana.rs:7,12 and src/bin/to_romaji.rs:7,12).  The width of a character is taken from its first byte
(`UTF8_CHAR_WIDTH`); the fast path for ASCII is left out. -/
def utf8Valid : List UInt8 → Bool
  | [] => true
  | first :: r =>
    if first.toNat < 128 then utf8Valid r
    else if byteIn 0xC2 0xDF first then
      match r with
      | y :: r => isContByte y && utf8Valid r
      | [] => false
    else if byteIn 0xE0 0xEF first then
      match r with
      | y :: z :: r =>
        (byteIn 0xE0 0xE0 first && byteIn 0xA0 0xBF y || byteIn 0xE1 0xEC first && byteIn 0x80 0xBF y ||
          byteIn 0xED 0xED first && byteIn 0x80 0x9F y || byteIn 0xEE 0xEF first && byteIn 0x80 0xBF y) &&
        isContByte z && utf8Valid r
      | _ => false
    else if byteIn 0xF0 0xF4 first then
      match r with
      | y :: z :: w :: r =>
        (byteIn 0xF0 0xF0 first && byteIn 0x90 0xBF y || byteIn 0xF1 0xF3 first && byteIn 0x80 0xBF y ||
          byteIn 0xF4 0xF4 first && byteIn 0x80 0x8F y) &&
        isContByte z && isContByte w && utf8Valid r
      | _ => false
    else false

/-- `String::from_utf8` (src/bin/to_kana.rs:7,12, src/bin/to_romaji.rs:7,12) -/
def fromUtf8 (bs : List UInt8) : Option (List UInt8) := if utf8Valid bs then some bs else none

/-- `Vec<String>::join(" ")` on bytes (src/bin/to_kana.rs:7, src/bin/to_romaji.rs:7) -/
def joinSpaceBytes : List (List UInt8) → List UInt8
  | [] => []
  | [a] => a
  | a :: b :: rest => a ++ [0x20] ++ joinSpaceBytes (b :: rest)

/-- `env::args()`: `into_string().unwrap()` of every argument (src/bin/to_kana.rs:7, src/bin/to_romaji.rs:7) -/
def envArgsBytes : List (List UInt8) → Res (List (List UInt8))
  | [] => .ok []
  | a :: rest => do
    let a ← unwrap (fromUtf8 a)
    let rest ← envArgsBytes rest
    .ok (a :: rest)

/-- src/bin/to_kana.rs:6-17, src/bin/to_romaji.rs:6-17 on bytes; `stdin` is `none` if it cannot be read -/
def cliMainBytes (convert : List UInt8 → Res (List UInt8)) (argv : List (List UInt8)) (stdin : Option (List UInt8)) :
    Res (List UInt8) := do
  let args ← envArgsBytes argv
  let args := joinSpaceBytes (args.drop 1)
  if !args.isEmpty then do
    let out ← convert args
    .ok (out ++ [0x0A])
  else do
    let buffer ← unwrap (stdin.bind fromUtf8)
    if !buffer.isEmpty then convert buffer else .ok []

/-- src/bin/to_kana.rs:6-17 on bytes -/
def toKanaMainBytes (std : Std) : List (List UInt8) → Option (List UInt8) → Res (List UInt8) :=
  cliMainBytes fun s => to_kana_with_opt_bytes std s {}

/-- src/bin/to_romaji.rs:6-17 on bytes; `n` as in `convertWhileAscii` -/
def toRomajiMainBytes (std : Std) (n : Nat) : List (List UInt8) → Option (List UInt8) → Res (List UInt8) :=
  cliMainBytes fun s => to_romaji_with_opt_bytes std n s {}

end WanaKana
