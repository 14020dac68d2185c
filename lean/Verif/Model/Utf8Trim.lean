import Verif.Model.Utf8
import Verif.Model.Trim
import Verif.Model.Upstream
/-! # src/trim_okurigana.rs on the bytes of its texts, and comparing texts by their bytes -/

namespace WanaKana

/-- `str::chars` (src/trim_okurigana.rs:29, 37 and 42, src/tokenize.rs:116, src/is_japanese.rs:11) -/
def strChars (bs : List UInt8) : Str := (strCharIndices bs).map Prod.snd

/-- `impl FromIterator<char> for String` (src/tokenize.rs:117 `group.collect()`): `char::encode_utf8` of every
character -/
def strCollect (s : Str) : List UInt8 := s.flatMap fun c =>
  let code := c.toNat
  if code < 0x80 then [UInt8.ofNat code]
  else if code < 0x800 then [UInt8.ofNat (code / 64 % 32 + 0xC0), UInt8.ofNat (code % 64 + 0x80)]
  else if code < 0x10000 then
    [UInt8.ofNat (code / 4096 % 16 + 0xE0), UInt8.ofNat (code / 64 % 64 + 0x80), UInt8.ofNat (code % 64 + 0x80)]
  else
    [UInt8.ofNat (code / 262144 % 8 + 0xF0), UInt8.ofNat (code / 4096 % 64 + 0x80), UInt8.ofNat (code / 64 % 64 + 0x80),
      UInt8.ofNat (code % 64 + 0x80)]

/-- src/tokenize.rs:114-120 on bytes -/
def tokenize_bytes (input : List UInt8) (compact : Bool) : List (List UInt8) :=
  (group_by (fun elt => get_type elt compact) (strChars input)).map fun g => strCollect g.2

/-- `str::trim_start_matches(pattern)` (src/trim_okurigana.rs:91): the matcher compares bytes -/
def trimStartBytesLoop (pat : List UInt8) : (fuel : Nat) → List UInt8 → List UInt8
  | 0, s => s
  | fuel + 1, s =>
    if pat ≠ [] ∧ s.take pat.length = pat then trimStartBytesLoop pat fuel (s.drop pat.length) else s

/-- `str::trim_end_matches(pattern)` (src/trim_okurigana.rs:93): the matcher compares bytes -/
def trimEndBytesLoop (pat : List UInt8) : (fuel : Nat) → List UInt8 → List UInt8
  | 0, s => s
  | fuel + 1, s =>
    if pat ≠ [] ∧ pat.length ≤ s.length ∧ s.drop (s.length - pat.length) = pat then
      trimEndBytesLoop pat fuel (s.take (s.length - pat.length))
    else s

/-- src/trim_okurigana.rs:81-85 on bytes -/
def trimTokensBytes (input : List UInt8) (match_kanji : Option (List UInt8)) : List (List UInt8) :=
  match match_kanji with
  | some match_kanji => tokenize_bytes match_kanji false
  | none => tokenize_bytes input false

/-- src/trim_okurigana.rs:66-95 on bytes; the checks of lines 71-76 read the characters -/
def trim_okurigana_bytes (input : List UInt8) (trim_from_start : Bool) (match_kanji : Option (List UInt8)) :
    Res (List UInt8) := do
  let unsuitable ← trimGuard (strChars input) trim_from_start (match_kanji.map strChars)
  if unsuitable then .ok input
  else
    let tokens := trimTokensBytes input match_kanji
    if tokens.isEmpty then .ok input
    else if trim_from_start then do
      let t ← index tokens 0
      .ok (trimStartBytesLoop t input.length input)
    else do
      let t ← unwrap tokens.getLast?
      .ok (trimEndBytesLoop t input.length input)

/-- `impl Ord for str` (keys of the `BTreeMap` in upstream_conversions/src/bin/to_kana_tree.rs): the bytes are compared
one after the other -/
def bytesLt : List UInt8 → List UInt8 → Bool
  | _, [] => false
  | [], _ :: _ => true
  | a :: as, b :: bs => decide (a < b) || (a == b && bytesLt as bs)

end WanaKana
