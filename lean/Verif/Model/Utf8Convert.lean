import Verif.Model.Utf8Trim
import Verif.Model.Convert
/-! # The checks and conversions on the bytes of their texts

src/is_*.rs, src/to_*.rs and src/utils/*.rs once more, with texts as the standard library keeps them: `&str` and `String`
are bytes, `chars()` decodes, `push`, `push_str` and `collect` encode.  `Vec<char>` stays a list of characters.  String
literals are the bytes of their characters. -/

namespace WanaKana

/-- src/is_hiragana.rs:4-9, src/is_katakana.rs:4-9, src/is_kana.rs:4-9, src/is_kanji.rs:5-10, src/is_romaji.rs:7-12,
src/is_japanese.rs:7-12: the check with the given character check -/
def allCharsBytes (is_char : Char → Bool) (input : List UInt8) : Bool :=
  if input.isEmpty then false else (strChars input).all is_char

/-- src/is_kanji.rs:14-19 on bytes -/
def contains_kanji_bytes (input : List UInt8) : Bool :=
  if input.isEmpty then false else (strChars input).any is_char_kanji

/-- src/is_mixed.rs:15-23 on bytes -/
def is_mixed_pass_kanji_bytes (input : List UInt8) (pass_kanji : Bool) : Bool :=
  let has_kanji := if !pass_kanji then (strChars input).any is_char_kanji else false
  ((strChars input).any is_char_hiragana || (strChars input).any is_char_katakana)
    && (strChars input).any is_char_romaji
    && !has_kanji

/-- src/utils/hiragana_to_katakana.rs:21-39 on bytes: the loop pushes to a `Vec<char>`, line 38 collects -/
def hiragana_to_katakana_bytes (input : List UInt8) : Res (List UInt8) := do
  let kata ← hiragana_to_katakana (strChars input)
  .ok (strCollect kata)

/-- src/utils/katakana_to_hiragana.rs:47-103 on bytes: the loop pushes to a `Vec<char>`, line 102 collects -/
def katakana_to_hiragana_with_opt_bytes (std : Std) (input : List UInt8) (is_destination_romaji : Bool) :
    Res (List UInt8) := do
  let hira ← k2hLoop std (strChars input) is_destination_romaji (strChars input) 0 none []
  .ok (strCollect hira)

/-- src/utils/katakana_to_hiragana.rs:43-45 on bytes -/
def katakana_to_hiragana_bytes (std : Std) (input : List UInt8) : Res (List UInt8) :=
  katakana_to_hiragana_with_opt_bytes std input false

/-- src/to_kana.rs:22-46 on bytes: `ouput` is a `String` -/
def toKanaLoopBytes (std : Std) (options : Options) (chars : Str) (len : Nat) :
    (fuel : Nat) → (curr_pos : Nat) → (ouput : List UInt8) → Res (List UInt8)
  | 0, _, _ => .error .diverge
  | fuel + 1, curr_pos, ouput =>
    if curr_pos ≠ len then do
      let rest ← sliceFrom chars curr_pos
      let result ← toKanaLookup options rest
      if result.2 == 0 || result.1.isNone then do
        let c ← index chars curr_pos
        toKanaLoopBytes std options chars len fuel (curr_pos + 1) (ouput ++ strCollect [c])
      else do
        let consumed ← slice chars curr_pos (curr_pos + result.2)
        let out ← unwrap result.1
        if consumed.all std.isUppercase then do
          let kata ← hiragana_to_katakana_bytes (strCollect out)
          toKanaLoopBytes std options chars len fuel (curr_pos + result.2) (ouput ++ kata)
        else
          toKanaLoopBytes std options chars len fuel (curr_pos + result.2) (ouput ++ strCollect out)
    else .ok ouput

/-- src/to_kana.rs:14-49 on bytes -/
def to_kana_with_opt_bytes (std : Std) (input : List UInt8) (options : Options) : Res (List UInt8) :=
  let chars := strChars input
  toKanaLoopBytes std options chars chars.length (chars.length + 1) 0 []

/-- `convert_while_ascii` (library/alloc/src/str.rs), the first step of `str::to_lowercase` and `str::to_uppercase`
(src/utils/romaji_to_hiragana.rs:9, src/to_romaji.rs:40): as long as there is a chunk of `n` bytes left and all of them
are ASCII, they are converted byte by byte.  `n` depends on the version of the standard library and on the target.
Returns the converted bytes and the rest. -/
def convertWhileAscii (n : Nat) (convert : UInt8 → UInt8) : (fuel : Nat) → List UInt8 → List UInt8 × List UInt8
  | 0, bs => ([], bs)
  | fuel + 1, bs =>
    if n ≤ bs.length ∧ ((bs.take n).all fun b => decide (b.toNat < 128)) then
      let r := convertWhileAscii n convert fuel (bs.drop n)
      ((bs.take n).map convert ++ r.1, r.2)
    else ([], bs)

/-- `u8::to_ascii_lowercase` (src/utils/romaji_to_hiragana.rs:9) -/
def asciiLowerByte (b : UInt8) : UInt8 := if 65 ≤ b.toNat ∧ b.toNat ≤ 90 then b + 32 else b

/-- `u8::to_ascii_uppercase` (src/to_romaji.rs:40) -/
def asciiUpperByte (b : UInt8) : UInt8 := if 97 ≤ b.toNat ∧ b.toNat ≤ 122 then b - 32 else b

/-- the loop of `str::to_lowercase` (library/alloc/src/str.rs; src/utils/romaji_to_hiragana.rs:9) over the
`char_indices()` of the rest; `map_uppercase_sigma` looks at `from[..i]` and `from[i + 2..]` -/
def lowercaseLoopBytes (std : Std) (from_ : List UInt8) (prefix_len : Nat) :
    List (Nat × Char) → List UInt8 → Res (List UInt8)
  | [], s => .ok s
  | (i, c) :: rest, s =>
    if c = 'Σ' then do
      let before ← strSlice from_ 0 (prefix_len + i)
      let after ← strSlice from_ (prefix_len + i + 2) from_.length
      let is_word_final := std.finalSigma (strChars before) (strChars after)
      lowercaseLoopBytes std from_ prefix_len rest (s ++ strCollect (if is_word_final then ['ς'] else ['σ']))
    else lowercaseLoopBytes std from_ prefix_len rest (s ++ strCollect (std.lowerChar c))

/-- `str::to_lowercase` on bytes (src/utils/romaji_to_hiragana.rs:9) -/
def toLowercaseBytes (std : Std) (n : Nat) (bs : List UInt8) : Res (List UInt8) :=
  let (s, rest) := convertWhileAscii n asciiLowerByte bs.length bs
  lowercaseLoopBytes std bs s.length (strCharIndices rest) s

/-- `str::to_uppercase` on bytes (src/to_romaji.rs:40) -/
def toUppercaseBytes (std : Std) (n : Nat) (bs : List UInt8) : List UInt8 :=
  let (s, rest) := convertWhileAscii n asciiUpperByte bs.length bs
  s ++ (strChars rest).flatMap fun c => strCollect (std.upperChar c)

/-- src/to_romaji.rs:21-46 on bytes: `ouput` is a `String` -/
def toRomajiLoopBytes (std : Std) (n : Nat) (options : Options) (orig_chars chars : Str) (len : Nat) :
    (fuel : Nat) → (curr_pos : Nat) → (ouput : List UInt8) → Res (List UInt8)
  | 0, _, _ => .error .diverge
  | fuel + 1, curr_pos, ouput =>
    if curr_pos ≠ len then do
      let rest ← sliceFrom chars curr_pos
      let result ← TO_ROMAJI_NODE_TREE.get std rest
      if result.2 == 0 then do
        let c ← index chars curr_pos
        toRomajiLoopBytes std n options orig_chars chars len fuel (curr_pos + 1) (ouput ++ strCollect [c])
      else do
        let consumed ← slice orig_chars curr_pos (curr_pos + result.2)
        let convert_romaji_to_uppercase :=
          if consumed.all is_char_katakana then options.upcase_katakana else false
        toRomajiLoopBytes std n options orig_chars chars len fuel (curr_pos + result.2)
          (ouput ++ if convert_romaji_to_uppercase then toUppercaseBytes std n (strCollect result.1)
            else strCollect result.1)
    else .ok ouput

/-- src/to_romaji.rs:12-49 on bytes -/
def to_romaji_with_opt_bytes (std : Std) (n : Nat) (orig : List UInt8) (options : Options) : Res (List UInt8) := do
  let kana ← katakana_to_hiragana_with_opt_bytes std orig true
  let chars := strChars kana
  toRomajiLoopBytes std n options (strChars orig) chars chars.length (chars.length + 1) 0 []

/-- src/utils/romaji_to_hiragana.rs:8-11 on bytes -/
def romaji_to_hiragana_bytes (std : Std) (n : Nat) (input : List UInt8) (options : Options) : Res (List UInt8) := do
  let text ← toLowercaseBytes std n input
  to_kana_with_opt_bytes std text options

/-- src/to_hiragana.rs:15-35 on bytes -/
def to_hiragana_with_opt_bytes (std : Std) (n : Nat) (input : List UInt8) (config : Options) : Res (List UInt8) :=
  if config.pass_romaji then katakana_to_hiragana_bytes std input
  else if is_mixed_pass_kanji_bytes input true then do
    let romaji ← katakana_to_hiragana_bytes std input
    romaji_to_hiragana_bytes std n romaji config
  else if allCharsBytes is_char_romaji input
      || (((strChars input).head?).map is_char_english_punctuation).getD false then
    romaji_to_hiragana_bytes std n input config
  else katakana_to_hiragana_bytes std input

/-- src/to_katakana.rs:12-22 on bytes -/
def to_katakana_with_opt_bytes (std : Std) (n : Nat) (input : List UInt8) (config : Options) : Res (List UInt8) :=
  if config.pass_romaji then hiragana_to_katakana_bytes input
  else if allCharsBytes is_char_romaji input || is_mixed_pass_kanji_bytes input true then do
    let romaji ← romaji_to_hiragana_bytes std n input config
    hiragana_to_katakana_bytes romaji
  else hiragana_to_katakana_bytes input

/-- `core::str::validations::next_code_point_reverse` (`Chars::next_back`, which `chars().last()` of
src/trim_okurigana.rs:37 and src/utils/katakana_to_hiragana.rs:67 and `chars().rev()` of `str::to_lowercase`,
src/utils/romaji_to_hiragana.rs:9, use).  The argument is the bytes from the last to the first. -/
def nextCodePointReverse : List UInt8 → Option (Nat × List UInt8)
  | [] => none
  | w :: r =>
    if w.toNat < 128 then some (w.toNat, r)
    else match r with
      | [] => none
      | z :: r =>
        if ¬ (128 ≤ z.toNat ∧ z.toNat < 192) then some (z.toNat % 32 * 64 + w.toNat % 64, r)
        else match r with
          | [] => none
          | y :: r =>
            if ¬ (128 ≤ y.toNat ∧ y.toNat < 192) then
              some ((y.toNat % 16 * 64 + z.toNat % 64) * 64 + w.toNat % 64, r)
            else match r with
              | [] => none
              | x :: r => some (((x.toNat % 8 * 64 + y.toNat % 64) * 64 + z.toNat % 64) * 64 + w.toNat % 64, r)

/-- `chars().rev()`: all characters from the last to the first (src/utils/romaji_to_hiragana.rs:9); the first of them is
`chars().last()` (src/trim_okurigana.rs:37, src/utils/katakana_to_hiragana.rs:67) -/
def strCharsRevLoop : (fuel : Nat) → List UInt8 → Str
  | 0, _ => []
  | fuel + 1, bs =>
    match nextCodePointReverse bs with
    | none => []
    | some (ch, rest) => Char.ofNat ch :: strCharsRevLoop fuel rest

/-- `chars().rev()` (src/utils/romaji_to_hiragana.rs:9), see `strCharsRevLoop` -/
def strCharsRev (bs : List UInt8) : Str := strCharsRevLoop bs.length bs.reverse

end WanaKana
