import Verif.Model.CharPreds
/-! # String predicates: src/is_*.rs -/

namespace WanaKana

/-- src/is_hiragana.rs:4-9 -/
def is_hiragana (input : Str) : Bool :=
  if input.isEmpty then false else input.all is_char_hiragana

/-- src/is_katakana.rs:4-9 -/
def is_katakana (input : Str) : Bool :=
  if input.isEmpty then false else input.all is_char_katakana

/-- src/is_kana.rs:4-9 -/
def is_kana (input : Str) : Bool :=
  if input.isEmpty then false else input.all is_char_kana

/-- src/is_kanji.rs:5-10 -/
def is_kanji (input : Str) : Bool :=
  if input.isEmpty then false else input.all is_char_kanji

/-- src/is_kanji.rs:14-19 -/
def contains_kanji (input : Str) : Bool :=
  if input.isEmpty then false else input.any is_char_kanji

/-- src/is_romaji.rs:7-12 -/
def is_romaji (input : Str) : Bool :=
  if input.isEmpty then false else input.all is_char_romaji

/-- src/is_japanese.rs:7-12 -/
def is_japanese (input : Str) : Bool :=
  if input.isEmpty then false else input.all is_char_japanese

/-- `regex::Regex`, abstracted to its `is_match` predicate on whole strings.
Used in src/is_romaji.rs:25, src/is_japanese.rs:24. -/
structure Regex where
  is_match : Str → Bool

/-- src/is_japanese.rs:16-29 (feature `enable_regex`) -/
def is_japanese_with_whitelist (input : Str) (allowed : Option Regex) : Bool :=
  if input.isEmpty then false
  else input.all fun char =>
    let is_jap := is_char_japanese char
    if !is_jap then
      match allowed with
      | some allowed => allowed.is_match input
      | none => is_jap
    else is_jap

/-- src/is_romaji.rs:17-30 (feature `enable_regex`) -/
def is_romaji_with_whitelist (input : Str) (allowed : Option Regex) : Bool :=
  if input.isEmpty then false
  else input.all fun char =>
    let is_jap := is_char_romaji char
    if !is_jap then
      match allowed with
      | some allowed => allowed.is_match input
      | none => is_jap
    else is_jap

/-- src/is_mixed.rs:15-23 -/
def is_mixed_pass_kanji (input : Str) (pass_kanji : Bool) : Bool :=
  let has_kanji := if !pass_kanji then input.any is_char_kanji else false
  (input.any is_char_hiragana || input.any is_char_katakana)
    && input.any is_char_romaji
    && !has_kanji

/-- src/is_mixed.rs:9-11 -/
def is_mixed (input : Str) : Bool := is_mixed_pass_kanji input true

end WanaKana
