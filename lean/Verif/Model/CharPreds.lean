import Verif.Model.Constants
/-! # Character predicates: src/utils/is_char_*.rs -/

namespace WanaKana

/-- src/utils/is_char_in_range.rs:10-12 -/
def is_char_in_range (c : Char) (start stop : Nat) : Bool :=
  decide (start ≤ c.toNat) && decide (c.toNat ≤ stop)

/-- `RANGES.iter().any(|el| is_char_in_range(char, el[0], el[1]))`, the body shared by
src/utils/is_char_{japanese,romaji,english_punctuation,japanese_punctuation}.rs -/
def anyRange (rs : List Range) (c : Char) : Bool := rs.any fun el => is_char_in_range c el.1 el.2

/-- src/utils/is_char_long_dash.rs:4-6 -/
def is_char_long_dash (c : Char) : Bool := decide (c.toNat = PROLONGED_SOUND_MARK)

/-- src/utils/is_char_slash_dot.rs:5-7 -/
def is_char_slash_dot (c : Char) : Bool := decide (c.toNat = KANA_SLASH_DOT)

/-- src/utils/is_char_hiragana.rs:6-11 -/
def is_char_hiragana (c : Char) : Bool :=
  if is_char_long_dash c then true else is_char_in_range c HIRAGANA_START HIRAGANA_END

/-- src/utils/is_char_katakana.rs:6-8 -/
def is_char_katakana (c : Char) : Bool := is_char_in_range c KATAKANA_START KATAKANA_END

/-- src/utils/is_char_kana.rs:6-8 -/
def is_char_kana (c : Char) : Bool := is_char_hiragana c || is_char_katakana c

/-- src/utils/is_char_kanji.rs:3 -/
def KANJI_START : Nat := 0x4E00
/-- src/utils/is_char_kanji.rs:4 -/
def KANJI_END : Nat := 0x9FAF

/-- src/utils/is_char_kanji.rs:7-9 -/
def is_char_kanji (c : Char) : Bool := is_char_in_range c KANJI_START KANJI_END

/-- src/utils/is_char_japanese.rs:6-10 -/
def is_char_japanese (c : Char) : Bool := anyRange JAPANESE_RANGES c

/-- src/utils/is_char_romaji.rs:5-9 -/
def is_char_romaji (c : Char) : Bool := anyRange ROMAJI_RANGES c

/-- src/utils/is_char_japanese_number.rs:6-8 -/
def is_char_japanese_number (c : Char) : Bool :=
  is_char_in_range c ZENKAKU_NUMBERS.1 ZENKAKU_NUMBERS.2

/-- src/utils/is_char_latin_number.rs:6-8 -/
def is_char_latin_number (c : Char) : Bool :=
  is_char_in_range c LATIN_NUMBERS.1 LATIN_NUMBERS.2

/-- src/utils/is_char_japanese_punctuation.rs:6-10 -/
def is_char_japanese_punctuation (c : Char) : Bool := anyRange JA_PUNCTUATION_RANGES c

/-- src/utils/is_char_english_punctuation.rs:7-11 -/
def is_char_english_punctuation (c : Char) : Bool := anyRange EN_PUNCTUATION_RANGES c

/-- src/utils/is_char_punctuation.rs:6-8 -/
def is_char_punctuation (c : Char) : Bool :=
  is_char_english_punctuation c || is_char_japanese_punctuation c

/-- src/utils/is_char_upper_case.rs:6-8 -/
def is_char_upper_case (c : Char) : Bool := is_char_in_range c UPPERCASE_START UPPERCASE_END

/-- src/utils/is_char_vowel.rs:9-15 -/
def is_char_vowel_opt (c : Char) (include_y : Bool) : Bool :=
  match c with
  | 'a' | 'e' | 'i' | 'o' | 'u' => true
  | 'y' => include_y
  | _ => false

/-- src/utils/is_char_vowel.rs:2-4 -/
def is_char_vowel (c : Char) : Bool := is_char_vowel_opt c true

/-- src/utils/is_char_consonant.rs:6-13 -/
def is_char_consonant (c : Char) (include_y : Bool) : Bool :=
  match c with
  | 'b' | 'c' | 'd' | 'f' | 'g' | 'h' | 'j' | 'k' | 'l' | 'm' | 'n' | 'p' | 'q' | 'r' | 's'
  | 't' | 'v' | 'w' | 'x' | 'z' => true
  | 'y' => include_y
  | _ => false

end WanaKana
