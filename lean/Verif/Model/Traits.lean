import Verif.Model.Convert
/-! # src/traits.rs: the methods of `&str` and `char` exported by the crate (src/lib.rs)

`lib.rs` keeps the modules with the free functions private; users reach the checks and
conversions through these three traits only. -/

namespace WanaKana

/-! ## `impl ConvertJapanese for &str`, src/traits.rs:117-157 -/

namespace ConvertJapanese

/-- src/traits.rs:119-121 -/
def to_kana (std : Std) (self : Str) : Res Str := WanaKana.to_kana std self

/-- src/traits.rs:124-126 -/
def to_kana_with_opt (std : Std) (self : Str) (options : Options) : Res Str :=
  WanaKana.to_kana_with_opt std self options

/-- src/traits.rs:129-131 -/
def to_hiragana (std : Std) (self : Str) : Res Str := WanaKana.to_hiragana std self

/-- src/traits.rs:134-136 -/
def to_hiragana_with_opt (std : Std) (self : Str) (options : Options) : Res Str :=
  WanaKana.to_hiragana_with_opt std self options

/-- src/traits.rs:139-141 -/
def to_katakana (std : Std) (self : Str) : Res Str := WanaKana.to_katakana std self

/-- src/traits.rs:144-146 -/
def to_katakana_with_opt (std : Std) (self : Str) (options : Options) : Res Str :=
  WanaKana.to_katakana_with_opt std self options

/-- src/traits.rs:149-151 -/
def to_romaji (std : Std) (self : Str) : Res Str := WanaKana.to_romaji std self

/-- src/traits.rs:154-156 -/
def to_romaji_with_opt (std : Std) (self : Str) (options : Options) : Res Str :=
  WanaKana.to_romaji_with_opt std self options

end ConvertJapanese

/-! ## `impl IsJapaneseStr for &str`, src/traits.rs:310-367 -/

namespace IsJapaneseStr

/-- src/traits.rs:312-314 -/
def is_hiragana (self : Str) : Bool := WanaKana.is_hiragana self

/-- src/traits.rs:317-319 -/
def is_katakana (self : Str) : Bool := WanaKana.is_katakana self

/-- src/traits.rs:322-324 -/
def is_kana (self : Str) : Bool := WanaKana.is_kana self

/-- src/traits.rs:327-329 -/
def is_kanji (self : Str) : Bool := WanaKana.is_kanji self

/-- src/traits.rs:332-334 -/
def contains_kanji (self : Str) : Bool := WanaKana.contains_kanji self

/-- src/traits.rs:338-340 (feature `enable_regex`) -/
def is_japanese_with_whitelist (self : Str) (allowed : Option Regex) : Bool :=
  WanaKana.is_japanese_with_whitelist self allowed

/-- src/traits.rs:343-345 -/
def is_japanese (self : Str) : Bool := WanaKana.is_japanese self

/-- src/traits.rs:348-350 -/
def is_romaji (self : Str) : Bool := WanaKana.is_romaji self

/-- src/traits.rs:354-356 (feature `enable_regex`) -/
def is_romaji_with_whitelist (self : Str) (allowed : Option Regex) : Bool :=
  WanaKana.is_romaji_with_whitelist self allowed

/-- src/traits.rs:359-361 -/
def is_mixed (self : Str) : Bool := WanaKana.is_mixed self

/-- src/traits.rs:364-366 -/
def is_mixed_pass_kanji (self : Str) (pass_kanji : Bool) : Bool :=
  WanaKana.is_mixed_pass_kanji self pass_kanji

end IsJapaneseStr

/-! ## `impl IsJapaneseChar for char`, src/traits.rs:389-424 -/

namespace IsJapaneseChar

/-- src/traits.rs:391-393 -/
def is_hiragana (self : Char) : Bool := is_char_hiragana self

/-- src/traits.rs:396-398 -/
def is_katakana (self : Char) : Bool := is_char_katakana self

/-- src/traits.rs:401-403 -/
def is_kana (self : Char) : Bool := is_char_kana self

/-- src/traits.rs:406-408 -/
def is_kanji (self : Char) : Bool := is_char_kanji self

/-- src/traits.rs:411-413 -/
def is_japanese (self : Char) : Bool := is_char_japanese self

/-- src/traits.rs:416-418 -/
def is_japanese_number (self : Char) : Bool := is_char_japanese_number self

/-- src/traits.rs:421-423 -/
def is_japanese_punctuation (self : Char) : Bool := is_char_japanese_punctuation self

end IsJapaneseChar

end WanaKana
