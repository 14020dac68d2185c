import Verif.Model.Std
/-! # src/constants.rs -/

namespace WanaKana

/-- A `[u32; 2]` range constant: first and last code point. src/constants.rs. -/
abbrev Range := Nat × Nat

/-- src/constants.rs:5 -/
def CJK_SYMBOLS_PUNCTUATION : Range := (0x3000, 0x303F)
/-- src/constants.rs:6 -/
def KATAKANA_PUNCTUATION : Range := (0x30FB, 0x30FC)
/-- src/constants.rs:7 -/
def HIRAGANA_CHARS : Range := (0x3040, 0x309F)
/-- src/constants.rs:8 -/
def KATAKANA_CHARS : Range := (0x30A0, 0x30FF)
/-- src/constants.rs:10 -/
def LOWERCASE_ZENKAKU_START : Nat := 0xff41
/-- src/constants.rs:11 -/
def LOWERCASE_ZENKAKU_END : Nat := 0xff5a
/-- src/constants.rs:12 -/
def UPPERCASE_ZENKAKU_START : Nat := 0xff21
/-- src/constants.rs:13 -/
def UPPERCASE_ZENKAKU_END : Nat := 0xff3a
/-- src/constants.rs:14 -/
def ZENKAKU_NUMBERS : Range := (0xFF10, 0xFF19)
/-- src/constants.rs:15 -/
def ZENKAKU_PUNCTUATION_1 : Range := (0xFF01, 0xFF0F)
/-- src/constants.rs:16 -/
def ZENKAKU_PUNCTUATION_2 : Range := (0xFF1A, 0xFF1F)
/-- src/constants.rs:17 -/
def ZENKAKU_PUNCTUATION_3 : Range := (0xFF3B, 0xFF3F)
/-- src/constants.rs:18 -/
def ZENKAKU_PUNCTUATION_4 : Range := (0xFF5B, 0xFF60)
/-- src/constants.rs:19 -/
def ZENKAKU_UPPERCASE : Range := (UPPERCASE_ZENKAKU_START, UPPERCASE_ZENKAKU_END)
/-- src/constants.rs:20 -/
def ZENKAKU_LOWERCASE : Range := (LOWERCASE_ZENKAKU_START, LOWERCASE_ZENKAKU_END)
/-- src/constants.rs:21 -/
def ZENKAKU_SYMBOLS_CURRENCY : Range := (0xFFE0, 0xFFEE)
/-- src/constants.rs:22 -/
def KANA_PUNCTUATION : Range := (0xFF61, 0xFF65)
/-- src/constants.rs:23 -/
def HANKAKU_KATAKANA : Range := (0xFF66, 0xFF9F)
/-- src/constants.rs:24 -/
def COMMON_CJK : Range := (0x4E00, 0x9FFF)
/-- src/constants.rs:25 -/
def RARE_CJK : Range := (0x3400, 0x4DBF)
/-- src/constants.rs:26 -/
def LATIN_NUMBERS : Range := (0x0030, 0x0039)
/-- src/constants.rs:27 -/
def MODERN_ENGLISH : Range := (0x0000, 0x007f)
/-- src/constants.rs:28-34 -/
def HEPBURN_MACRON_RANGES : List Range :=
  [(0x0100, 0x0101), (0x0112, 0x0113), (0x012a, 0x012b), (0x014c, 0x014d), (0x016a, 0x016b)]
/-- src/constants.rs:35-38 -/
def SMART_QUOTE_RANGES : List Range := [(0x2018, 0x2019), (0x201C, 0x201D)]
/-- src/constants.rs:47-56 -/
def JA_PUNCTUATION_RANGES : List Range :=
  [CJK_SYMBOLS_PUNCTUATION, KANA_PUNCTUATION, KATAKANA_PUNCTUATION, ZENKAKU_PUNCTUATION_1,
   ZENKAKU_PUNCTUATION_2, ZENKAKU_PUNCTUATION_3, ZENKAKU_PUNCTUATION_4,
   ZENKAKU_SYMBOLS_CURRENCY]
/-- src/constants.rs:58-64 -/
def KANA_RANGES : List Range :=
  [HIRAGANA_CHARS, KATAKANA_CHARS, KANA_PUNCTUATION, HANKAKU_KATAKANA]
/-- src/constants.rs:66-74 (a `vec!` extended twice) -/
def JAPANESE_RANGES : List Range :=
  [ZENKAKU_UPPERCASE, ZENKAKU_LOWERCASE, ZENKAKU_NUMBERS, COMMON_CJK, RARE_CJK]
    ++ KANA_RANGES ++ JA_PUNCTUATION_RANGES
/-- src/constants.rs:76-82 -/
def ROMAJI_RANGES : List Range := [MODERN_ENGLISH] ++ HEPBURN_MACRON_RANGES
/-- src/constants.rs:83-87 -/
def EN_PUNCTUATION_RANGES : List Range :=
  [(0x20, 0x2F), (0x3A, 0x3F), (0x5B, 0x60), (0x7B, 0x7E)] ++ SMART_QUOTE_RANGES
/-- src/constants.rs:91 -/
def UPPERCASE_START : Nat := 0x41
/-- src/constants.rs:92 -/
def UPPERCASE_END : Nat := 0x5A
/-- src/constants.rs:93 -/
def HIRAGANA_START : Nat := 0x3041
/-- src/constants.rs:94 -/
def HIRAGANA_END : Nat := 0x3096
/-- src/constants.rs:95 -/
def KATAKANA_START : Nat := 0x30A1
/-- src/constants.rs:96 -/
def KATAKANA_END : Nat := 0x30FC
/-- src/constants.rs:97 -/
def PROLONGED_SOUND_MARK : Nat := 0x30FC
/-- src/constants.rs:98 -/
def KANA_SLASH_DOT : Nat := 0x30FB

end WanaKana
