import Verif.Model.StrPreds
import Verif.Spec.Scripts
/-! # Characters: code points, and the predicates as intervals -/

namespace WanaKana

theorem char_ext {a b : Char} (h : a.toNat = b.toNat) : a = b := by
  apply Char.ext
  apply UInt32.toNat_inj.mp
  exact h

theorem char_eq_iff {a b : Char} : a = b ↔ a.toNat = b.toNat := ⟨fun h => h ▸ rfl, char_ext⟩

theorem char_valid (c : Char) : c.toNat < 0xD800 ∨ (0xDFFF < c.toNat ∧ c.toNat < 0x110000) :=
  c.valid

theorem toNat_ofNat {n : Nat} (h : n.isValidChar) : (Char.ofNat n).toNat = n := by
  unfold Char.ofNat
  rw [dif_pos h]
  rfl

theorem toNat_ofNat_lt {n : Nat} (h : n < 0xD800) : (Char.ofNat n).toNat = n :=
  toNat_ofNat (Or.inl h)

@[simp] theorem is_char_in_range_iff {c : Char} {a b : Nat} :
    is_char_in_range c a b = true ↔ a ≤ c.toNat ∧ c.toNat ≤ b := by
  simp [is_char_in_range]

theorem is_char_long_dash_iff {c : Char} : is_char_long_dash c = true ↔ c.toNat = 0x30FC := by
  exact decide_eq_true_iff

theorem is_char_slash_dot_iff {c : Char} : is_char_slash_dot c = true ↔ c.toNat = 0x30FB := by
  exact decide_eq_true_iff

theorem is_char_hiragana_iff {c : Char} :
    is_char_hiragana c = true ↔ c.toNat = 0x30FC ∨ (0x3041 ≤ c.toNat ∧ c.toNat ≤ 0x3096) := by
  unfold is_char_hiragana
  split
  · next h => rw [is_char_long_dash_iff] at h; simp [h]
  · next h =>
    rw [is_char_long_dash_iff] at h
    simp [h, HIRAGANA_START, HIRAGANA_END]

theorem is_char_katakana_iff {c : Char} :
    is_char_katakana c = true ↔ 0x30A1 ≤ c.toNat ∧ c.toNat ≤ 0x30FC := by
  simp [is_char_katakana, KATAKANA_START, KATAKANA_END]

theorem is_char_kana_iff {c : Char} :
    is_char_kana c = true ↔ (0x3041 ≤ c.toNat ∧ c.toNat ≤ 0x3096)
      ∨ (0x30A1 ≤ c.toNat ∧ c.toNat ≤ 0x30FC) := by
  simp only [is_char_kana, Bool.or_eq_true, is_char_hiragana_iff, is_char_katakana_iff]
  omega

theorem is_char_kanji_iff {c : Char} :
    is_char_kanji c = true ↔ 0x4E00 ≤ c.toNat ∧ c.toNat ≤ 0x9FAF := by
  simp [is_char_kanji, KANJI_START, KANJI_END]

theorem anyRange_cons {r : Range} {rs : List Range} {c : Char} :
    anyRange (r :: rs) c = true ↔ (r.1 ≤ c.toNat ∧ c.toNat ≤ r.2) ∨ anyRange rs c = true := by
  simp [anyRange]

theorem anyRange_nil {c : Char} : anyRange [] c = true ↔ False := by simp [anyRange]

theorem is_char_japanese_iff {c : Char} : is_char_japanese c = true ↔ Spec.Japanese c := by
  simp only [is_char_japanese, JAPANESE_RANGES, KANA_RANGES, JA_PUNCTUATION_RANGES,
    List.cons_append, List.nil_append, anyRange_cons, anyRange_nil, or_false,
    CJK_SYMBOLS_PUNCTUATION, KATAKANA_PUNCTUATION, HIRAGANA_CHARS, KATAKANA_CHARS,
    ZENKAKU_NUMBERS, ZENKAKU_PUNCTUATION_1, ZENKAKU_PUNCTUATION_2, ZENKAKU_PUNCTUATION_3,
    ZENKAKU_PUNCTUATION_4, ZENKAKU_UPPERCASE, ZENKAKU_LOWERCASE, ZENKAKU_SYMBOLS_CURRENCY,
    KANA_PUNCTUATION, HANKAKU_KATAKANA, COMMON_CJK, RARE_CJK, UPPERCASE_ZENKAKU_START,
    UPPERCASE_ZENKAKU_END, LOWERCASE_ZENKAKU_START, LOWERCASE_ZENKAKU_END,
    Spec.Japanese, Spec.In]
  omega

theorem is_char_romaji_iff {c : Char} : is_char_romaji c = true ↔ Spec.Romaji c := by
  simp only [is_char_romaji, ROMAJI_RANGES, MODERN_ENGLISH, HEPBURN_MACRON_RANGES,
    List.cons_append, List.nil_append, anyRange_cons, anyRange_nil, or_false, Spec.Romaji, Spec.Ascii,
    Spec.Macron, List.mem_cons, List.not_mem_nil, or_false, char_eq_iff, Char.reduceToNat]
  omega

theorem is_char_japanese_number_iff {c : Char} :
    is_char_japanese_number c = true ↔ Spec.ZenkakuDigit c := by
  simp [is_char_japanese_number, ZENKAKU_NUMBERS, Spec.ZenkakuDigit, Spec.In]

theorem is_char_latin_number_iff {c : Char} :
    is_char_latin_number c = true ↔ Spec.LatinDigit c := by
  simp [is_char_latin_number, LATIN_NUMBERS, Spec.LatinDigit, Spec.In]

theorem is_char_japanese_punctuation_iff {c : Char} :
    is_char_japanese_punctuation c = true ↔ Spec.JapanesePunct c := by
  simp only [is_char_japanese_punctuation, JA_PUNCTUATION_RANGES, anyRange_cons, anyRange_nil, or_false,
    CJK_SYMBOLS_PUNCTUATION, KATAKANA_PUNCTUATION, ZENKAKU_PUNCTUATION_1, ZENKAKU_PUNCTUATION_2,
    ZENKAKU_PUNCTUATION_3, ZENKAKU_PUNCTUATION_4, ZENKAKU_SYMBOLS_CURRENCY, KANA_PUNCTUATION,
    Spec.JapanesePunct, Spec.In, char_eq_iff, Char.reduceToNat]
  omega

theorem is_char_english_punctuation_iff {c : Char} :
    is_char_english_punctuation c = true ↔ Spec.EnglishPunct c := by
  simp only [is_char_english_punctuation, EN_PUNCTUATION_RANGES, SMART_QUOTE_RANGES,
    List.cons_append, List.nil_append, anyRange_cons, anyRange_nil, or_false, Spec.EnglishPunct, Spec.In,
    List.mem_cons, List.not_mem_nil, or_false, char_eq_iff, Char.reduceToNat]
  omega

theorem specHiragana_iff {c : Char} :
    Spec.Hiragana c ↔ c.toNat = 0x30FC ∨ (0x3041 ≤ c.toNat ∧ c.toNat ≤ 0x3096) := by
  simp only [Spec.Hiragana, Spec.HiraganaLetter, Spec.LongMark, Spec.In, char_eq_iff,
    Char.reduceToNat]
  omega

theorem specKatakana_iff {c : Char} :
    Spec.Katakana c ↔ 0x30A1 ≤ c.toNat ∧ c.toNat ≤ 0x30FC := by
  simp only [Spec.Katakana, Spec.KatakanaLetter, Spec.MiddleDot, Spec.LongMark, Spec.In,
    char_eq_iff, Char.reduceToNat]
  omega

theorem specKana_iff {c : Char} :
    Spec.Kana c ↔ (0x3041 ≤ c.toNat ∧ c.toNat ≤ 0x3096)
      ∨ (0x30A1 ≤ c.toNat ∧ c.toNat ≤ 0x30FC) := by
  simp only [Spec.Kana, Spec.HiraganaLetter, Spec.KatakanaLetter, Spec.MiddleDot, Spec.LongMark,
    Spec.In, char_eq_iff, Char.reduceToNat]
  omega

theorem specRomaji_iff {c : Char} : Spec.Romaji c ↔ c.toNat < 0x80 ∨
    c.toNat ∈ [0x100, 0x101, 0x112, 0x113, 0x12a, 0x12b, 0x14c, 0x14d, 0x16a, 0x16b] := by
  simp only [Spec.Romaji, Spec.Ascii, Spec.Macron, List.mem_cons, List.not_mem_nil, or_false, char_eq_iff,
    Char.reduceToNat]

end WanaKana
