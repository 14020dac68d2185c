import Verif.Model.Traits
import Verif.Props.Predicates
import Verif.Props.ToRomaji2
import Verif.Props.Convert2
/-! # C63, C64: the exported trait methods and the small character checks -/

namespace WanaKana
open Spec

/-! ## C63 -/

/-- **C63** each method of `char` accepts exactly the characters of its script -/
theorem C63_char (c : Char) :
    (IsJapaneseChar.is_hiragana c = true ↔ Hiragana c) ∧
    (IsJapaneseChar.is_katakana c = true ↔ Katakana c) ∧
    (IsJapaneseChar.is_kana c = true ↔ Kana c) ∧
    (IsJapaneseChar.is_kanji c = true ↔ Kanji c) ∧
    (IsJapaneseChar.is_japanese c = true ↔ Japanese c) ∧
    (IsJapaneseChar.is_japanese_number c = true ↔ ZenkakuDigit c) ∧
    (IsJapaneseChar.is_japanese_punctuation c = true ↔ JapanesePunct c) :=
  ⟨is_char_hiragana_iff.trans specHiragana_iff.symm, is_char_katakana_iff.trans specKatakana_iff.symm,
    is_char_kana_iff.trans specKana_iff.symm, is_char_kanji_iff, is_char_japanese_iff,
    is_char_japanese_number_iff, is_char_japanese_punctuation_iff⟩

example : IsJapaneseChar.is_hiragana 'ー' = true ∧ IsJapaneseChar.is_kanji '々' = false
    ∧ IsJapaneseChar.is_japanese '々' = true := by decide

/-- **C63** a text passes a check of `&str` iff it is non-empty and each of its characters passes
the check of `char` with the same name; `contains_kanji` asks for one such character. -/
theorem C63_str (s : Str) :
    (IsJapaneseStr.is_hiragana s = true ↔ s ≠ [] ∧ ∀ c ∈ s, IsJapaneseChar.is_hiragana c = true) ∧
    (IsJapaneseStr.is_katakana s = true ↔ s ≠ [] ∧ ∀ c ∈ s, IsJapaneseChar.is_katakana c = true) ∧
    (IsJapaneseStr.is_kana s = true ↔ s ≠ [] ∧ ∀ c ∈ s, IsJapaneseChar.is_kana c = true) ∧
    (IsJapaneseStr.is_kanji s = true ↔ s ≠ [] ∧ ∀ c ∈ s, IsJapaneseChar.is_kanji c = true) ∧
    (IsJapaneseStr.is_japanese s = true ↔ s ≠ [] ∧ ∀ c ∈ s, IsJapaneseChar.is_japanese c = true) ∧
    (IsJapaneseStr.contains_kanji s = true ↔ ∃ c ∈ s, IsJapaneseChar.is_kanji c = true) ∧
    (IsJapaneseStr.is_romaji s = true ↔ s ≠ [] ∧ ∀ c ∈ s, Romaji c) := by
  have h := fun c => C63_char c
  simp only [fun c => (h c).1, fun c => (h c).2.1, fun c => (h c).2.2.1, fun c => (h c).2.2.2.1,
    fun c => (h c).2.2.2.2.1]
  exact ⟨C01_is_hiragana s, C01_is_katakana s, C01_is_kana s, C01_is_kanji s, C01_is_japanese s,
    C01_contains_kanji s, C01_is_romaji s⟩

/-- **C63** `is_mixed` and its variant: kana and romaji both occur; kanji only if allowed -/
theorem C63_mixed (s : Str) (pass_kanji : Bool) :
    (IsJapaneseStr.is_mixed s = true ↔
      (∃ c ∈ s, IsJapaneseChar.is_kana c = true) ∧ ∃ c ∈ s, Romaji c) ∧
    (IsJapaneseStr.is_mixed_pass_kanji s pass_kanji = true ↔
      IsJapaneseStr.is_mixed s = true ∧ (pass_kanji = true ∨ IsJapaneseStr.contains_kanji s = false)) := by
  have h := fun c => (C63_char c).2.2.1
  refine ⟨?_, ?_⟩
  · simp only [h]; exact C04_is_mixed s
  · have hc := C01_contains_kanji s
    show is_mixed_pass_kanji s pass_kanji = true ↔ is_mixed s = true ∧ (_ ∨ contains_kanji s = false)
    cases pass_kanji
    · rw [C04_pass_kanji_false, C04_is_mixed]
      constructor
      · rintro ⟨h1, h2, h3⟩
        refine ⟨⟨h1, h2⟩, Or.inr ?_⟩
        rw [← Bool.not_eq_true, hc]
        exact h3
      · rintro ⟨⟨h1, h2⟩, h3⟩
        refine ⟨h1, h2, ?_⟩
        rcases h3 with h3 | h3
        · cases h3
        · rwa [← Bool.not_eq_true, hc] at h3
    · rw [C04_pass_kanji_true]; simp

/-- **C63** the checks with a whitelist: without one they are the plain checks; with one, a text
of other characters passes iff the regex matches the text -/
theorem C63_whitelist (s : Str) (r : Regex) :
    IsJapaneseStr.is_japanese_with_whitelist s none = IsJapaneseStr.is_japanese s ∧
    IsJapaneseStr.is_romaji_with_whitelist s none = IsJapaneseStr.is_romaji s ∧
    (IsJapaneseStr.is_japanese_with_whitelist s (some r) = true ↔
      IsJapaneseStr.is_japanese s = true ∨ (s ≠ [] ∧ r.is_match s = true)) ∧
    (IsJapaneseStr.is_romaji_with_whitelist s (some r) = true ↔
      IsJapaneseStr.is_romaji s = true ∨ (s ≠ [] ∧ r.is_match s = true)) := by
  refine ⟨(C06_none_partial s).1, (C06_none_partial s).2, ?_, ?_⟩
  · show is_japanese_with_whitelist s (some r) = true ↔ is_japanese s = true ∨ _
    rw [C06_japanese_partial, C01_is_japanese, ← and_or_left]
  · show is_romaji_with_whitelist s (some r) = true ↔ is_romaji s = true ∨ _
    rw [C06_romaji_partial, C01_is_romaji, ← and_or_left]

/-- **C63** the methods without options are those with every option off -/
theorem C63_defaults (std : Std) (s : Str) :
    let off : Options := ⟨false, false, false, false⟩
    ConvertJapanese.to_kana std s = ConvertJapanese.to_kana_with_opt std s off ∧
    ConvertJapanese.to_hiragana std s = ConvertJapanese.to_hiragana_with_opt std s off ∧
    ConvertJapanese.to_katakana std s = ConvertJapanese.to_katakana_with_opt std s off ∧
    ConvertJapanese.to_romaji std s = ConvertJapanese.to_romaji_with_opt std s off :=
  ⟨rfl, rfl, rfl, rfl⟩

/-- **C63** `to_kana` and `to_romaji` as exported are the greedy transliterations by the tables -/
theorem C63_to_kana {std : Std} (hstd : std.Lawful) (s r : Str) (o : Options) :
    ConvertJapanese.to_kana_with_opt std s o = .ok r ↔
      Spec.Greedy (Spec.tableFor o.use_obsolete_kana o.imemode) s r := C10_greedy hstd s r o

theorem C63_to_romaji {std : Std} (hstd : std.Lawful) :
    ∃ x ∈ ['a', 'i', 'u', 'e', 'o'], ∃ y ∈ ['a', 'i', 'u', 'e', 'o'], ∀ (s r : Str) (o : Options),
      ConvertJapanese.to_romaji_with_opt std s o = .ok r ↔
        Spec.Romanized (Spec.kanaTableV x y) o.upcase_katakana (Spec.markedV x s) r := by
  obtain ⟨x, hx, y, hy, h⟩ := C56_greedy hstd
  refine ⟨x, hx, y, hy, fun s r o => ⟨h s r o, fun hr => ?_⟩⟩
  obtain ⟨r', hr'⟩ : ∃ r', to_romaji_with_opt std s o = .ok r' := C27_total hstd s o
  have := h s r' o hr'
  rw [C56_unique x y _ _ _ _ hr this]
  exact hr'

/-- **C63** `to_hiragana` and `to_katakana` as exported, on kana: the kana converters -/
theorem C63_kana (std : Std) (s : Str) (o : Options) (h : IsJapaneseStr.is_kana s = true) :
    ConvertJapanese.to_hiragana_with_opt std s o = katakana_to_hiragana std s ∧
    ConvertJapanese.to_katakana_with_opt std s o = hiragana_to_katakana s := C39_kana std s o h

/-- **C63** … and on romaji: `to_kana` of the lowercased text -/
theorem C63_romaji (std : Std) (s : Str) (o : Options) (ho : o.pass_romaji = false)
    (h : IsJapaneseStr.is_romaji s = true) :
    ConvertJapanese.to_hiragana_with_opt std s o =
      ConvertJapanese.to_kana_with_opt std (std.toLowercase s) o ∧
    ConvertJapanese.to_katakana_with_opt std s o =
      (ConvertJapanese.to_hiragana_with_opt std s o >>= hiragana_to_katakana) := by
  have hr := (C01_is_romaji s).1 h
  have e := C59_romaji std s o ho hr.1 hr.2
  refine ⟨e.1, e.2.trans ?_⟩
  rw [← e.1]
  rfl

example : IsJapaneseStr.is_romaji ['w', 'i'] = true ∧ IsJapaneseStr.is_kana ['ウ', 'ィ'] = true ∧
    ConvertJapanese.to_katakana modernStd ['w', 'i'] = .ok ['ウ', 'ィ'] := by decide +kernel

/-! ## C64 -/

/-- **C64** the remaining character checks of `utils` -/
theorem C64_chars (c : Char) :
    (is_char_upper_case c = true ↔ AsciiUpper c) ∧
    (is_char_long_dash c = true ↔ c = 'ー') ∧
    (is_char_slash_dot c = true ↔ c = '・') ∧
    (is_char_romaji c = true ↔ Romaji c) := by
  refine ⟨?_, ?_, ?_, is_char_romaji_iff⟩
  · rw [is_char_upper_case, is_char_in_range, Bool.and_eq_true, decide_eq_true_eq, decide_eq_true_eq]
    rfl
  · rw [is_char_long_dash, decide_eq_true_eq, char_eq_iff]
    rfl
  · rw [is_char_slash_dot, decide_eq_true_eq, char_eq_iff]
    rfl

/-- **C64** `is_char_in_range` tests an inclusive range of code points -/
theorem C64_in_range (c lo hi : Char) :
    is_char_in_range c lo.toNat hi.toNat = true ↔ lo ≤ c ∧ c ≤ hi := by
  simp only [is_char_in_range, Bool.and_eq_true, decide_eq_true_eq, Char.le_def, Char.toNat,
    UInt32.le_iff_toNat_le]

/-- **C64** the vowels and consonants are the lowercase letters, `y` on request -/
theorem C64_letters (c : Char) (b : Bool) :
    (is_char_vowel_opt c b = true ↔ c ∈ ['a', 'e', 'i', 'o', 'u'] ∨ (c = 'y' ∧ b = true)) ∧
    (is_char_consonant c b = true ↔
      In 0x61 0x7A c ∧ c ∉ ['a', 'e', 'i', 'o', 'u'] ∧ (c = 'y' → b = true)) := by
  refine ⟨vowel_opt_iff c b, ?_⟩
  rw [consonant_iff]
  simp only [List.mem_cons, List.not_mem_nil, or_false, char_eq_iff, Char.reduceToNat, In]
  cases b <;> simp <;> omega

example : is_char_upper_case 'Z' = true ∧ is_char_upper_case '[' = false ∧
    is_char_consonant 'y' true = true ∧ is_char_in_range 'か' 'あ'.toNat 'ん'.toNat = true := by decide

end WanaKana
