import Verif.Proofs.Chars
/-! # C01–C08: the script checks -/

namespace WanaKana
open Spec

/-! ## C01 -/

theorem C01_is_hiragana (s : Str) : is_hiragana s = true ↔ s ≠ [] ∧ ∀ c ∈ s, Hiragana c := by
  cases s <;> simp [is_hiragana, is_char_hiragana_iff, specHiragana_iff]

theorem C01_is_katakana (s : Str) : is_katakana s = true ↔ s ≠ [] ∧ ∀ c ∈ s, Katakana c := by
  cases s <;> simp [is_katakana, is_char_katakana_iff, specKatakana_iff]

theorem C01_is_kana (s : Str) : is_kana s = true ↔ s ≠ [] ∧ ∀ c ∈ s, Kana c := by
  cases s <;> simp [is_kana, is_char_kana_iff, specKana_iff]

theorem C01_is_kanji (s : Str) : is_kanji s = true ↔ s ≠ [] ∧ ∀ c ∈ s, Kanji c := by
  cases s <;> simp [is_kanji, is_char_kanji_iff, Kanji, In]

theorem C01_contains_kanji (s : Str) : contains_kanji s = true ↔ ∃ c ∈ s, Kanji c := by
  cases s <;> simp [contains_kanji, is_char_kanji_iff, Kanji, In]

theorem C01_is_romaji (s : Str) : is_romaji s = true ↔ s ≠ [] ∧ ∀ c ∈ s, Romaji c := by
  cases s <;> simp [is_romaji, is_char_romaji_iff]

theorem C01_is_japanese (s : Str) : is_japanese s = true ↔ s ≠ [] ∧ ∀ c ∈ s, Japanese c := by
  cases s <;> simp [is_japanese, is_char_japanese_iff]

example : is_hiragana ['げ', 'ー', 'む'] = true ∧ is_katakana ['あ', 'ア'] = false
    ∧ is_romaji ['T', 'ō', '1'] = true ∧ is_japanese ['２', '月'] = true
    ∧ contains_kanji ['勢', 'い'] = true ∧ is_kanji ['勢', 'い'] = false := by decide

/-! ## C02 -/

theorem C02_kana_iff (c : Char) :
    is_char_kana c = true ↔ is_char_hiragana c = true ∨ is_char_katakana c = true := by
  simp [is_char_kana]

theorem C02_hiragana_and_katakana_iff (c : Char) :
    (is_char_hiragana c = true ∧ is_char_katakana c = true) ↔ c = 'ー' := by
  rw [is_char_hiragana_iff, is_char_katakana_iff, char_eq_iff]
  simp only [Char.reduceToNat]
  omega

/-- on strings: a string that is both hiragana and katakana consists of ー only -/
theorem C02_strings (s : Str) : (is_hiragana s = true ∧ is_katakana s = true) ↔
    s ≠ [] ∧ ∀ c ∈ s, c = 'ー' := by
  rw [C01_is_hiragana, C01_is_katakana]
  constructor
  · rintro ⟨⟨h0, h1⟩, _, h2⟩
    refine ⟨h0, fun c hc => (C02_hiragana_and_katakana_iff c).1 ⟨?_, ?_⟩⟩
    · rw [is_char_hiragana_iff]; exact specHiragana_iff.1 (h1 c hc)
    · rw [is_char_katakana_iff]; exact specKatakana_iff.1 (h2 c hc)
  · rintro ⟨h0, h1⟩
    refine ⟨⟨h0, fun c hc => ?_⟩, h0, fun c hc => ?_⟩
    · exact Or.inr (h1 c hc)
    · exact Or.inr (Or.inr (h1 c hc))

/-- every hiragana or katakana string is a kana string, and mixing them stays kana -/
theorem C02_kana_strings (a b : Str) (ha : is_hiragana a = true) (hb : is_katakana b = true) :
    is_kana a = true ∧ is_kana b = true ∧ is_kana (a ++ b) = true := by
  rw [C01_is_hiragana] at ha
  rw [C01_is_katakana] at hb
  simp only [C01_is_kana]
  have h1 : ∀ c ∈ a, Kana c := fun c hc => specKana_iff.2 (by
    have := specHiragana_iff.1 (ha.2 c hc); omega)
  have h2 : ∀ c ∈ b, Kana c := fun c hc => specKana_iff.2 (by
    have := specKatakana_iff.1 (hb.2 c hc); omega)
  refine ⟨⟨ha.1, h1⟩, ⟨hb.1, h2⟩, by simp [ha.1], fun c hc => ?_⟩
  rcases List.mem_append.1 hc with h | h
  · exact h1 c h
  · exact h2 c h

example : is_hiragana ['あ', 'ー'] = true ∧ is_katakana ['ア', 'ー'] = true := by decide

/-! ## C03 -/

theorem C03_disjoint (c : Char) : ¬ (is_char_japanese c = true ∧ is_char_romaji c = true) := by
  rw [is_char_japanese_iff, is_char_romaji_iff, specRomaji_iff]
  simp only [Japanese, In, List.mem_cons, List.not_mem_nil, or_false]
  omega

theorem C03_disjoint_strings (s : Str) : ¬ (is_japanese s = true ∧ is_romaji s = true) := by
  rintro ⟨h1, h2⟩
  rw [C01_is_japanese] at h1
  rw [C01_is_romaji] at h2
  obtain ⟨c, hc⟩ := List.exists_mem_of_ne_nil s h1.1
  exact C03_disjoint c ⟨is_char_japanese_iff.2 (h1.2 c hc), is_char_romaji_iff.2 (h2.2 c hc)⟩

theorem C03_sub (c : Char) (h : is_char_kana c = true ∨ is_char_kanji c = true
    ∨ is_char_japanese_number c = true ∨ is_char_japanese_punctuation c = true) :
    is_char_japanese c = true := by
  rw [is_char_kana_iff, is_char_kanji_iff, is_char_japanese_number_iff,
    is_char_japanese_punctuation_iff] at h
  rw [is_char_japanese_iff]
  simp only [ZenkakuDigit, JapanesePunct, Japanese, In, char_eq_iff, Char.reduceToNat] at *
  omega

theorem C03_sub_strings (s : Str) (h : is_kana s = true ∨ is_kanji s = true
    ∨ is_hiragana s = true ∨ is_katakana s = true) : is_japanese s = true := by
  have key : s ≠ [] ∧ ∀ c ∈ s, is_char_kana c = true ∨ is_char_kanji c = true := by
    rcases h with h | h | h | h
    · rw [C01_is_kana] at h
      exact ⟨h.1, fun c hc => Or.inl (is_char_kana_iff.2 (specKana_iff.1 (h.2 c hc)))⟩
    · rw [C01_is_kanji] at h
      exact ⟨h.1, fun c hc => Or.inr (is_char_kanji_iff.2 (h.2 c hc))⟩
    · rw [C01_is_hiragana] at h
      refine ⟨h.1, fun c hc => Or.inl (is_char_kana_iff.2 ?_)⟩
      have := specHiragana_iff.1 (h.2 c hc); omega
    · rw [C01_is_katakana] at h
      refine ⟨h.1, fun c hc => Or.inl (is_char_kana_iff.2 ?_)⟩
      have := specKatakana_iff.1 (h.2 c hc); omega
  rw [C01_is_japanese]
  refine ⟨key.1, fun c hc => is_char_japanese_iff.1 (C03_sub c ?_)⟩
  rcases key.2 c hc with h | h
  · exact Or.inl h
  · exact Or.inr (Or.inl h)

example : is_kana ['あ', 'ア', 'ー'] = true ∧ is_japanese ['あ', 'ア', 'ー'] = true
    ∧ is_romaji ['a'] = true := by decide

/-! ## C04 -/

theorem C04_is_mixed (s : Str) :
    is_mixed s = true ↔ (∃ c ∈ s, Kana c) ∧ (∃ c ∈ s, Romaji c) := by
  simp only [is_mixed, is_mixed_pass_kanji, Bool.and_eq_true, Bool.or_eq_true, List.any_eq_true,
    is_char_hiragana_iff, is_char_katakana_iff, is_char_romaji_iff, specKana_iff]
  simp only [Bool.not_true, Bool.false_eq_true, if_false, Bool.not_false, and_true]
  constructor
  · rintro ⟨⟨c, hc, h⟩ | ⟨c, hc, h⟩, h2⟩
    · exact ⟨⟨c, hc, by omega⟩, h2⟩
    · exact ⟨⟨c, hc, by omega⟩, h2⟩
  · rintro ⟨⟨c, hc, h⟩, h2⟩
    refine ⟨?_, h2⟩
    rcases h with h | h
    · exact Or.inl ⟨c, hc, Or.inr h⟩
    · exact Or.inr ⟨c, hc, h⟩

theorem C04_pass_kanji_true (s : Str) : is_mixed_pass_kanji s true = is_mixed s := rfl

theorem C04_pass_kanji_false (s : Str) : is_mixed_pass_kanji s false = true ↔
    (∃ c ∈ s, Kana c) ∧ (∃ c ∈ s, Romaji c) ∧ ¬ ∃ c ∈ s, Kanji c := by
  have h : is_mixed_pass_kanji s false = (is_mixed s && !s.any is_char_kanji) := by
    simp [is_mixed, is_mixed_pass_kanji]
  rw [h, Bool.and_eq_true, C04_is_mixed, Bool.not_eq_true', and_assoc]
  refine and_congr_right fun _ => and_congr_right fun _ => ?_
  rw [← Bool.not_eq_true, List.any_eq_true]
  simp only [is_char_kanji_iff, Kanji, In]

/-- order (and multiplicity) of characters is irrelevant -/
theorem C04_set (s t : Str) (p : Bool) (h : ∀ c, c ∈ s ↔ c ∈ t) :
    is_mixed_pass_kanji s p = is_mixed_pass_kanji t p := by
  rw [Bool.eq_iff_iff]
  cases p
  · simp only [C04_pass_kanji_false, h]
  · simp only [C04_pass_kanji_true, C04_is_mixed, h]

theorem C04_perm (s t : Str) (p : Bool) (h : s.Perm t) :
    is_mixed_pass_kanji s p = is_mixed_pass_kanji t p :=
  C04_set s t p fun _ => h.mem_iff

theorem C04_monotone (a s b : Str) (h : is_mixed s = true) : is_mixed (a ++ s ++ b) = true := by
  rw [C04_is_mixed] at *
  obtain ⟨⟨c, hc, h1⟩, ⟨d, hd, h2⟩⟩ := h
  exact ⟨⟨c, by simp [hc], h1⟩, ⟨d, by simp [hd], h2⟩⟩

theorem C04_exclusive (s : Str) (p : Bool) (h : is_mixed_pass_kanji s p = true) :
    is_romaji s = false ∧ is_japanese s = false ∧ is_kana s = false ∧ is_kanji s = false
      ∧ is_hiragana s = false ∧ is_katakana s = false := by
  have h' : (∃ c ∈ s, Kana c) ∧ (∃ c ∈ s, Romaji c) := by
    cases p
    · exact ⟨((C04_pass_kanji_false s).1 h).1, ((C04_pass_kanji_false s).1 h).2.1⟩
    · exact (C04_is_mixed s).1 h
  obtain ⟨⟨c, hc, h1⟩, ⟨d, hd, h2⟩⟩ := h'
  have hj : is_japanese s = false := by
    rw [← Bool.not_eq_true, C01_is_japanese]
    intro h3
    exact C03_disjoint d ⟨is_char_japanese_iff.2 (h3.2 d hd), is_char_romaji_iff.2 h2⟩
  have hr : is_romaji s = false := by
    rw [← Bool.not_eq_true, C01_is_romaji]
    intro h3
    exact C03_disjoint c ⟨C03_sub c (Or.inl (is_char_kana_iff.2 (specKana_iff.1 h1))),
      is_char_romaji_iff.2 (h3.2 c hc)⟩
  have hs : ∀ b : Bool, (b = true → is_japanese s = true) → b = false := by
    intro b hb
    cases b
    · rfl
    · rw [hb rfl] at hj; cases hj
  exact ⟨hr, hj, hs _ fun h => C03_sub_strings s (Or.inl h),
    hs _ fun h => C03_sub_strings s (Or.inr (Or.inl h)),
    hs _ fun h => C03_sub_strings s (Or.inr (Or.inr (Or.inl h))),
    hs _ fun h => C03_sub_strings s (Or.inr (Or.inr (Or.inr h)))⟩

example : is_mixed ['お', '腹', 'A'] = true ∧ is_mixed_pass_kanji ['お', '腹', 'A'] false = false
    ∧ is_mixed_pass_kanji ['あ', 'A'] false = true := by decide

/-! ## C05 -/

/-- The six "all characters" checks. -/
inductive Check where
  | hiragana | katakana | kana | kanji | romaji | japanese

/-- the check as provided by the library -/
def Check.run : Check → Str → Bool
  | .hiragana => is_hiragana
  | .katakana => is_katakana
  | .kana => is_kana
  | .kanji => is_kanji
  | .romaji => is_romaji
  | .japanese => is_japanese

theorem Check.run_iff (k : Check) : ∃ P : Char → Prop, ∀ s, k.run s = true ↔ s ≠ [] ∧ ∀ c ∈ s, P c := by
  cases k
  · exact ⟨_, C01_is_hiragana⟩
  · exact ⟨_, C01_is_katakana⟩
  · exact ⟨_, C01_is_kana⟩
  · exact ⟨_, C01_is_kanji⟩
  · exact ⟨_, C01_is_romaji⟩
  · exact ⟨_, C01_is_japanese⟩

theorem C05_append (k : Check) (a b : Str) (ha : a ≠ []) (hb : b ≠ []) :
    k.run (a ++ b) = (k.run a && k.run b) := by
  obtain ⟨P, hP⟩ := k.run_iff
  rw [Bool.eq_iff_iff, Bool.and_eq_true, hP, hP, hP]
  simp only [ne_eq, List.append_eq_nil_iff, List.mem_append, ha, hb, not_false_eq_true, true_and,
    and_self]
  exact ⟨fun h => ⟨fun c hc => h c (Or.inl hc), fun c hc => h c (Or.inr hc)⟩,
    fun h c hc => hc.elim (h.1 c) (h.2 c)⟩

theorem C05_infix (k : Check) (s t : Str) (ht : t ≠ []) (hsub : t <:+: s) (hs : k.run s = true) :
    k.run t = true := by
  obtain ⟨P, hP⟩ := k.run_iff
  rw [hP] at *
  exact ⟨ht, fun c hc => hs.2 c (hsub.subset hc)⟩

theorem C05_perm (k : Check) (s t : Str) (h : s.Perm t) : k.run s = k.run t := by
  obtain ⟨P, hP⟩ := k.run_iff
  rw [Bool.eq_iff_iff, hP, hP]
  refine and_congr ?_ ?_
  · exact not_congr ⟨fun e => by subst e; exact h.nil_eq.symm, fun e => by subst e; exact h.eq_nil⟩
  · exact ⟨fun g c hc => g c (h.mem_iff.2 hc), fun g c hc => g c (h.mem_iff.1 hc)⟩

example : Check.run .kana ['あ', 'ア'] = true ∧ Check.run .kana ['あ'] = true
    ∧ ['ア'] <:+: ['あ', 'ア', 'あ'] := by decide

/-! ## C06 — the documented statement is false -/

/-- What the documentation says: "Checks if all chars are in the japanese unicode ranges or
match the provided regex". -/
def C06_documented (inScript : Char → Prop) (check : Str → Option Regex → Bool) : Prop :=
  ∀ (s : Str) (r : Regex),
    check s (some r) = true ↔ s ≠ [] ∧ ∀ c ∈ s, inScript c ∨ r.is_match [c] = true

/-- What the code does: one match of the regex anywhere in the input excuses every other
character. -/
theorem C06_japanese_partial (s : Str) (r : Regex) :
    is_japanese_with_whitelist s (some r) = true ↔
      s ≠ [] ∧ ((∀ c ∈ s, Japanese c) ∨ r.is_match s = true) := by
  cases s with
  | nil => simp [is_japanese_with_whitelist]
  | cons a t =>
    simp only [is_japanese_with_whitelist, List.isEmpty_cons, Bool.false_eq_true, if_false,
      List.all_eq_true, ← is_char_japanese_iff]
    cases hm : r.is_match (a :: t)
    · simp
    · simp

theorem C06_romaji_partial (s : Str) (r : Regex) :
    is_romaji_with_whitelist s (some r) = true ↔
      s ≠ [] ∧ ((∀ c ∈ s, Romaji c) ∨ r.is_match s = true) := by
  cases s with
  | nil => simp [is_romaji_with_whitelist]
  | cons a t =>
    simp only [is_romaji_with_whitelist, List.isEmpty_cons, Bool.false_eq_true, if_false,
      List.all_eq_true, ← is_char_romaji_iff]
    cases hm : r.is_match (a :: t)
    · simp
    · simp

/-- One direction of the documented statement holds for regexes that, like an unanchored
character class, match a text as soon as they match one of its characters. -/
theorem C06_japanese_sound_partial (s : Str) (r : Regex)
    (hr : ∀ c ∈ s, r.is_match [c] = true → r.is_match s = true)
    (h : s ≠ [] ∧ ∀ c ∈ s, Japanese c ∨ r.is_match [c] = true) :
    is_japanese_with_whitelist s (some r) = true := by
  rw [C06_japanese_partial]
  refine ⟨h.1, ?_⟩
  by_cases hj : ∀ c ∈ s, Japanese c
  · exact Or.inl hj
  · right
    simp only [Classical.not_forall] at hj
    obtain ⟨c, hc, hn⟩ := hj
    exact hr c hc ((h.2 c hc).resolve_left hn)

theorem C06_romaji_sound_partial (s : Str) (r : Regex)
    (hr : ∀ c ∈ s, r.is_match [c] = true → r.is_match s = true)
    (h : s ≠ [] ∧ ∀ c ∈ s, Romaji c ∨ r.is_match [c] = true) :
    is_romaji_with_whitelist s (some r) = true := by
  rw [C06_romaji_partial]
  refine ⟨h.1, ?_⟩
  by_cases hj : ∀ c ∈ s, Romaji c
  · exact Or.inl hj
  · right
    simp only [Classical.not_forall] at hj
    obtain ⟨c, hc, hn⟩ := hj
    exact hr c hc ((h.2 c hc).resolve_left hn)

theorem C06_none_partial (s : Str) :
    is_japanese_with_whitelist s none = is_japanese s ∧
    is_romaji_with_whitelist s none = is_romaji s := by
  constructor
  · cases s <;> simp [is_japanese_with_whitelist, is_japanese]
  · cases s <;> simp [is_romaji_with_whitelist, is_romaji]

/-- the regex `[≪≫]`: some character is ≪ or ≫ -/
def guillemets : Regex := ⟨fun s => s.any fun c => c == '≪' || c == '≫'⟩

/-- "≪x≫" is accepted although `x` is neither Japanese nor matched by `[≪≫]`. -/
theorem C06_japanese_false : ¬ C06_documented Japanese is_japanese_with_whitelist := by
  intro h
  have h1 := (h ['≪', 'x', '≫'] guillemets).1 (by decide)
  have h2 := h1.2 'x' (by decide)
  revert h2
  simp only [← is_char_japanese_iff]
  decide

theorem C06_romaji_false : ¬ C06_documented Romaji is_romaji_with_whitelist := by
  intro h
  have h1 := (h ['≪', 'あ', '≫'] guillemets).1 (by decide)
  have h2 := h1.2 'あ' (by decide)
  revert h2
  simp only [← is_char_romaji_iff]
  decide

/-! ## C07 -/

/-- a … z -/
def LowerLetter (c : Char) : Prop := In 0x61 0x7A c

theorem vowel_opt_iff (c : Char) (b : Bool) :
    is_char_vowel_opt c b = true ↔ c ∈ ['a', 'e', 'i', 'o', 'u'] ∨ (c = 'y' ∧ b = true) := by
  unfold is_char_vowel_opt
  split <;> simp_all

theorem consonant_iff (c : Char) (b : Bool) :
    is_char_consonant c b = true ↔ c ∈ ['b', 'c', 'd', 'f', 'g', 'h', 'j', 'k', 'l', 'm', 'n', 'p',
      'q', 'r', 's', 't', 'v', 'w', 'x', 'z'] ∨ (c = 'y' ∧ b = true) := by
  unfold is_char_consonant
  split <;> simp_all

theorem C07_partition (c : Char) (b : Bool) :
    (LowerLetter c ↔ is_char_vowel_opt c b = true ∨ is_char_consonant c (!b) = true) ∧
    ¬ (is_char_vowel_opt c b = true ∧ is_char_consonant c (!b) = true) := by
  rw [vowel_opt_iff, consonant_iff]
  simp only [List.mem_cons, List.not_mem_nil, or_false, char_eq_iff, Char.reduceToNat, LowerLetter, In]
  cases b <;> simp <;> omega

/-- by default `y` counts as a vowel -/
theorem C07_default (c : Char) : is_char_vowel c = is_char_vowel_opt c true := rfl

example : is_char_vowel 'y' = true ∧ is_char_consonant 'y' false = false
    ∧ is_char_vowel_opt 'y' false = false ∧ is_char_consonant 'y' true = true := by decide

/-! ## C08 -/

theorem C08_disjoint (c : Char) :
    ¬ (is_char_latin_number c = true ∧ is_char_japanese_number c = true) ∧
    ¬ (is_char_latin_number c = true ∧ is_char_english_punctuation c = true) ∧
    ¬ (is_char_latin_number c = true ∧ is_char_japanese_punctuation c = true) ∧
    ¬ (is_char_japanese_number c = true ∧ is_char_english_punctuation c = true) ∧
    ¬ (is_char_japanese_number c = true ∧ is_char_japanese_punctuation c = true) ∧
    ¬ (is_char_english_punctuation c = true ∧ is_char_japanese_punctuation c = true) := by
  simp only [is_char_latin_number_iff, is_char_japanese_number_iff,
    is_char_english_punctuation_iff, is_char_japanese_punctuation_iff, LatinDigit, ZenkakuDigit,
    EnglishPunct, JapanesePunct, In, List.mem_cons, List.not_mem_nil, or_false, char_eq_iff,
    Char.reduceToNat]
  omega

theorem C08_union (c : Char) : is_char_punctuation c = true ↔ EnglishPunct c ∨ JapanesePunct c := by
  simp [is_char_punctuation, is_char_english_punctuation_iff, is_char_japanese_punctuation_iff]

theorem C08_exact (c : Char) :
    (is_char_latin_number c = true ↔ LatinDigit c) ∧
    (is_char_japanese_number c = true ↔ ZenkakuDigit c) ∧
    (is_char_english_punctuation c = true ↔ EnglishPunct c) ∧
    (is_char_japanese_punctuation c = true ↔ JapanesePunct c) :=
  ⟨is_char_latin_number_iff, is_char_japanese_number_iff, is_char_english_punctuation_iff,
    is_char_japanese_punctuation_iff⟩

theorem C08_not_romaji (c : Char)
    (h : is_char_japanese_punctuation c = true ∨ is_char_japanese_number c = true) :
    is_char_romaji c = false := by
  rw [← Bool.not_eq_true]
  intro hr
  exact C03_disjoint c ⟨C03_sub c (h.elim (fun h => Or.inr (Or.inr (Or.inr h)))
    (fun h => Or.inr (Or.inr (Or.inl h)))), hr⟩

theorem C08_not_japanese (c : Char) (h : is_char_english_punctuation c = true) :
    is_char_japanese c = false := by
  rw [← Bool.not_eq_true, is_char_japanese_iff]
  rw [is_char_english_punctuation_iff] at h
  simp only [EnglishPunct, Japanese, In, List.mem_cons, List.not_mem_nil, or_false, char_eq_iff,
    Char.reduceToNat] at *
  omega

example : is_char_japanese_punctuation '。' = true ∧ is_char_english_punctuation '’' = true
    ∧ is_char_japanese_number '４' = true := by decide

end WanaKana
