import Verif.Spec.ImeAgree
import Verif.Props.ImeAgree
import Verif.Props.Convert2
/-! # C129: where IME mode changes `to_hiragana` and `to_katakana` -/

namespace WanaKana
open KNode

theorem low_lowered {std : Std} (hstd : std.Lawful) (s : Str) : low (std.toLowercase s) = std.toLowercase s := by
  unfold low
  conv => rhs; rw [← List.map_id (std.toLowercase s)]
  apply List.map_congr_left
  intro c hc
  have := settled_not_upper hstd (lower_settled hstd hc)
  apply char_ext
  rw [toAsciiLowercase_toNat, if_neg this]
  rfl

/-- lower-case text has no capital N -/
theorem nSettled_low {std : Std} (hstd : std.Lawful) (s : Str) :
    Spec.NSettled (std.toLowercase s) ↔ NOk (std.toLowercase s) := by
  unfold Spec.NSettled NOk
  rw [low_lowered hstd s]
  exact Iff.rfl

theorem kana_mode (o : Options) (u : Str) :
    (kana (modeOf { o with imemode := true }) u = kana (modeOf { o with imemode := false }) u ↔
      o.use_obsolete_kana = true ∨ NOk u) ∧
    ((kana (modeOf { o with imemode := true }) u).map h2kP = (kana (modeOf { o with imemode := false }) u).map h2kP ↔
      o.use_obsolete_kana = true ∨ NOk u) := by
  unfold modeOf
  cases hu : o.use_obsolete_kana with
  | true => simp
  | false =>
    simp only [Bool.false_eq_true, if_true, if_false, false_or]
    refine ⟨⟨nOk_of_agree u, agree_of_nOk u⟩, nOk_of_agreeK u, fun h => ?_⟩
    rw [agree_of_nOk u h]

/-- **C129** Exactly where IME mode changes the result of `to_hiragana`. -/
theorem C129_hiragana {std : Std} (hstd : std.Lawful) (s : Str) (o : Options) :
    to_hiragana_with_opt std s { o with imemode := true } = to_hiragana_with_opt std s { o with imemode := false } ↔
      o.pass_romaji = true ∨ o.use_obsolete_kana = true ∨
      ((Spec.MixedText s → ∀ t, katakana_to_hiragana std s = .ok t → Spec.NSettled (std.toLowercase t)) ∧
        (Spec.RomajiText s ∨ ¬ Spec.MixedText s ∧ (∃ c, s.head? = some c ∧ Spec.EnglishPunct c) →
          Spec.NSettled (std.toLowercase s))) := by
  rw [to_hiragana_eq hstd, to_hiragana_eq hstd, Except.ok.injEq, k2h_pure hstd]
  unfold hiraP
  cases hp : o.pass_romaji with
  | true => simp
  | false =>
    have hR : Spec.RomajiText s ↔ is_romaji s = true := (C01_is_romaji s).symm
    have hM : Spec.MixedText s ↔ is_mixed s = true := (C04_is_mixed s).symm
    have hE : (∃ c, s.head? = some c ∧ Spec.EnglishPunct c) ↔ ((s.head?).map is_char_english_punctuation).getD false = true := by
      cases s with
      | nil => simp
      | cons c s => simp [is_char_english_punctuation_iff]
    rw [hR, hM, hE]
    simp only [Bool.false_eq_true, if_false, false_or, nSettled_low hstd, Except.ok.injEq]
    cases hm : is_mixed s with
    | true =>
      have hr : is_romaji s = false := by
        cases h : is_romaji s with
        | false => rfl
        | true => rw [romaji_not_mixed h] at hm; cases hm
      simp only [hr, if_true, forall_const, Bool.false_eq_true, not_true_eq_false, false_and, or_false, false_imp_iff, and_true,
        forall_eq']
      exact (kana_mode o _).1
    | false =>
      simp only [Bool.false_eq_true, if_false, false_imp_iff, true_and, not_false_eq_true]
      by_cases hc : is_romaji s = true ∨ ((s.head?).map is_char_english_punctuation).getD false = true
      · rw [if_pos (by simpa using hc), if_pos (by simpa using hc)]
        simp only [hc, forall_const]
        exact (kana_mode o _).1
      · rw [if_neg (by simpa using hc), if_neg (by simpa using hc)]
        simp [hc]

/-- **C129** Exactly where IME mode changes the result of `to_katakana`. -/
theorem C129_katakana {std : Std} (hstd : std.Lawful) (s : Str) (o : Options) :
    to_katakana_with_opt std s { o with imemode := true } = to_katakana_with_opt std s { o with imemode := false } ↔
      o.pass_romaji = true ∨ o.use_obsolete_kana = true ∨
      (Spec.RomajiText s ∨ Spec.MixedText s → Spec.NSettled (std.toLowercase s)) := by
  rw [to_katakana_eq hstd, to_katakana_eq hstd, Except.ok.injEq]
  unfold kataP
  cases hp : o.pass_romaji with
  | true => simp
  | false =>
    have hR : Spec.RomajiText s ↔ is_romaji s = true := (C01_is_romaji s).symm
    have hM : Spec.MixedText s ↔ is_mixed s = true := (C04_is_mixed s).symm
    rw [hR, hM]
    simp only [Bool.false_eq_true, if_false, false_or, nSettled_low hstd]
    by_cases hc : is_romaji s = true ∨ is_mixed s = true
    · rw [if_pos (by simpa using hc), if_pos (by simpa using hc)]
      simp only [hc, forall_const]
      exact (kana_mode o _).2
    · rw [if_neg (by simpa using hc), if_neg (by simpa using hc)]
      simp [hc]

/-- texts that differ, and texts that do not -/
example : (∀ s ∈ ["hon".toList, "Konna".toList, "アn".toList],
      to_hiragana_with_opt rustStd s { imemode := true } ≠ to_hiragana rustStd s ∧
      to_katakana_with_opt rustStd s { imemode := true } ≠ to_katakana rustStd s) ∧
    (∀ s ∈ ["hon'ya".toList, "XN".toList, "漢n".toList, "アnya".toList],
      to_hiragana_with_opt rustStd s { imemode := true } = to_hiragana rustStd s ∧
      to_katakana_with_opt rustStd s { imemode := true } = to_katakana rustStd s) := by
  decide +kernel

end WanaKana
