import Verif.Props.Lines
import Verif.Props.Convert4
import Verif.Spec.ScriptResult
/-! # C131: where `pass_romaji` changes the result -/

namespace WanaKana

/-- **C131** Exactly where `pass_romaji` changes the result of `to_katakana`. -/
theorem C131_katakana {std : Std} (hstd : std.Lawful) (s : Str) (o : Options) :
    to_katakana_with_opt std s { o with pass_romaji := true } = to_katakana_with_opt std s { o with pass_romaji := false } ↔
      (Spec.RomajiText s ∨ Spec.MixedText s →
        std.toLowercase s = s ∧ Spec.LeftAlone (o.imemode && !o.use_obsolete_kana) s) := by
  rw [to_katakana_eq hstd, to_katakana_eq hstd, Except.ok.injEq, ← ime_of_mode, ← leftAlone_iff]
  have hR : Spec.RomajiText s ↔ is_romaji s = true := (C01_is_romaji s).symm
  have hM : Spec.MixedText s ↔ is_mixed s = true := (C04_is_mixed s).symm
  rw [hR, hM]
  unfold kataP
  simp only [if_true, Bool.false_eq_true, if_false]
  by_cases hc : is_romaji s = true ∨ is_mixed s = true
  · rw [if_pos (by simpa using hc)]
    simp only [hc, forall_const]
    rw [eq_comm]
    exact kata_same hstd
  · rw [if_neg (by simpa using hc)]
    simp [hc]

/-- **C131** Exactly where `pass_romaji` changes the result of `to_hiragana`. -/
theorem C131_hiragana {std : Std} (hstd : std.Lawful) (s : Str) (o : Options) :
    to_hiragana_with_opt std s { o with pass_romaji := true } = to_hiragana_with_opt std s { o with pass_romaji := false } ↔
      (Spec.MixedText s → ∀ t, katakana_to_hiragana std s = .ok t →
        std.toLowercase t = t ∧ Spec.LeftAlone (o.imemode && !o.use_obsolete_kana) t) ∧
      (Spec.RomajiText s ∨ ¬ Spec.MixedText s ∧ (∃ c, s.head? = some c ∧ Spec.EnglishPunct c) →
        std.toLowercase s = s ∧ Spec.LeftAlone (o.imemode && !o.use_obsolete_kana) s) := by
  rw [to_hiragana_eq hstd, to_hiragana_eq hstd, Except.ok.injEq, k2h_pure hstd]
  simp only [← ime_of_mode, ← leftAlone_iff, Except.ok.injEq, forall_eq']
  have hR : Spec.RomajiText s ↔ is_romaji s = true := (C01_is_romaji s).symm
  have hM : Spec.MixedText s ↔ is_mixed s = true := (C04_is_mixed s).symm
  have hE : (∃ c, s.head? = some c ∧ Spec.EnglishPunct c) ↔ ((s.head?).map is_char_english_punctuation).getD false = true := by
    cases s with
    | nil => simp
    | cons c s => simp [is_char_english_punctuation_iff]
  unfold hiraP
  simp only [if_true, Bool.false_eq_true, if_false]
  show k2hP std false none s = (if is_mixed s then kana (modeOf o) _ else if _ then kana (modeOf o) _ else _) ↔ _
  rw [hR]
  cases hm : is_mixed s with
  | true =>
    have hr : is_romaji s = false := by
      cases h : is_romaji s with
      | false => rfl
      | true => rw [romaji_not_mixed h] at hm; cases hm
    have hM' : Spec.MixedText s := hM.2 hm
    simp only [hr, hM', if_true, forall_const, Bool.false_eq_true, not_true_eq_false, false_and, or_false, false_imp_iff, and_true]
    rw [eq_comm]
    exact kana_lower_fixed hstd
  | false =>
    have hM' : ¬ Spec.MixedText s := by rw [hM, hm]; simp
    simp only [hM', Bool.false_eq_true, if_false, false_imp_iff, true_and, not_false_eq_true]
    by_cases hr : is_romaji s = true
    · rw [if_pos (by simp [hr])]
      simp only [hr, true_or, forall_const]
      rw [(k2hP_fixed hstd s).2 (few_romaji hr), eq_comm]
      exact kana_lower_fixed hstd
    · by_cases he : ∃ c, s.head? = some c ∧ Spec.EnglishPunct c
      · rw [if_pos (by simp [hE.1 he])]
        simp only [he, or_true, forall_const]
        obtain ⟨c, hc, hp⟩ := he
        cases s with
        | nil => cases hc
        | cons c' s =>
          have : c' = c := by simpa using hc
          subst this
          by_cases hcr : Spec.Romaji c'
          · have hfew : FewKatakana (c' :: s) := by
              intro d hd hk
              exact absurd ⟨⟨d, hd, katakana_is_kana hk⟩, ⟨c', List.mem_cons_self, hcr⟩⟩ hM'
            rw [(k2hP_fixed hstd _).2 hfew, eq_comm]
            exact kana_lower_fixed hstd
          · have hno := fun m (s : Str) => smart_quote_no_fix (m := m) (s := s) hp hcr
            have hq : c' ∈ ['‘', '’', '“', '”'] := by
              rcases hp with h | h | h | h | h
              all_goals first
                | exact h
                | exact absurd (Or.inl (by unfold Spec.Ascii; have := h.2; omega)) hcr
            constructor
            · intro h
              exfalso
              have hu : k2hP std false none (c' :: s) = c' :: k2hP std false none s := by
                have hk : ∀ q ∈ ['‘', '’', '“', '”'], keeps q = false ∧ isDash q = false ∧ is_char_katakana q = false := by decide
                obtain ⟨h1, h2, h3⟩ := hk c' hq
                rw [k2hP_cons, h1, h2, h3]
                simp
              rw [hu] at h
              exact kana_head_not_quote _ _ hq _ h.symm
            · intro h
              exact absurd h.2 (hno _ _)
      · rw [if_neg (by rw [Bool.or_eq_true, ← hE]; simp [hr, he])]
        simp [hr, he]

/-- texts whose letters stay anyway, and texts with romaji, capitals or quotes that are converted only without it -/
example : (∀ o : Options, o = {} →
      to_katakana_with_opt rustStd "かt漢".toList { o with pass_romaji := true } = to_katakana_with_opt rustStd "かt漢".toList o ∧
      to_hiragana_with_opt rustStd "カt漢".toList { o with pass_romaji := true } = to_hiragana_with_opt rustStd "カt漢".toList o) ∧
    (∀ s ∈ ["T".toList, "ka".toList, "カna".toList, "‘カ".toList],
      to_hiragana_with_opt rustStd s { pass_romaji := true } ≠ to_hiragana rustStd s) ∧
    to_katakana_with_opt rustStd "かT".toList { pass_romaji := true } = .ok "カT".toList ∧
    to_katakana rustStd "かT".toList = .ok "カt".toList := by
  refine ⟨?_, by decide +kernel, by decide +kernel, by decide +kernel⟩
  rintro o rfl
  decide +kernel

end WanaKana
