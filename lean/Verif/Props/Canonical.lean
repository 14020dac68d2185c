import Verif.Spec.Canonical
import Verif.Props.RoundTrip2
/-! # C84: exactly which romaji are canonical -/

namespace WanaKana
open Spec (toHira kanaTable)

theorem neutral_copied {c : Char} (h : Spec.Neutral c) : Copied c := by
  have h1 := h.1
  rw [convertible_iff] at h1
  refine ⟨neutral_head h, fun e => h.2.2 (by rw [e]; decide), ?_, ?_⟩
  · cases hk : romajiKey c with
    | false => rfl
    | true => exact absurd (Or.inl hk) h1
  · simp only [plainChar, Bool.and_eq_true, bne_iff_ne, Bool.or_eq_true, Bool.not_eq_true']
    refine ⟨?_, ?_⟩
    · rintro rfl; exact h1 (by decide)
    · cases hk : keeps c with
      | true => exact Or.inl (Or.inl rfl)
      | false =>
        right
        cases ha : is_char_katakana c with
        | false => rfl
        | true => exact absurd (Or.inr ⟨ha, hk⟩) h1

theorem runit_iff {m : Mode} {u : Str} : RUnit m u ↔ Spec.CanonicalPiece (obsOf m) u := by
  constructor
  · rintro (h | ⟨c, h, rfl⟩)
    · left
      obtain ⟨x, hx, rfl⟩ := List.mem_map.1 h
      obtain ⟨h1, h2⟩ := List.mem_filter.1 hx
      refine ⟨x.1, h1, ?_⟩
      simpa [List.contains_eq_mem] using h2
    · right
      refine ⟨c, copied_neutral h fun hl => ?_, rfl⟩
      have := headChar_low_iff.2 (Or.inl hl)
      rw [h.1] at this; cases this
  · rintro (⟨k, h1, h2⟩ | ⟨c, h, rfl⟩)
    · left
      refine List.mem_map.2 ⟨(k, u), List.mem_filter.2 ⟨h1, ?_⟩, rfl⟩
      simpa [List.contains_eq_mem] using h2
    · exact Or.inr ⟨c, neutral_copied h, rfl⟩

/-- **C84** Everything made of canonical pieces, in any order, is canonical: the kana it stands for have this romaji. -/
theorem C84_canonical {std : Std} (hstd : std.Lawful) (o o' : Options) (hu : o.upcase_katakana = false)
    (hime : o'.imemode = true → o'.use_obsolete_kana = true)
    (us : List Str) (h : ∀ u ∈ us, Spec.CanonicalPiece o'.use_obsolete_kana u) :
    ∃ k, to_kana_with_opt std us.flatten o' = .ok k ∧ to_romaji_with_opt std k o = .ok us.flatten := by
  have hm := modeOf_ne_ime hime
  have hus : ∀ u ∈ us, RUnit (modeOf o') u := fun u hu => runit_iff.2 (by rw [obsOf_modeOf]; exact h u hu)
  have hn := normal_units hstd hm us.length us (Nat.le_refl _) hus
  refine ⟨_, to_kana_eq hstd _ _, ?_⟩
  rw [to_romaji_eq hstd, hu]
  congr 1
  conv => rhs; rw [← hn.rom]
  apply rom_flag
  rw [flagged_fst hstd, k2hP_id]
  · rw [List.map_map]; exact (List.map_id _).symm
  · intro d hd
    have := hn.plain d hd
    simp only [plainChar, Bool.and_eq_true, Bool.or_eq_true, Bool.not_eq_true'] at this
    exact or_assoc.1 this.2

/-- **C84** Exactly which romaji are canonical.  The kana must have no Latin letter or apostrophe left, no ゔ, and not
both っ and one of ゐ ゑ. -/
theorem C84_exact {std : Std} (hstd : std.Lawful) (r k : Str) (o o' : Options) (hu : o.upcase_katakana = false)
    (hime : o'.imemode = true → o'.use_obsolete_kana = true)
    (hk : to_kana_with_opt std r o' = .ok k)
    (hs : ∀ c ∈ k, ¬ Spec.AsciiLetter c ∧ c ≠ '\'' ∧ toHira c ≠ 'ゔ' ∧
      (toHira c ∉ ['ゐ', 'ゑ'] ∨ o'.use_obsolete_kana = true ∧ ∀ d ∈ k, toHira d ≠ 'っ')) :
    to_romaji_with_opt std k o = .ok r ↔
      ∃ us : List Str, r = us.flatten ∧ ∀ u ∈ us, Spec.CanonicalPiece o'.use_obsolete_kana u := by
  constructor
  · intro hr
    rw [to_romaji_eq hstd, hu] at hr
    cases hr
    obtain ⟨us, e, hus⟩ := rom_units hstd (modeOf o') (flagged std k) (flagged_ok hstd k o' hs)
    refine ⟨us, e, fun u h => ?_⟩
    have := runit_iff.1 (hus u h)
    rwa [obsOf_modeOf] at this
  · rintro ⟨us, rfl, h⟩
    obtain ⟨k', h1, h2⟩ := C84_canonical hstd o o' hu hime us h
    rw [hk] at h1
    cases h1
    exact h2

example : (∀ c ∈ "しんぶんや を、 っきゃ漢".toList, ¬ Spec.AsciiLetter c ∧ c ≠ '\'' ∧ toHira c ≠ 'ゔ' ∧ toHira c ∉ ['ゐ', 'ゑ']) ∧
    to_kana modernStd "shinbun'ya wo, kkya漢".toList = .ok "しんぶんや を、 っきゃ漢".toList ∧
    to_romaji modernStd "しんぶんや を、 っきゃ漢".toList = .ok "shinbun'ya wo, kkya漢".toList ∧
    to_kana modernStd "sinbun'ya".toList = .ok "しんぶんや".toList := by decide +kernel

end WanaKana
