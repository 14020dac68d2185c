import Verif.Spec.Platform
import Verif.Props.RomajiNormal
import Verif.Props.RomajiDet
import Verif.Proofs.StdUnicode
/-! # C83: which results do not depend on the version of the standard library -/

namespace WanaKana
open Spec (toHira)

/-- two standard libraries lower-case `s` alike -/
def SameLower (std std' : Std) (s : Str) : Prop :=
  ∀ c ∈ s, std.lowerChar c = std'.lowerChar c ∧ c ≠ 'Σ'

theorem lowerFrom_same {std std' : Std} (s : Str) (h : SameLower std std' s) : ∀ pre,
    std.lowerFrom pre s = std'.lowerFrom pre s := by
  induction s with
  | nil => intro _; rfl
  | cons c s ih =>
    intro pre
    obtain ⟨h1, h2⟩ := h c List.mem_cons_self
    rw [Std.lowerFrom, Std.lowerFrom, if_neg h2, if_neg h2, h1, ih fun d hd => h d (List.mem_cons_of_mem _ hd)]

theorem ordinary_same {std std' : Std} (hstd : std.Lawful) (hstd' : std'.Lawful) {c : Char} (h : Spec.Ordinary c) :
    std.lowerChar c = std'.lowerChar c ∧ c ≠ 'Σ' := by
  have hS : c ≠ 'Σ' := by
    rintro rfl
    revert h
    unfold Spec.Ordinary Spec.In
    simp only [Char.reduceToNat]
    intro h
    rcases h with h | h | h | h | h | h | h
    all_goals first | omega | exact absurd h (by decide)
  refine ⟨?_, hS⟩
  have hU : Uncased c → std.lowerChar c = std'.lowerChar c := fun h => by
    rw [hstd.lowerChar_uncased c h, hstd'.lowerChar_uncased c h]
  unfold Spec.Ordinary Spec.In at h
  rcases h with h | h | h | h | h | h | h
  · rw [hstd.lowerChar_ascii c h, hstd'.lowerChar_ascii c h]
  · exact hU (by unfold Uncased; omega)
  · exact hU (by unfold Uncased; omega)
  · exact hU (by unfold Uncased; omega)
  · exact hU (by unfold Uncased; omega)
  · exact hU (by unfold Uncased; omega)
  · have : ∀ c ∈ ['Ā', 'ā', 'Ē', 'ē', 'Ī', 'ī', 'Ō', 'ō', 'Ū', 'ū'],
        c.toNat ∈ [0x100, 0x101, 0x112, 0x113, 0x12a, 0x12b, 0x14c, 0x14d, 0x16a, 0x16b] := by decide
    rw [hstd.lowerChar_macron c (this c h), hstd'.lowerChar_macron c (this c h)]

/-- **C83** `to_kana` gives the same result on every text with every conforming standard library -/
theorem C83_to_kana {std std' : Std} (hstd : std.Lawful) (hstd' : std'.Lawful) (s : Str) (o : Options) :
    to_kana_with_opt std s o = to_kana_with_opt std' s o := by
  rw [to_kana_eq hstd, to_kana_eq hstd']

/-- **C83** So does `to_katakana` if lower-casing the characters of the text is the same -/
theorem C83_to_katakana {std std' : Std} (hstd : std.Lawful) (hstd' : std'.Lawful) (s : Str) (o : Options)
    (h : SameLower std std' s) : to_katakana_with_opt std s o = to_katakana_with_opt std' s o := by
  have : std.toLowercase s = std'.toLowercase s := lowerFrom_same s h []
  rw [to_katakana_eq hstd, to_katakana_eq hstd', kataP, kataP, this]

theorem k2hP_std {std std' : Std} (hstd : std.Lawful) (hstd' : std'.Lawful) (dest : Bool) (s : Str) (hv : 'ヴ' ∉ s) :
    k2hP std dest none s = k2hP std' dest none s := by
  have h1 := k2hP_hiraFrom hstd dest s [] (by simpa using hv)
  have h2 := k2hP_hiraFrom hstd' dest s [] (by simpa using hv)
  exact h1.trans h2.symm

theorem sameLower_k2hP {std std' : Std} (hstd : std.Lawful) (hstd' : std'.Lawful) (dest : Bool) (s : Str)
    (h : SameLower std std' s) : SameLower std std' (k2hP std dest none s) := by
  intro d hd
  have hm := k2hP_hiraFromV hstd dest s []
  rw [show k2hPrev none [] = none from rfl] at hm
  rw [hm] at hd
  have hU : ∀ d, Uncased d → std.lowerChar d = std'.lowerChar d ∧ d ≠ 'Σ' := by
    intro d h
    refine ⟨by rw [hstd.lowerChar_uncased d h, hstd'.lowerChar_uncased d h], ?_⟩
    rintro rfl
    revert h; unfold Uncased; simp only [Char.reduceToNat]; omega
  rcases hiraFromV_mem _ _ _ _ _ hd with ⟨c, hc, e⟩ | h'
  · by_cases e' : toHira c = c
    · rw [e, e']; exact h c hc
    · apply hU
      rw [e]
      rw [char_eq_iff, toHira_toNat] at e'
      unfold Uncased
      rw [toHira_toNat]
      repeat' split
      all_goals repeat' split at e'
      all_goals omega
  · have : ∀ d ∈ ['あ', 'い', 'う', 'え', 'お', 'ー'], Uncased d := by unfold Uncased; decide
    exact hU d (this d h')

/-- **C83** So does `to_hiragana` if moreover the text has no ヴ -/
theorem C83_to_hiragana {std std' : Std} (hstd : std.Lawful) (hstd' : std'.Lawful) (s : Str) (o : Options)
    (h : SameLower std std' s) (hv : 'ヴ' ∉ s) : to_hiragana_with_opt std s o = to_hiragana_with_opt std' s o := by
  have h1 : std.toLowercase s = std'.toLowercase s := lowerFrom_same s h []
  have h2 := k2hP_std hstd hstd' false s hv
  have h3 : std.toLowercase (k2hP std false none s) = std'.toLowercase (k2hP std false none s) :=
    lowerFrom_same _ (sameLower_k2hP hstd hstd' false s h) []
  rw [to_hiragana_eq hstd, to_hiragana_eq hstd', hiraP, hiraP, h1, ← h2, h3]

/-- **C83** On ordinary text without ゔ and ヴ every conversion is the same with every conforming standard library. -/
theorem C83_ordinary {std std' : Std} (hstd : std.Lawful) (hstd' : std'.Lawful) (s : Str) (o : Options)
    (h : ∀ c ∈ s, Spec.Ordinary c) (h1 : 'ゔ' ∉ s) (h2 : 'ヴ' ∉ s) :
    to_kana_with_opt std s o = to_kana_with_opt std' s o ∧
    to_katakana_with_opt std s o = to_katakana_with_opt std' s o ∧
    to_hiragana_with_opt std s o = to_hiragana_with_opt std' s o ∧
    to_romaji_with_opt std s o = to_romaji_with_opt std' s o :=
  have hl : SameLower std std' s := fun c hc => ordinary_same hstd hstd' (h c hc)
  ⟨C83_to_kana hstd hstd' s o, C83_to_katakana hstd hstd' s o hl, C83_to_hiragana hstd hstd' s o hl h2,
    C33_deterministic_partial hstd hstd' s o h1 h2⟩

example : ∀ c ∈ "Toukyou 東京タワーへ行くｱ！‘ō’".toList, Spec.Ordinary c ∧ c ≠ 'ゔ' ∧ c ≠ 'ヴ' := by
  unfold Spec.Ordinary Spec.In; decide +kernel

/-- **C83** The conditions are needed: É has no lower case in one conforming library and é in another, and the vowel
of ヴ is not determined. -/
theorem C83_needed : modernStd.Lawful ∧ rustStd.Lawful ∧ secondStd.Lawful ∧
    to_katakana_with_opt modernStd "eかÉ".toList {} ≠ to_katakana_with_opt rustStd "eかÉ".toList {} ∧
    to_hiragana_with_opt modernStd "eカÉ".toList {} ≠ to_hiragana_with_opt rustStd "eカÉ".toList {} ∧
    to_hiragana_with_opt modernStd "ヴー".toList {} ≠ to_hiragana_with_opt secondStd "ヴー".toList {} :=
  ⟨modernStd_lawful, rustStd_lawful, secondStd_lawful, by decide +kernel, by decide +kernel, by decide +kernel⟩

end WanaKana
