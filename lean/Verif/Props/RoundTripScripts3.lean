import Verif.Spec.ReadBackIme
import Verif.Props.RoundTripScripts2
import Verif.Props.RoundTripIme
/-! # C126: reading romaji back with to_hiragana and to_katakana in IME mode -/

namespace WanaKana
open KNode RNode
open Spec (toHira kanaTable)

theorem readBackIme_iff {std : Std} (hstd : std.Lawful) (s : Str) (o o' : Options) (hu : o.upcase_katakana = false)
    (him : o'.imemode = true) (hob : o'.use_obsolete_kana = false) {x y : Char}
    (hx : to_romaji_with_opt std "ゔ".toList o = .ok ['v', x]) (hxu : x ≠ 'u')
    (hy : to_romaji_with_opt std "っゔ".toList o = .ok ['v', 'v', y]) (hyu : y ≠ 'u') {r : Str}
    (hr : to_romaji_with_opt std s o = .ok r) :
    to_kana_with_opt std r o' = .ok s ↔
      Spec.ReadBackIme Spec.imeTable (fun b t => to_romaji_with_opt std b o = .ok t) s := by
  have := C123_exact hstd s o o' hu him hob hx hxu hy hyu
  constructor
  · intro h
    obtain ⟨h1, h2, h3⟩ := this.1 ⟨r, hr, h⟩
    exact ⟨h1, h2, h3⟩
  · rintro ⟨h1, h2, h3⟩
    obtain ⟨r', h4, h5⟩ := this.2 ⟨h1, h2, h3⟩
    rw [hr] at h4
    cases h4
    exact h5

/-- **C126** Exactly which texts `to_hiragana` in IME mode brings back from their romaji, for every text. -/
theorem C126_hiragana {std : Std} (hstd : std.Lawful) (s r : Str) (o o' : Options) (hu : o.upcase_katakana = false)
    (him : o'.imemode = true) (hob : o'.use_obsolete_kana = false) {x y : Char}
    (hx : to_romaji_with_opt std "ゔ".toList o = .ok ['v', x]) (hxu : x ≠ 'u')
    (hy : to_romaji_with_opt std "っゔ".toList o = .ok ['v', 'v', y]) (hyu : y ≠ 'u')
    (hr : to_romaji_with_opt std s o = .ok r) :
    to_hiragana_with_opt std r o' = .ok s ↔
      ((o'.pass_romaji = false ∧ (is_romaji r = true ∨ is_mixed r = true ∨ ∃ c, r.head? = some c ∧ Spec.EnglishPunct c)) ∧
        std.toLowercase s = s ∧
        Spec.ReadBackIme Spec.imeTable (fun b t => to_romaji_with_opt std b o = .ok t) s) ∨
      (¬ (o'.pass_romaji = false ∧ (is_romaji r = true ∨ is_mixed r = true ∨ ∃ c, r.head? = some c ∧ Spec.EnglishPunct c)) ∧
        ∀ c ∈ s, ¬ Spec.Convertible c) :=
  back_hiragana hstd s r o o' hu (fun _ _ h => readBackIme_iff hstd _ o o' hu him hob hx hxu hy hyu h) hx hxu hy hyu hr

/-- **C126** Exactly which texts `to_katakana` in IME mode brings back from their romaji, for every text. -/
theorem C126_katakana {std : Std} (hstd : std.Lawful) (s r : Str) (o o' : Options) (hu : o.upcase_katakana = false)
    (him : o'.imemode = true) (hob : o'.use_obsolete_kana = false) {x y : Char}
    (hx : to_romaji_with_opt std "ゔ".toList o = .ok ['v', x]) (hxu : x ≠ 'u')
    (hy : to_romaji_with_opt std "っゔ".toList o = .ok ['v', 'v', y]) (hyu : y ≠ 'u')
    (hr : to_romaji_with_opt std s o = .ok r) :
    to_katakana_with_opt std r o' = .ok s ↔
      (∀ c ∈ s, ¬ Spec.HiraganaLetter c) ∧
      (((o'.pass_romaji = false ∧ (is_romaji r = true ∨ is_mixed r = true)) ∧
        (∀ c ∈ s, c ∉ ['ヷ', 'ヸ', 'ヹ', 'ヺ']) ∧
        (∀ a b g, s = a ++ 'ー' :: b → Spec.governing a = some g → ¬ Spec.KatakanaLetter g) ∧
        std.toLowercase s = s ∧
        Spec.ReadBackIme Spec.imeTable (fun b t => to_romaji_with_opt std b o = .ok t) (s.map toHira)) ∨
      (¬ (o'.pass_romaji = false ∧ (is_romaji r = true ∨ is_mixed r = true)) ∧ ∀ c ∈ s, ¬ Spec.Convertible c)) :=
  back_katakana hstd s r o o' hu (fun _ _ h => readBackIme_iff hstd _ o o' hu him hob hx hxu hy hyu h) hx hxu hy hyu hr

/-- **C126** both for the standard library of Rust 1.52 and later -/
theorem C126_rust (s r : Str) (o o' : Options) (hu : o.upcase_katakana = false)
    (him : o'.imemode = true) (hob : o'.use_obsolete_kana = false) (hr : to_romaji_with_opt rustStd s o = .ok r) :
    (to_hiragana_with_opt rustStd r o' = .ok s ↔
      ((o'.pass_romaji = false ∧ (is_romaji r = true ∨ is_mixed r = true ∨ ∃ c, r.head? = some c ∧ Spec.EnglishPunct c)) ∧
        rustStd.toLowercase s = s ∧
        Spec.ReadBackIme Spec.imeTable (fun b t => to_romaji_with_opt rustStd b o = .ok t) s) ∨
      (¬ (o'.pass_romaji = false ∧ (is_romaji r = true ∨ is_mixed r = true ∨ ∃ c, r.head? = some c ∧ Spec.EnglishPunct c)) ∧
        ∀ c ∈ s, ¬ Spec.Convertible c)) ∧
    (to_katakana_with_opt rustStd r o' = .ok s ↔
      (∀ c ∈ s, ¬ Spec.HiraganaLetter c) ∧
      (((o'.pass_romaji = false ∧ (is_romaji r = true ∨ is_mixed r = true)) ∧
        (∀ c ∈ s, c ∉ ['ヷ', 'ヸ', 'ヹ', 'ヺ']) ∧
        (∀ a b g, s = a ++ 'ー' :: b → Spec.governing a = some g → ¬ Spec.KatakanaLetter g) ∧
        rustStd.toLowercase s = s ∧
        Spec.ReadBackIme Spec.imeTable (fun b t => to_romaji_with_opt rustStd b o = .ok t) (s.map toHira)) ∨
      (¬ (o'.pass_romaji = false ∧ (is_romaji r = true ∨ is_mixed r = true)) ∧ ∀ c ∈ s, ¬ Spec.Convertible c))) := by
  obtain ⟨h1, h2, -⟩ := C101_search o hu
  exact ⟨C126_hiragana rustStd_lawful s r o o' hu him hob h1 (by decide) h2 (by decide) hr,
    C126_katakana rustStd_lawful s r o o' hu him hob h1 (by decide) h2 (by decide) hr⟩

/-- in IME mode ほんや and ホンヤ come back, ほん does not (its n is left waiting), kか is doubled, nか comes back -/
example : let o : Options := { imemode := true }
    to_romaji rustStd "ほんや".toList = .ok "hon'ya".toList ∧
    to_hiragana_with_opt rustStd "hon'ya".toList o = .ok "ほんや".toList ∧
    to_romaji rustStd "ホンヤ".toList = .ok "hon'ya".toList ∧
    to_katakana_with_opt rustStd "hon'ya".toList o = .ok "ホンヤ".toList ∧
    to_romaji rustStd "ほん".toList = .ok "hon".toList ∧ to_hiragana_with_opt rustStd "hon".toList o = .ok "ほn".toList ∧
    to_romaji rustStd "nか".toList = .ok "nka".toList ∧ to_hiragana_with_opt rustStd "nka".toList o = .ok "nか".toList ∧
    to_romaji rustStd "kか".toList = .ok "kka".toList ∧
    to_hiragana_with_opt rustStd "kka".toList o = .ok "っか".toList := by
  decide +kernel

end WanaKana
