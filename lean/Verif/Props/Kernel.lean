import Verif.Props.RomajiNormal
import Verif.Props.RoundTrip2
/-! # C91: texts with the same romaji -/

namespace WanaKana

/-- **C91** Two texts have the same romaji exactly if the kana read back from their romaji are the same: reading the
romaji back as kana loses nothing, so these kana are a canonical spelling. -/
theorem C91_kernel {std : Std} (hstd : std.Lawful) (s t : Str) (o o' : Options) (hu : o.upcase_katakana = false)
    (hime : o'.imemode = true → o'.use_obsolete_kana = true)
    (hs : ∀ c ∈ s, ¬ Spec.AsciiLetter c ∧ c ≠ '\'' ∧ Spec.toHira c ≠ 'ゔ' ∧
      (Spec.toHira c ∉ ['ゐ', 'ゑ'] ∨ o'.use_obsolete_kana = true ∧ ∀ d ∈ s, Spec.toHira d ≠ 'っ'))
    (ht : ∀ c ∈ t, ¬ Spec.AsciiLetter c ∧ c ≠ '\'' ∧ Spec.toHira c ≠ 'ゔ' ∧
      (Spec.toHira c ∉ ['ゐ', 'ゑ'] ∨ o'.use_obsolete_kana = true ∧ ∀ d ∈ t, Spec.toHira d ≠ 'っ')) :
    to_romaji_with_opt std s o = to_romaji_with_opt std t o ↔
      (to_romaji_with_opt std s o >>= fun r => to_kana_with_opt std r o') =
        (to_romaji_with_opt std t o >>= fun r => to_kana_with_opt std r o') := by
  constructor
  · intro h; rw [h]
  · have h1 := to_romaji_eq hstd s o
    have h2 := to_romaji_eq hstd t o
    generalize rom std o.upcase_katakana (flagged std s) = r1 at h1
    generalize rom std o.upcase_katakana (flagged std t) = r2 at h2
    obtain ⟨k1, e1, f1⟩ := C76_normal hstd s r1 o o' hu hime hs h1
    obtain ⟨k2, e2, f2⟩ := C76_normal hstd t r2 o o' hu hime ht h2
    rw [h1, h2, ok_bind, ok_bind, e1, e2, Except.ok.injEq]
    rintro rfl
    rw [← f1, ← f2]

/-- different spellings with the same romaji, and the canonical one -/
example : to_romaji modernStd "ヂャナイ".toList = to_romaji modernStd "じゃない".toList ∧
    (to_romaji modernStd "ヂャナイ".toList >>= to_kana modernStd) = .ok "じゃない".toList := by decide +kernel

/-- **C91** So no two regularly spelled texts share their romaji. -/
theorem C91_injective {std : Std} (hstd : std.Lawful) (s t : Str) (o : Options) (obs : Bool)
    (hu : o.upcase_katakana = false)
    (hs : ∀ c ∈ s, ¬ Spec.AsciiLetter c ∧ c ≠ '\'' ∧ Spec.toHira c ≠ 'ゔ')
    (ht : ∀ c ∈ t, ¬ Spec.AsciiLetter c ∧ c ≠ '\'' ∧ Spec.toHira c ≠ 'ゔ')
    (rs : ∃ ws : List Str, s = ws.flatten ∧ ∀ w ∈ ws, Spec.RegularPiece false obs w)
    (rt : ∃ ws : List Str, t = ws.flatten ∧ ∀ w ∈ ws, Spec.RegularPiece false obs w)
    (h : to_romaji_with_opt std s o = to_romaji_with_opt std t o) : s = t := by
  obtain ⟨r1, a1, b1⟩ := (C82_exact hstd s o { use_obsolete_kana := obs } hu (by intro h; cases h) hs).2 rs
  obtain ⟨r2, a2, b2⟩ := (C82_exact hstd t o { use_obsolete_kana := obs } hu (by intro h; cases h) ht).2 rt
  rw [a1, a2, Except.ok.injEq] at h
  subst h
  rw [b1, Except.ok.injEq] at b2
  exact b2

/-- texts that differ only in the place of ん and っ are told apart -/
example : (∀ w ∈ ["か", "ん", "あ", "い"].map String.toList, Spec.RegularPiece false false w) ∧
    (∀ w ∈ ["か", "な", "い"].map String.toList, Spec.RegularPiece false false w) ∧
    to_romaji modernStd "かんあい".toList = .ok "kan'ai".toList ∧ to_romaji modernStd "かない".toList = .ok "kanai".toList := by
  refine ⟨fun w hw => Or.inl ?_, fun w hw => Or.inl ?_, by decide +kernel, by decide +kernel⟩
  · revert w; decide +kernel
  · revert w; decide +kernel

end WanaKana
