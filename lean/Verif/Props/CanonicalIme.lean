import Verif.Spec.CanonicalIme
import Verif.Props.CanonicalAll
import Verif.Proofs.ImeTrip
/-! # C124: exactly which romaji are canonical in IME mode -/

namespace WanaKana
open KNode RNode
open Spec (toHira kanaTable)

theorem outs_checkI : ((outs .ime).all fun u => u == [] || u == ['n'] || blockCheck .ime u) = true := by
  decide +kernel

theorem stays_ime {c : Char} (hc : c.toNat < 128) (t : Str) : (∀ k ∈ Spec.imeTable, ¬ k.1 <+: (c :: t).map Spec.asciiLower) ↔
    kana .ime (c :: t) = c :: kana .ime t := by
  rw [asciiLower_eq]
  exact stays_iffI hc t

theorem normal_ime {std : Std} (hstd : std.Lawful) {r : Str} (h : Spec.CanonicalIme r) : Normal std .ime r := by
  induction h with
  | nil => exact normal_nil _ _
  | piece hu hn _ ih =>
    rcases (runit_iff (m := .ime)).2 hu with h | ⟨c, hc, rfl⟩
    · have hch := List.all_eq_true.1 outs_checkI _ h
      simp only [Bool.or_eq_true, beq_iff_eq] at hch
      rcases hch with (rfl | rfl) | hb
      · exact ih
      · exact absurd rfl hn
      · exact normal_append hstd (block_of_check hstd hb) ih
    · exact normal_append hstd (block_copied hstd hc) ih
  | quote _ ih => exact normal_ascii hstd (by decide) (kana_quote_cons _ _) ih
  | letter hc hs _ ih =>
    have ha := lpiece_ascii (Or.inl hc)
    exact normal_ascii hstd ha ((stays_ime ha _).1 hs) ih

theorem reg_tableI : (kanaTable.all fun p => !regKey .ime p.1 || (!p.1.contains 'ゐ' && !p.1.contains 'ゑ')) = true := by
  decide +kernel

theorem reg_marksI : (latinMarks.all fun c => !regKey .ime [c]) = true := by
  decide +kernel

theorem canonical_goodI {ps : List (Str × Str)} (h : GoodI ps) : Spec.CanonicalIme (ps.map Prod.snd).flatten := by
  induction h with
  | nil => exact .nil
  | trip hr ht _ hreg _ ih =>
    rename_i p ps _ _
    rw [List.map_cons, List.flatten_cons]
    refine .piece ?_ ?_ ih
    · rcases hr with h | ⟨c, rfl, h | h⟩
      · refine Or.inl ⟨p.1, h, ?_⟩
        rcases hreg with hreg | ⟨c, e, hc⟩
        · have := List.all_eq_true.1 reg_tableI p h
          left
          simpa [hreg, List.contains_eq_mem] using this
        · left
          rw [e]
          simp only [List.mem_singleton]
          constructor
          · rintro rfl; exact hc.1 (by decide)
          · rintro rfl; exact hc.1 (by decide)
      · exact Or.inr ⟨c, copied_neutral h.1 h.2, rfl⟩
      · exfalso
        rcases hreg with hreg | ⟨d, e, hd⟩
        · have := List.all_eq_true.1 reg_marksI c h
          rw [hreg] at this; cases this
        · cases e
          have : ∀ c ∈ latinMarks, c ∈ ['!', '(', ')', ',', '-', '.', '/', ':', '?', '[', ']', '{', '}', '~', '‘', '’', '“', '”', '\''] := by decide
          exact hd.2.2 (this c h)
    · intro e
      obtain ⟨d, hd, hd2⟩ := ht.last
      rw [e] at hd
      cases hd
      exact hd2 (by decide)
  | quote _ ih => exact .quote ih
  | letter hc e _ ih => exact .letter hc ((stays_ime (lpiece_ascii (Or.inl hc)) _).2 e) ih

/-- **C124** What is canonical by the rules comes back from its kana in IME mode, with every conforming standard
library. -/
theorem C124_canonical {std : Std} (hstd : std.Lawful) (r : Str) (o o' : Options) (hu : o.upcase_katakana = false)
    (him : o'.imemode = true) (hob : o'.use_obsolete_kana = false) (h : Spec.CanonicalIme r) :
    ∃ k, to_kana_with_opt std r o' = .ok k ∧ to_romaji_with_opt std k o = .ok r := by
  have hm : modeOf o' = .ime := modeOf_ime.2 ⟨him, hob⟩
  have hn := normal_ime hstd h
  rw [← hm] at hn
  refine ⟨_, to_kana_eq hstd _ _, ?_⟩
  rw [to_romaji_eq hstd, hu]
  congr 1
  conv => rhs; rw [← hn.rom]
  apply rom_flag
  rw [flagged_fst hstd, k2hP_id]
  · rw [List.map_map]; exact (List.map_id _).symm
  · intro d hd
    have := hn.plain d hd
    simp only [plainChar, Bool.and_eq_true, Bool.or_eq_true, Bool.not_eq_true'] at this
    exact or_assoc.1 this.2

/-- **C124** Exactly which romaji are canonical in IME mode, if the standard library makes `to_romaji` write ゔ and っゔ
with a vowel other than u. -/
theorem C124_exact {std : Std} (hstd : std.Lawful) (r : Str) (o o' : Options) (hu : o.upcase_katakana = false)
    (him : o'.imemode = true) (hob : o'.use_obsolete_kana = false) {x y : Char}
    (hx : to_romaji_with_opt std "ゔ".toList o = .ok ['v', x]) (hxu : x ≠ 'u')
    (hy : to_romaji_with_opt std "っゔ".toList o = .ok ['v', 'v', y]) (hyu : y ≠ 'u') :
    (∃ k, to_kana_with_opt std r o' = .ok k ∧ to_romaji_with_opt std k o = .ok r) ↔ Spec.CanonicalIme r := by
  refine ⟨?_, C124_canonical hstd r o o' hu him hob⟩
  have hm : modeOf o' = .ime := modeOf_ime.2 ⟨him, hob⟩
  rintro ⟨s, h2, h1⟩
  rw [to_kana_eq hstd, Except.ok.injEq, hm] at h2
  obtain ⟨hxv, hyv, ps, e0, hps, hsuf⟩ := text_pieces hstd s o hu hx hxu hy hyu
  have hk := k2hP_unprolonged (std := std) (back_unprolonged hstd hu h1 h2)
  rw [to_romaji_eq hstd, hu, rom_romH, flagged_fst hstd, e0, hsuf [] ps rfl, Except.ok.injEq] at h1
  subst h1
  have hgood : GoodI ps := by
    apply good_ofI hxv hyv hxu hyu ps hps
    rw [h2, ← hk, e0]
  exact canonical_goodI hgood

/-- **C124** the standard libraries of Rust 1.52 and later are such libraries -/
theorem C124_rust (r : Str) (o o' : Options) (hu : o.upcase_katakana = false)
    (him : o'.imemode = true) (hob : o'.use_obsolete_kana = false) :
    ∀ std ∈ [rustStd, legacyStd],
    ((∃ k, to_kana_with_opt std r o' = .ok k ∧ to_romaji_with_opt std k o = .ok r) ↔ Spec.CanonicalIme r) := by
  obtain ⟨h1, h2, h3, h4, -⟩ := C101_search o hu
  intro std h
  simp only [List.mem_cons, List.not_mem_nil, or_false] at h
  rcases h with rfl | rfl
  · exact C124_exact rustStd_lawful r o o' hu him hob h1 (by decide) h2 (by decide)
  · exact C124_exact legacyStd_lawful r o o' hu him hob h3 (by decide) h4 (by decide)

/-- canonical texts, an unfinished n among them, and texts that are not: nn and n with a space are ん, which is written n -/
example : (∀ r ∈ ["hon".toList, "honda".toList, "kan'i".toList, "tchi".toList, "sh".toList],
      (to_kana_with_opt rustStd r { imemode := true } >>= fun k => to_romaji rustStd k) = .ok r) ∧
    (∀ r ∈ ["honn".toList, "hon da".toList, "n'ka".toList, "ti".toList, "KA".toList],
      (to_kana_with_opt rustStd r { imemode := true } >>= fun k => to_romaji rustStd k) ≠ .ok r) := by
  decide +kernel

/-- the rules for one of them -/
example : Spec.CanonicalIme "hon".toList :=
  .piece (u := "ho".toList) (Or.inl ⟨"ほ".toList, by decide +kernel, Or.inl (by decide)⟩) (by decide)
    (.letter (by decide) (by decide +kernel) .nil)

end WanaKana
