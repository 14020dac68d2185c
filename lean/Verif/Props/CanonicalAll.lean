import Verif.Spec.CanonicalAll
import Verif.Props.Canonical
import Verif.Props.RoundTripLatin
/-! # C115: exactly which romaji are canonical, Latin letters and apostrophes included -/

namespace WanaKana
open KNode RNode
open Spec (toHira kanaTable)

theorem low_open {d : Char} : toAsciiLowercase d ∈ ['a', 'i', 'u', 'e', 'o', 'y', '\''] ↔ d ∈ "aiueoyAIUEOY'".toList := by
  simp only [String.reduceToList, List.mem_cons, List.not_mem_nil, or_false, char_eq_iff, toAsciiLowercase_toNat,
    Char.reduceToNat]
  split <;> omega

/-- a character below 128 that stays in both directions -/
theorem normal_ascii {std : Std} (hstd : std.Lawful) {m : Mode} {c : Char} (hc : c.toNat < 128) {r : Str}
    (hk : kana m (c :: r) = c :: kana m r) (hr : Normal std m r) : Normal std m (c :: r) := by
  have hkey : romajiKey c = false := by
    cases h : romajiKey c with
    | false => rfl
    | true =>
      rw [romajiKey_iff] at h
      simp only [List.mem_cons, List.not_mem_nil, or_false] at h
      omega
  have h1 : ∀ d ∈ Spec.afterN, 128 ≤ d.toNat := by decide +kernel
  have h2 : ∀ d ∈ Spec.smallKana, 128 ≤ d.toNat := by decide +kernel
  refine ⟨?_, ?_, ?_⟩
  · have := hr.rom
    rw [hk]
    unfold romF at this ⊢
    rw [List.map_cons, rom_miss (root_none hstd hkey), this]
  · rw [hk]
    intro d hd
    rcases List.mem_cons.1 hd with rfl | hd
    · simp only [plainChar, Bool.and_eq_true, bne_iff_ne, Bool.or_eq_true, Bool.not_eq_true']
      refine ⟨?_, Or.inr ?_⟩
      · rintro rfl; revert hc; decide
      · cases ha : is_char_katakana d with
        | false => rfl
        | true => have := is_char_katakana_iff.1 ha; omega
    · exact hr.plain d hd
  · rw [hk]
    intro x hx
    cases hx
    refine ⟨fun h => ?_, fun h => ?_⟩
    · have := h2 _ h; omega
    · have := h1 _ h; omega

theorem normal_canonical {std : Std} (hstd : std.Lawful) {m : Mode} (hm : m ≠ .ime) {r : Str}
    (h : Spec.CanonicalText (tableOf m) (obsOf m) r) : Normal std m r := by
  induction h with
  | nil => exact normal_nil _ _
  | piece hu hn _ ih =>
    rcases runit_iff.2 hu with h | ⟨c, hc, rfl⟩
    · have hch := List.all_eq_true.1 (outs_check m hm) _ h
      simp only [Bool.or_eq_true, beq_iff_eq] at hch
      rcases hch with (rfl | rfl) | hb
      · exact ih
      · exact absurd rfl hn
      · simp only [Bool.and_eq_true] at hb
        exact normal_append hstd (block_of_check hstd hb.1) ih
    · exact normal_append hstd (block_copied hstd hc) ih
  | n hd _ ih =>
    apply normal_n hstd hm ih
    intro c hc
    have h1 : toAsciiLowercase c ∉ ['a', 'i', 'u', 'e', 'o', 'y', '\''] := fun h => hd c hc (low_open.1 h)
    refine ⟨fun h => h1 (by simpa using h), fun h => hd c hc ?_⟩
    have : ∀ x ∈ ['a', 'i', 'u', 'e', 'o', 'y'], x ∈ "aiueoyAIUEOY'".toList := by decide
    exact this c h
  | quote _ ih => exact normal_ascii hstd (by decide) (kana_quote_cons _ _) ih
  | letter hc hs _ ih =>
    have ha := lpiece_ascii (Or.inl hc)
    exact normal_ascii hstd ha ((stays_iff hm ha _).1 hs) ih

theorem reg_table (m : Mode) (hm : m ≠ .ime) : (kanaTable.all fun p => !regKey m p.1 ||
    (!p.1.contains 'ゐ' && !p.1.contains 'ゑ') || (obsOf m && !p.1.contains 'っ')) = true := by
  cases m with
  | normal => decide +kernel
  | obsolete => decide +kernel
  | ime => exact absurd rfl hm

theorem reg_marks (m : Mode) (hm : m ≠ .ime) : (latinMarks.all fun c => !regKey m [c]) = true := by
  cases m with
  | normal => decide +kernel
  | obsolete => decide +kernel
  | ime => exact absurd rfl hm

theorem canonical_good {m : Mode} (hm : m ≠ .ime) {ps : List (Str × Str)} (h : Good m ps) :
    Spec.CanonicalText (tableOf m) (obsOf m) (ps.map Prod.snd).flatten := by
  induction h with
  | nil => exact .nil
  | trip hr ht _ hreg _ ih =>
    rename_i p ps _ _
    rw [List.map_cons, List.flatten_cons]
    refine .piece ?_ ?_ ih
    · rcases hr with h | ⟨c, rfl, h | h⟩
      · refine Or.inl ⟨p.1, h, ?_⟩
        rcases hreg with hreg | ⟨c, e, hc⟩
        · have := List.all_eq_true.1 (reg_table m hm) p h
          simpa [hreg, List.contains_eq_mem] using this
        · left
          rw [e]
          simp only [List.mem_singleton]
          constructor
          · rintro rfl; exact hc.1 (by decide)
          · rintro rfl; exact hc.1 (by decide)
      · exact Or.inr ⟨c, copied_neutral h.1 h.2, rfl⟩
      · exfalso
        rcases hreg with hreg | ⟨d, e, hd⟩
        · have := List.all_eq_true.1 (reg_marks m hm) c h
          rw [hreg] at this; cases this
        · cases e
          have : ∀ c ∈ latinMarks, ¬ Spec.Neutral c := by
            intro c hc hn
            exact hn.2.2 (by
              have : ∀ c ∈ latinMarks, c ∈ ['!', '(', ')', ',', '-', '.', '/', ':', '?', '[', ']', '{', '}', '~', '‘', '’', '“', '”', '\''] := by decide
              exact this c hc)
          exact this c h hd
    · intro e
      obtain ⟨d, hd, hd2⟩ := ht.last
      rw [e] at hd
      cases hd
      exact hd2 (by decide)
  | nasal hd _ ih =>
    exact .n (fun d h1 h2 => hd d h1 (low_open.2 h2)) ih
  | quote _ ih => exact .quote ih
  | letter hc e _ ih =>
    exact .letter hc ((stays_iff hm (lpiece_ascii (Or.inl hc)) _).2 e) ih

/-- **C115** What is canonical by the rules comes back from its kana, with every conforming standard library. -/
theorem C115_canonical {std : Std} (hstd : std.Lawful) (r : Str) (o o' : Options) (hu : o.upcase_katakana = false)
    (hime : o'.imemode = true → o'.use_obsolete_kana = true)
    (h : Spec.CanonicalText (Spec.tableFor o'.use_obsolete_kana o'.imemode) o'.use_obsolete_kana r) :
    ∃ k, to_kana_with_opt std r o' = .ok k ∧ to_romaji_with_opt std k o = .ok r := by
  have hm := modeOf_ne_ime hime
  rw [tableFor_eq, ← obsOf_modeOf] at h
  have hn := normal_canonical hstd hm h
  refine ⟨_, to_kana_eq hstd _ _, ?_⟩
  rw [to_romaji_eq hstd, hu]
  congr 1
  conv => rhs; rw [← hn.rom]
  apply rom_flag
  rw [flagged_fst hstd, k2hP_id]
  · rw [List.map_map]; exact (List.map_id _).symm
  · intro d hd
    have := hn.plain d hd
    simp only [plainChar, Bool.and_eq_true, Bool.or_eq_true, Bool.not_eq_true'] at this
    exact or_assoc.1 this.2

/-- **C115** Exactly which romaji are canonical, if the standard library makes `to_romaji` write ゔ and っゔ with a vowel
other than u. -/
theorem C115_exact {std : Std} (hstd : std.Lawful) (r : Str) (o o' : Options) (hu : o.upcase_katakana = false)
    (hime : o'.imemode = true → o'.use_obsolete_kana = true) {x y : Char}
    (hx : to_romaji_with_opt std "ゔ".toList o = .ok ['v', x]) (hxu : x ≠ 'u')
    (hy : to_romaji_with_opt std "っゔ".toList o = .ok ['v', 'v', y]) (hyu : y ≠ 'u') :
    (∃ k, to_kana_with_opt std r o' = .ok k ∧ to_romaji_with_opt std k o = .ok r) ↔
    Spec.CanonicalText (Spec.tableFor o'.use_obsolete_kana o'.imemode) o'.use_obsolete_kana r := by
  refine ⟨?_, C115_canonical hstd r o o' hu hime⟩
  have hm := modeOf_ne_ime hime
  rintro ⟨s, h2, h1⟩
  rw [to_kana_eq hstd, Except.ok.injEq] at h2
  obtain ⟨hxv, hyv, ps, e0, hps, hsuf⟩ := text_pieces hstd s o hu hx hxu hy hyu
  have hk := k2hP_unprolonged (std := std) (back_unprolonged hstd hu h1 h2)
  rw [to_romaji_eq hstd, hu, rom_romH, flagged_fst hstd, e0, hsuf [] ps rfl, Except.ok.injEq] at h1
  subst h1
  have hgood : Good (modeOf o') ps := by
    apply good_of hm hxv hyv hxu hyu ps hps
    rw [h2, ← hk, e0]
  have := canonical_good hm hgood
  rwa [obsOf_modeOf, ← tableFor_eq] at this

/-- **C115** the standard libraries of Rust 1.52 and later are such libraries -/
theorem C115_rust (r : Str) (o o' : Options) (hu : o.upcase_katakana = false)
    (hime : o'.imemode = true → o'.use_obsolete_kana = true) :
    ∀ std ∈ [rustStd, legacyStd],
    ((∃ k, to_kana_with_opt std r o' = .ok k ∧ to_romaji_with_opt std k o = .ok r) ↔
    Spec.CanonicalText (Spec.tableFor o'.use_obsolete_kana o'.imemode) o'.use_obsolete_kana r) := by
  obtain ⟨h1, h2, h3, h4, -⟩ := C101_search o hu
  intro std h
  simp only [List.mem_cons, List.not_mem_nil, or_false] at h
  rcases h with rfl | rfl
  · exact C115_exact rustStd_lawful r o o' hu hime h1 (by decide) h2 (by decide)
  · exact C115_exact legacyStd_lawful r o o' hu hime h3 (by decide) h4 (by decide)

/-- texts with letters that are canonical and texts that are not: n is ん, ti is ち, an apostrophe after n is dropped -/
example : (∀ r ∈ ["tchi".toList, "nyka".toList, "nnya".toList, "T-shi, X".toList, "kan'i'".toList],
      (to_kana rustStd r >>= fun k => to_romaji rustStd k) = .ok r) ∧
    (∀ r ∈ ["ti".toList, "n'ka".toList, "KA".toList, "vu".toList, "jya".toList],
      (to_kana rustStd r >>= fun k => to_romaji rustStd k) ≠ .ok r) := by
  decide +kernel

/-- the rules for one of them -/
example : Spec.CanonicalText (Spec.tableFor false false) false "tchi'n".toList :=
  .letter (by decide) ⟨by decide +kernel, by decide⟩
    (.piece (u := "chi".toList) (Or.inl ⟨"ち".toList, by decide +kernel, Or.inl (by decide)⟩) (by decide)
      (.quote (.n (by simp) .nil)))

end WanaKana
