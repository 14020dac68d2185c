import Verif.Spec.ReadBack
import Verif.Props.RoundTripLatin
/-! # C116: reading romaji back with to_hiragana and to_katakana, Latin letters and apostrophes included -/

namespace WanaKana
open KNode RNode
open Spec (toHira kanaTable)

theorem pieces_settledA {std : Std} (hstd : std.Lawful) {x y : Char} (hx : x ∈ "aiueo".toList) (hy : y ∈ "aiueo".toList)
    {ps : List (Str × Str)} (h : ∀ p ∈ ps, APiece x y p)
    (hk : ∀ c ∈ (ps.map Prod.fst).flatten, Settled std c) : ∀ c ∈ (ps.map Prod.snd).flatten, Settled std c := by
  intro c hc
  obtain ⟨u, hu, hcu⟩ := List.mem_flatten.1 hc
  obtain ⟨p, hp, rfl⟩ := List.mem_map.1 hu
  have hk1 : ∀ c ∈ ([p].map Prod.fst).flatten, Settled std c := by
    intro c hc
    exact hk c (List.mem_flatten.2 ⟨_, List.mem_map_of_mem hp, by simpa using hc⟩)
  have one : RPiece p ∨ VPiece x y p → Settled std c := fun h =>
    pieces_settled hstd hx hy (ps := [p]) (fun q hq => by rw [List.mem_singleton.1 hq]; exact h) hk1 c (by simpa using hcu)
  rcases h p hp with h | h | ⟨d, rfl, _⟩
  · exact one (Or.inl h)
  · exact one (Or.inr h)
  · exact hk1 c (by simpa using hcu)

/-- the romaji of a text in lower case are in lower case -/
theorem romaji_settled {std : Std} (hstd : std.Lawful) {s r : Str} {o : Options} (hu : o.upcase_katakana = false) {x y : Char}
    (hx : to_romaji_with_opt std "ゔ".toList o = .ok ['v', x]) (hxu : x ≠ 'u')
    (hy : to_romaji_with_opt std "っゔ".toList o = .ok ['v', 'v', y]) (hyu : y ≠ 'u')
    (hs : ∀ c ∈ s, Settled std c) (hr : to_romaji_with_opt std s o = .ok r) : ∀ c ∈ r, Settled std c := by
  obtain ⟨hxv, hyv, ps, e0, hps, hsuf⟩ := text_pieces hstd s o hu hx hxu hy hyu
  rw [to_romaji_eq hstd, hu, rom_romH, flagged_fst hstd, e0, hsuf [] ps rfl, Except.ok.injEq] at hr
  subst hr
  apply pieces_settledA hstd hxv hyv hps
  rw [← e0]
  exact k2hP_settled hstd hs

theorem settled_of_lower {std : Std} (hstd : std.Lawful) {s : Str} (h : std.toLowercase s = s) : ∀ c ∈ s, Settled std c := by
  intro c hc
  rw [← h] at hc
  exact lower_settled hstd hc

theorem readBack_iff {std : Std} (hstd : std.Lawful) (s : Str) (o o' : Options) (hu : o.upcase_katakana = false)
    (hime : o'.imemode = true → o'.use_obsolete_kana = true) {x y : Char}
    (hx : to_romaji_with_opt std "ゔ".toList o = .ok ['v', x]) (hxu : x ≠ 'u')
    (hy : to_romaji_with_opt std "っゔ".toList o = .ok ['v', 'v', y]) (hyu : y ≠ 'u') {r : Str}
    (hr : to_romaji_with_opt std s o = .ok r) :
    to_kana_with_opt std r o' = .ok s ↔ Spec.ReadBack (Spec.tableFor o'.use_obsolete_kana o'.imemode)
      o'.use_obsolete_kana (fun b t => to_romaji_with_opt std b o = .ok t) s := by
  have := C112_exact hstd s o o' hu hime hx hxu hy hyu
  constructor
  · intro h
    obtain ⟨h1, h2, h3⟩ := this.1 ⟨r, hr, h⟩
    exact ⟨h1, h2, h3⟩
  · rintro ⟨h1, h2, h3⟩
    obtain ⟨r', h4, h5⟩ := this.2 ⟨h1, h2, h3⟩
    rw [hr] at h4
    cases h4
    exact h5

/-- which texts `to_hiragana` brings back, given those that `to_kana` brings back -/
theorem back_hiragana {std : Std} (hstd : std.Lawful) (s r : Str) (o o' : Options) (hu : o.upcase_katakana = false)
    {RB : Str → Prop} (hRB : ∀ s r, to_romaji_with_opt std s o = .ok r → (to_kana_with_opt std r o' = .ok s ↔ RB s))
    {x y : Char}
    (hx : to_romaji_with_opt std "ゔ".toList o = .ok ['v', x]) (hxu : x ≠ 'u')
    (hy : to_romaji_with_opt std "っゔ".toList o = .ok ['v', 'v', y]) (hyu : y ≠ 'u')
    (hr : to_romaji_with_opt std s o = .ok r) :
    to_hiragana_with_opt std r o' = .ok s ↔
      ((o'.pass_romaji = false ∧ (is_romaji r = true ∨ is_mixed r = true ∨ ∃ c, r.head? = some c ∧ Spec.EnglishPunct c)) ∧
        std.toLowercase s = s ∧ RB s) ∨
      (¬ (o'.pass_romaji = false ∧ (is_romaji r = true ∨ is_mixed r = true ∨ ∃ c, r.head? = some c ∧ Spec.EnglishPunct c)) ∧
        ∀ c ∈ s, ¬ Spec.Convertible c) := by
  obtain ⟨h1, h2⟩ := C111_hiragana hstd s r o o' hr
  by_cases hc : o'.pass_romaji = false ∧ (is_romaji r = true ∨ is_mixed r = true ∨ ∃ c, r.head? = some c ∧ Spec.EnglishPunct c)
  · have hmain : to_hiragana_with_opt std r o' = .ok s ↔ std.toLowercase s = s ∧ to_kana_with_opt std r o' = .ok s := by
      rw [h1 hc]
      constructor
      · intro h
        have hset : ∀ c ∈ s, Settled std c := by
          rw [to_kana_eq hstd, Except.ok.injEq] at h
          rw [← h]
          exact kana_settled hstd _ _ fun c hc => lower_settled hstd hc
        rw [toLowercase_id (romaji_settled hstd hu hx hxu hy hyu hset hr)] at h
        exact ⟨toLowercase_id hset, h⟩
      · rintro ⟨hl, h⟩
        rw [toLowercase_id (romaji_settled hstd hu hx hxu hy hyu (settled_of_lower hstd hl) hr), h]
    rw [hmain, hRB s r hr]
    constructor
    · intro h; exact Or.inl ⟨hc, h⟩
    · rintro (⟨_, h⟩ | ⟨h, _⟩)
      · exact h
      · exact absurd hc h
  · rw [h2 hc]
    constructor
    · intro h
      cases h
      exact Or.inr ⟨hc, C35_all_converted hstd _ _ o hr⟩
    · rintro (⟨h, _⟩ | ⟨_, h⟩)
      · exact absurd h hc
      · rw [C28_unchanged hstd s o h] at hr
        exact hr.symm

/-- which texts `to_katakana` brings back, given those that `to_kana` brings back -/
theorem back_katakana {std : Std} (hstd : std.Lawful) (s r : Str) (o o' : Options) (hu : o.upcase_katakana = false)
    {RB : Str → Prop} (hRB : ∀ s r, to_romaji_with_opt std s o = .ok r → (to_kana_with_opt std r o' = .ok s ↔ RB s))
    {x y : Char}
    (hx : to_romaji_with_opt std "ゔ".toList o = .ok ['v', x]) (hxu : x ≠ 'u')
    (hy : to_romaji_with_opt std "っゔ".toList o = .ok ['v', 'v', y]) (hyu : y ≠ 'u')
    (hr : to_romaji_with_opt std s o = .ok r) :
    to_katakana_with_opt std r o' = .ok s ↔
      (∀ c ∈ s, ¬ Spec.HiraganaLetter c) ∧
      (((o'.pass_romaji = false ∧ (is_romaji r = true ∨ is_mixed r = true)) ∧
        (∀ c ∈ s, c ∉ ['ヷ', 'ヸ', 'ヹ', 'ヺ']) ∧
        (∀ a b g, s = a ++ 'ー' :: b → Spec.governing a = some g → ¬ Spec.KatakanaLetter g) ∧
        std.toLowercase s = s ∧ RB (s.map toHira)) ∨
      (¬ (o'.pass_romaji = false ∧ (is_romaji r = true ∨ is_mixed r = true)) ∧ ∀ c ∈ s, ¬ Spec.Convertible c)) := by
  have hunc := C35_all_converted hstd _ _ o hr
  have hrom : ∀ t, to_romaji_with_opt std t o = .ok (romH std (k2hP std true none t)) := by
    intro t
    rw [to_romaji_eq hstd, hu, rom_romH, flagged_fst hstd]
  have hnohira : ∀ t : Str, ∀ c ∈ t.map h2kP, ¬ Spec.HiraganaLetter c := by
    intro t c hc
    obtain ⟨d, _, rfl⟩ := List.mem_map.1 hc
    unfold Spec.HiraganaLetter Spec.In
    rw [h2kP_toNat]
    split <;> omega
  obtain ⟨h1, h2⟩ := katakana_ways hstd r o'
  by_cases hc : o'.pass_romaji = false ∧ (is_romaji r = true ∨ is_mixed r = true)
  · rw [h1 hc, to_kana_eq hstd, ok_bind, hiragana_to_katakana_eq]
    -- the trip of the hiragana form
    have htrip : ∀ h : Str, h = s.map toHira → k2hP std true none s = h →
        (kana (modeOf o') r = h ↔ RB h) := by
      intro h hh hk
      have hself : k2hP std true none h = h := by
        rw [hh]
        apply k2hP_id
        intro d hd
        obtain ⟨c, _, rfl⟩ := List.mem_map.1 hd
        exact fixed_other (toHira_idem c)
      have hrh : to_romaji_with_opt std h o = .ok r := by
        rw [hrom, hself, ← hk, ← hrom, hr]
      rw [← hRB h r hrh, to_kana_eq hstd, Except.ok.injEq]
    constructor
    · intro h
      have h : (kana (modeOf o') (std.toLowercase r)).map h2kP = s := by injection h
      have hset : ∀ c ∈ s, Settled std c := by
        rw [← h]
        intro c hc
        obtain ⟨d, hd, rfl⟩ := List.mem_map.1 hc
        exact h2kP_settled hstd (kana_settled hstd _ _ (fun c hc => lower_settled hstd hc) d hd)
      have hrset := romaji_settled hstd hu hx hxu hy hyu hset hr
      rw [toLowercase_id hrset] at h
      have hlet : ∀ c ∈ s, ¬ Spec.HiraganaLetter c := by rw [← h]; exact hnohira _
      -- no katakana letter in the kana
      obtain ⟨hxv, hyv, ps, e0, hps, hsuf⟩ := text_pieces hstd s o hu hx hxu hy hyu
      have e1 := hrom s
      rw [hr, e0, hsuf [] ps rfl, Except.ok.injEq] at e1
      subst e1
      obtain ⟨r', hr', hk⟩ := C14_lower hstd _ o' fun c hc hup => by
        have h1 := (hrset c hc).1
        have h2 : c.toNat < 128 := by unfold Spec.AsciiUpper Spec.In at hup; omega
        rw [hstd.lowerChar_ascii c h2] at h1
        have h3 : toAsciiLowercase c = c := by injection h1
        rw [char_eq_iff, toAsciiLowercase_toNat] at h3
        unfold Spec.AsciiUpper Spec.In at hup
        split at h3 <;> omega
      rw [to_kana_eq hstd] at hr'
      cases hr'
      have hback : ∀ d ∈ kana (modeOf o') (ps.map Prod.snd).flatten, toHira (h2kP d) = d := by
        intro d hd
        by_cases hK : Spec.Katakana d
        · have hf : toHira d = d := by
            rcases hk d hd hK with h | h
            · exact unconverted_fixed (hunc d h)
            · have : ∀ c ∈ ['ヵ', 'ヶ', '・', 'ー'], toHira c = c := by decide
              exact this d h
          have : h2kP d = d := by
            apply char_ext
            rw [h2kP_toNat, if_neg]
            rcases hK with hK | hK | hK
            · unfold Spec.KatakanaLetter Spec.In at hK
              omega
            · rw [show d = '・' from hK]; decide
            · rw [show d = 'ー' from hK]; decide
          rw [this, hf]
        · by_cases hka : d ∈ ['ゕ', 'ゖ']
          · exfalso
            have hdr := kana_small_ka hka hd
            -- in the text
            have hds : d ∈ s := by
              obtain ⟨u, hu', hdu⟩ := List.mem_flatten.1 hdr
              obtain ⟨p, hp, rfl⟩ := List.mem_map.1 hu'
              have hz : d ∈ k2hP std true none s := by
                rw [e0]
                rcases hps p hp with (h | ⟨c, rfl, _⟩) | h | ⟨c, rfl, _⟩
                · exfalso
                  have ht : (kanaTable.all fun x => x.2.all fun c => decide (c ∉ ['ゕ', 'ゖ'])) = true := by decide +kernel
                  exact of_decide_eq_true (List.all_eq_true.1 (List.all_eq_true.1 ht p h) d hdu) hka
                · exact List.mem_flatten.2 ⟨_, List.mem_map_of_mem hp, hdu⟩
                · exfalso
                  have ha : ∀ x ∈ "aiueo".toList, x ∉ ['ゕ', 'ゖ'] := by decide
                  rcases h with rfl | rfl
                  · simp only [List.mem_cons, List.not_mem_nil, or_false] at hdu
                    rcases hdu with rfl | rfl
                    · exact absurd hka (by decide)
                    · exact ha _ hxv hka
                  · simp only [List.mem_cons, List.not_mem_nil, or_false] at hdu
                    rcases hdu with rfl | rfl | rfl
                    · exact absurd hka (by decide)
                    · exact absurd hka (by decide)
                    · exact ha _ hyv hka
                · exact List.mem_flatten.2 ⟨_, List.mem_map_of_mem hp, hdu⟩
              have hm2 := k2hP_hiraFromV hstd true s []
              rw [show k2hPrev none [] = none from rfl] at hm2
              rw [hm2] at hz
              rcases hiraFromV_mem _ _ _ _ _ hz with ⟨c, hc, e⟩ | hv
              · have : c = d := by
                  rw [char_eq_iff, toHira_toNat] at e
                  apply char_ext
                  simp only [List.mem_cons, List.not_mem_nil, or_false, char_eq_iff, Char.reduceToNat] at hka
                  repeat' split at e
                  all_goals omega
                rw [← this]; exact hc
              · exfalso
                have : ∀ v ∈ ['あ', 'い', 'う', 'え', 'お', 'ー'], v ∉ ['ゕ', 'ゖ'] := by decide
                exact this d hv hka
            apply hlet d hds
            have : ∀ v ∈ ['ゕ', 'ゖ'], Spec.HiraganaLetter v := by decide
            exact this d hka
          · apply char_ext
            rw [toHira_toNat, h2kP_toNat]
            simp only [List.mem_cons, List.not_mem_nil, or_false, char_eq_iff, Char.reduceToNat] at hka
            have hK : ¬ Spec.KatakanaLetter d := fun h => hK (Or.inl h)
            unfold Spec.KatakanaLetter Spec.In at hK
            repeat' split
            all_goals omega
      have hms : s.map toHira = kana (modeOf o') (ps.map Prod.snd).flatten := by
        rw [← h, List.map_map]
        conv => rhs; rw [← List.map_id (kana (modeOf o') (ps.map Prod.snd).flatten)]
        exact List.map_congr_left hback
      have hgov : ∀ a b g, s = a ++ 'ー' :: b → Spec.governing a = some g → ¬ Spec.KatakanaLetter g := by
        intro a b g e hg hgk
        have hlt := marks_pieces_lt hstd [a] [] ('ー' :: b)
          ⟨g, by simpa using hg, hgk, by
            rw [List.takeWhile_cons_of_pos (by decide)]
            exact List.mem_cons_self⟩
        rw [show ([a] ++ ['ー' :: b]).flatten = s by rw [e]; simp] at hlt
        simp only [List.singleton_append, List.flatMap_cons, List.flatMap_nil, List.append_nil, List.countP_append] at hlt
        have l1 := marks_le hstd a
        have l2 := marks_le hstd ('ー' :: b)
        have l3 : s.countP isMark = a.countP isMark + ('ー' :: b).countP isMark := by rw [e, List.countP_append]
        have l4 := kana_marks (modeOf o') (ps.map Prod.snd).flatten
        have l5 : s.countP isMark = (kana (modeOf o') (ps.map Prod.snd).flatten).countP isMark := by
          rw [← h, List.countP_map]
          apply List.countP_congr
          intro d _
          unfold isMark
          simp only [Function.comp, Bool.or_eq_true, beq_iff_eq, char_eq_iff, h2kP_toNat, Char.reduceToNat]
          split <;> omega
        have l6 : ((ps.map Prod.snd).flatten).countP isMark = ((ps.map Prod.snd).flatten).countP (· == '-') := by
          apply List.countP_congr
          intro d hd
          unfold isMark
          simp only [Bool.or_eq_true, beq_iff_eq]
          constructor
          · rintro (rfl | h)
            · exact absurd (by decide) (hunc 'ー' hd)
            · exact h
          · exact Or.inr
        have l7 := romH_dashes hstd (k2hP std true none s)
        have l8 : (ps.map Prod.snd).flatten = romH std (k2hP std true none s) := by
          have := hrom s
          rw [hr] at this
          injection this
        rw [← l8] at l7
        omega
      refine ⟨hlet, Or.inl ⟨hc, ?_, hgov, ?_⟩⟩
      · intro c hc hm
        rw [← h] at hc
        obtain ⟨d, hd, rfl⟩ := List.mem_map.1 hc
        have := hback d hd
        have hd2 : toHira d = d ∨ Spec.HiraganaLetter d ∨ d ∈ ['ヷ', 'ヸ', 'ヹ', 'ヺ'] := by
          by_cases hx : Spec.HiraganaLetter d
          · exact Or.inr (Or.inl hx)
          · by_cases hy : d ∈ ['ヷ', 'ヸ', 'ヹ', 'ヺ']
            · exact Or.inr (Or.inr hy)
            · left
              have h3 := (h2kP_toHira (c := d)).2 ⟨hx, hy⟩
              have h4 : h2kP d = d := by
                apply char_ext
                unfold Spec.HiraganaLetter Spec.In at hx
                rw [h2kP_toNat, if_neg (by omega)]
              rw [h4] at this; exact this
        simp only [List.mem_cons, List.not_mem_nil, or_false, char_eq_iff, h2kP_toNat, toHira_toNat, Char.reduceToNat] at hm this
        repeat' split at hm
        all_goals repeat' split at this
        all_goals omega
      · exact ⟨toLowercase_id hset, (htrip _ rfl (k2hP_unprolonged hgov)).1 hms.symm⟩
    · rintro ⟨hlet, ⟨_, hva, hgov, hl, hws⟩ | ⟨h, _⟩⟩
      · have := (htrip _ rfl (k2hP_unprolonged hgov)).2 hws
        rw [toLowercase_id (romaji_settled hstd hu hx hxu hy hyu (settled_of_lower hstd hl) hr), this, List.map_map]
        congr 1
        conv => rhs; rw [← List.map_id s]
        apply List.map_congr_left
        intro c hc
        exact h2kP_toHira.2 ⟨hlet c hc, hva c hc⟩
      · exact absurd hc h
  · rw [h2 hc, hiragana_to_katakana_eq]
    constructor
    · intro h
      have h : r.map h2kP = s := by injection h
      refine ⟨by rw [← h]; exact hnohira r, Or.inr ⟨hc, ?_⟩⟩
      intro c hc
      rw [← h] at hc
      obtain ⟨d, hd, rfl⟩ := List.mem_map.1 hc
      by_cases hl : Spec.HiraganaLetter d
      · have hm : d ∈ ['ヵ', 'ヶ', 'ゕ', 'ゖ'] := by
          by_cases hm : d ∈ ['ヵ', 'ヶ', 'ゕ', 'ゖ']
          · exact hm
          · refine absurd (Or.inl ⟨Or.inl ?_, hm⟩) (hunc d hd)
            exact hl
        have : ∀ d ∈ ['ヵ', 'ヶ', 'ゕ', 'ゖ'], ¬ Spec.Convertible (h2kP d) := by decide
        exact this d hm
      · have : h2kP d = d := by
          apply char_ext
          unfold Spec.HiraganaLetter Spec.In at hl
          rw [h2kP_toNat, if_neg (by omega)]
        rw [this]; exact hunc d hd
    · rintro ⟨hlet, ⟨h, _⟩ | ⟨_, h⟩⟩
      · exact absurd h hc
      · rw [C28_unchanged hstd s o h] at hr
        cases hr
        congr 1
        conv => rhs; rw [← List.map_id s]
        apply List.map_congr_left
        intro c hc
        apply char_ext
        have := hlet c hc
        unfold Spec.HiraganaLetter Spec.In at this
        rw [h2kP_toNat, if_neg (by omega)]
        rfl

/-- **C116** Exactly which texts `to_hiragana` brings back from their romaji, for every text. -/
theorem C116_hiragana {std : Std} (hstd : std.Lawful) (s r : Str) (o o' : Options) (hu : o.upcase_katakana = false)
    (hime : o'.imemode = true → o'.use_obsolete_kana = true) {x y : Char}
    (hx : to_romaji_with_opt std "ゔ".toList o = .ok ['v', x]) (hxu : x ≠ 'u')
    (hy : to_romaji_with_opt std "っゔ".toList o = .ok ['v', 'v', y]) (hyu : y ≠ 'u')
    (hr : to_romaji_with_opt std s o = .ok r) :
    to_hiragana_with_opt std r o' = .ok s ↔
      ((o'.pass_romaji = false ∧ (is_romaji r = true ∨ is_mixed r = true ∨ ∃ c, r.head? = some c ∧ Spec.EnglishPunct c)) ∧
        std.toLowercase s = s ∧ Spec.ReadBack (Spec.tableFor o'.use_obsolete_kana o'.imemode)
          o'.use_obsolete_kana (fun b t => to_romaji_with_opt std b o = .ok t) s) ∨
      (¬ (o'.pass_romaji = false ∧ (is_romaji r = true ∨ is_mixed r = true ∨ ∃ c, r.head? = some c ∧ Spec.EnglishPunct c)) ∧
        ∀ c ∈ s, ¬ Spec.Convertible c) :=
  back_hiragana hstd s r o o' hu (fun _ _ h => readBack_iff hstd _ o o' hu hime hx hxu hy hyu h) hx hxu hy hyu hr

/-- **C116** Exactly which texts `to_katakana` brings back from their romaji, for every text. -/
theorem C116_katakana {std : Std} (hstd : std.Lawful) (s r : Str) (o o' : Options) (hu : o.upcase_katakana = false)
    (hime : o'.imemode = true → o'.use_obsolete_kana = true) {x y : Char}
    (hx : to_romaji_with_opt std "ゔ".toList o = .ok ['v', x]) (hxu : x ≠ 'u')
    (hy : to_romaji_with_opt std "っゔ".toList o = .ok ['v', 'v', y]) (hyu : y ≠ 'u')
    (hr : to_romaji_with_opt std s o = .ok r) :
    to_katakana_with_opt std r o' = .ok s ↔
      (∀ c ∈ s, ¬ Spec.HiraganaLetter c) ∧
      (((o'.pass_romaji = false ∧ (is_romaji r = true ∨ is_mixed r = true)) ∧
        (∀ c ∈ s, c ∉ ['ヷ', 'ヸ', 'ヹ', 'ヺ']) ∧
        (∀ a b g, s = a ++ 'ー' :: b → Spec.governing a = some g → ¬ Spec.KatakanaLetter g) ∧
        std.toLowercase s = s ∧ Spec.ReadBack (Spec.tableFor o'.use_obsolete_kana o'.imemode)
          o'.use_obsolete_kana (fun b t => to_romaji_with_opt std b o = .ok t) (s.map toHira)) ∨
      (¬ (o'.pass_romaji = false ∧ (is_romaji r = true ∨ is_mixed r = true)) ∧ ∀ c ∈ s, ¬ Spec.Convertible c)) :=
  back_katakana hstd s r o o' hu (fun _ _ h => readBack_iff hstd _ o o' hu hime hx hxu hy hyu h) hx hxu hy hyu hr

/-- **C116** both for the standard library of Rust 1.52 and later -/
theorem C116_rust (s r : Str) (o o' : Options) (hu : o.upcase_katakana = false)
    (hime : o'.imemode = true → o'.use_obsolete_kana = true) (hr : to_romaji_with_opt rustStd s o = .ok r) :
    (to_hiragana_with_opt rustStd r o' = .ok s ↔
      ((o'.pass_romaji = false ∧ (is_romaji r = true ∨ is_mixed r = true ∨ ∃ c, r.head? = some c ∧ Spec.EnglishPunct c)) ∧
        rustStd.toLowercase s = s ∧ Spec.ReadBack (Spec.tableFor o'.use_obsolete_kana o'.imemode)
          o'.use_obsolete_kana (fun b t => to_romaji_with_opt rustStd b o = .ok t) s) ∨
      (¬ (o'.pass_romaji = false ∧ (is_romaji r = true ∨ is_mixed r = true ∨ ∃ c, r.head? = some c ∧ Spec.EnglishPunct c)) ∧
        ∀ c ∈ s, ¬ Spec.Convertible c)) ∧
    (to_katakana_with_opt rustStd r o' = .ok s ↔
      (∀ c ∈ s, ¬ Spec.HiraganaLetter c) ∧
      (((o'.pass_romaji = false ∧ (is_romaji r = true ∨ is_mixed r = true)) ∧
        (∀ c ∈ s, c ∉ ['ヷ', 'ヸ', 'ヹ', 'ヺ']) ∧
        (∀ a b g, s = a ++ 'ー' :: b → Spec.governing a = some g → ¬ Spec.KatakanaLetter g) ∧
        rustStd.toLowercase s = s ∧ Spec.ReadBack (Spec.tableFor o'.use_obsolete_kana o'.imemode)
          o'.use_obsolete_kana (fun b t => to_romaji_with_opt rustStd b o = .ok t) (s.map toHira)) ∨
      (¬ (o'.pass_romaji = false ∧ (is_romaji r = true ∨ is_mixed r = true)) ∧ ∀ c ∈ s, ¬ Spec.Convertible c))) := by
  obtain ⟨h1, h2, -⟩ := C101_search o hu
  exact ⟨C116_hiragana rustStd_lawful s r o o' hu hime h1 (by decide) h2 (by decide) hr,
    C116_katakana rustStd_lawful s r o o' hu hime h1 (by decide) h2 (by decide) hr⟩

/-- texts with letters that come back, and texts that do not: capitals are lost, kか is doubled to っか -/
example : to_romaji rustStd "tち".toList = .ok "tchi".toList ∧ to_hiragana rustStd "tchi".toList = .ok "tち".toList ∧
    to_romaji rustStd "tチ".toList = .ok "tchi".toList ∧ to_katakana rustStd "tchi".toList = .ok "tチ".toList ∧
    to_romaji rustStd "Tち".toList = .ok "Tchi".toList ∧ to_hiragana rustStd "Tchi".toList = .ok "tち".toList ∧
    to_romaji rustStd "kか".toList = .ok "kka".toList ∧ to_hiragana rustStd "kka".toList = .ok "っか".toList := by
  decide +kernel

end WanaKana
