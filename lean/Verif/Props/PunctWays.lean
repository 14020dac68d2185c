import Verif.Props.SigmaRust
import Verif.Props.LeftAlone
/-! # C139: the way through the other script for texts that begin with English punctuation

C94 and C138 leave out the texts that begin with English punctuation and neither are romaji nor have both romaji and kana. -/

namespace WanaKana
open Spec (SigmaLowered)
open Unicode

theorem settleBy_no_kana {b : Bool} {t : Str} (h : ∀ c ∈ settleBy b t, ¬ Spec.Kana c) : settleBy b t = t := by
  cases b with
  | true => rfl
  | false =>
    refine (settleN_rest t).2 (Nat.le_antisymm (settleN_rest t).1 ?_)
    have e : rest (Spec.settleN t) = Spec.settleN t := by
      unfold rest
      rw [List.filter_eq_self]
      intro c hc
      simpa using h c hc
    rw [e, settleN_length]
    exact List.length_filter_le _ _

theorem punct_cases {c : Char} (h : Spec.EnglishPunct c) : Spec.Romaji c ∨ c ∈ ['‘', '’', '“', '”'] := by
  rcases h with h | h | h | h | h
  · exact Or.inl (Or.inl (by unfold Spec.Ascii; have := h.2; omega))
  · exact Or.inl (Or.inl (by unfold Spec.Ascii; have := h.2; omega))
  · exact Or.inl (Or.inl (by unfold Spec.Ascii; have := h.2; omega))
  · exact Or.inl (Or.inl (by unfold Spec.Ascii; have := h.2; omega))
  · exact Or.inr h

theorem h2kP_no_kana {c : Char} (h : ¬ Spec.Kana (h2kP c)) : h2kP c = c := by
  rw [specKana_iff, h2kP_toNat] at h
  rw [char_eq_iff, h2kP_toNat]
  split at h
  · omega
  · next h' => rw [if_neg h']

theorem h2kP_kana_iff (c : Char) : Spec.Kana (h2kP c) ↔ Spec.Kana c := by
  rw [specKana_iff, specKana_iff, h2kP_toNat]
  split <;> omega

/-- the two functions on the texts in question -/
theorem punct_first {std : Std} {s : Str} {o : Options} {c : Char} (ho : o.pass_romaji = false) (hc : s.head? = some c)
    (hcp : Spec.EnglishPunct c) (hm : is_mixed s = false) (hr : is_romaji s = false) :
    hiraP std s o = kana (modeOf o) (std.toLowercase s) ∧ kataP std s o = s.map h2kP := by
  have hp : ¬ o.pass_romaji = true := by simp [ho]
  constructor
  · unfold hiraP
    rw [if_neg hp, if_neg (by simp [hm]), if_pos]
    rw [Bool.or_eq_true]
    exact Or.inr (head_punct_iff'.2 ⟨c, hc, hcp⟩)
  · unfold kataP
    rw [if_neg hp, if_neg (by simp [hm, hr])]

/-- **C139** to katakana by way of hiragana: nothing may have been converted -/
theorem C139_katakana {std : Std} (hstd : std.Lawful) (s h k : Str) (o : Options) (c : Char) (ho : o.pass_romaji = false)
    (hc : s.head? = some c) (hcp : Spec.EnglishPunct c) (hm : is_mixed s = false) (hr : is_romaji s = false)
    (hh : to_hiragana_with_opt std s o = .ok h) (hk : to_katakana_with_opt std s o = .ok k) :
    to_katakana_with_opt std h o = .ok k ↔ h = s := by
  constructor
  · intro e
    obtain ⟨e1, e2⟩ := punct_first (std := std) ho hc hcp hm hr
    rw [to_hiragana_eq hstd, e1] at hh
    rw [to_katakana_eq hstd, e2] at hk
    have hh := Except.ok.inj hh
    have hk := Except.ok.inj hk
    have hp : ¬ o.pass_romaji = true := by simp [ho]
    have hset : ∀ c ∈ h, Settled std c := by
      rw [← hh]; exact kana_settled hstd _ _ (fun c hc => lower_settled hstd hc)
    have hfix : kana (modeOf o) h = settleBy (keepsN o) h := by
      rw [← hh, kana_settle, keepsN_of hp]
    rw [to_katakana_eq hstd, kataP_settle hp hset hfix, ← hk] at e
    have e := Except.ok.inj e
    cases s with
    | nil => cases hc
    | cons d s =>
      have hd : d = c := Option.some.inj hc
      subst hd
      rcases punct_cases hcp with hrom | hq
      · have hnk : ∀ c ∈ d :: s, ¬ Spec.Kana c := by
          intro c hc hk
          have : is_mixed (d :: s) = true := (C04_is_mixed _).2 ⟨⟨c, hc, hk⟩, d, List.mem_cons_self, hrom⟩
          rw [hm] at this
          cases this
        have hs : (d :: s).map h2kP = d :: s := by
          conv => rhs; rw [← List.map_id (d :: s)]
          exact List.map_congr_left fun c hc => h2kP_no_kana (fun h => hnk c hc ((h2kP_kana_iff c).1 h))
        rw [hs] at e
        have hx : ∀ c ∈ settleBy (keepsN o) h, ¬ Spec.Kana c := by
          intro c hc hk
          refine hnk (h2kP c) ?_ ((h2kP_kana_iff c).2 hk)
          rw [← e]
          exact List.mem_map_of_mem hc
        rw [settleBy_no_kana hx] at e hx
        rw [← e]
        conv => lhs; rw [← List.map_id h]
        exact (List.map_congr_left fun c hc => h2kP_no_kana (fun h => hx c hc ((h2kP_kana_iff c).1 h))).symm
      · exfalso
        rw [← hfix] at e
        cases ht : kana (modeOf o) h with
        | nil => rw [ht] at e; cases e
        | cons x r =>
          rw [ht] at e
          have hx : h2kP x = h2kP d := (List.cons.inj e).1
          have hdq : d.toNat < 0x3041 := by
            simp only [List.mem_cons, List.not_mem_nil, or_false] at hq
            rcases hq with rfl | rfl | rfl | rfl <;> decide
          rw [(h2kP_eq_iff hdq).2 rfl, h2kP_eq_iff hdq] at hx
          subst hx
          exact kana_head_not_quote _ _ hq r ht
  · rintro rfl
    exact hk

/-! ## The other way -/

theorem itc_h2k (s : Str) : ignorableThenCased (s.map h2kP) = ignorableThenCased s := by
  induction s with
  | nil => rfl
  | cons c s ih =>
    rw [List.map_cons, itc_cons, itc_cons, ih]
    by_cases h : 0x3041 ≤ c.toNat ∧ c.toNat ≤ 0x3096
    · have e := h2kP_toNat c
      rw [if_pos h] at e
      rw [kana_not_ignorable (by omega), kana_not_ignorable (by omega), kana_not_cased (by omega) (by omega),
        kana_not_cased (by omega) (by omega)]
    · have e := h2kP_toNat c
      rw [if_neg h] at e
      rw [e]

theorem sigmas_h2k (search : List Char → Char → Option Nat) (s : Str) : ∀ pre,
    sigmas (unicodeStd search) (pre.map h2kP) (s.map h2kP) = (sigmas (unicodeStd search) pre s).map h2kP := by
  induction s with
  | nil => intro _; rfl
  | cons c s ih =>
    intro pre
    have hf : (unicodeStd search).finalSigma (pre.map h2kP) (s.map h2kP) = (unicodeStd search).finalSigma pre s := by
      show (ignorableThenCased _ && !ignorableThenCased _) = (ignorableThenCased _ && !ignorableThenCased _)
      rw [← List.map_reverse, itc_h2k, itc_h2k]
    have ih := ih (pre ++ [c])
    rw [List.map_append] at ih
    rw [List.map_cons, sigmas, sigmas, List.map_cons, hf, ← ih]
    congr 1
    have hs : h2kP c = 'Σ' ↔ c = 'Σ' := h2kP_eq_iff (by decide)
    by_cases hc : c = 'Σ'
    · rw [if_pos hc, if_pos (hs.2 hc)]
      split <;> exact ((h2kP_eq_iff (by decide)).2 rfl).symm
    · rw [if_neg hc, if_neg (mt hs.1 hc)]

/-- **C139** to hiragana by way of katakana: nothing may have been converted -/
theorem C139_hiragana {search : List Char → Char → Option Nat} (hstd : (unicodeStd search).Lawful) (s h k : Str)
    (o : Options) (c : Char) (ho : o.pass_romaji = false)
    (hc : s.head? = some c) (hcp : Spec.EnglishPunct c) (hm : is_mixed s = false) (hr : is_romaji s = false)
    (hh : to_hiragana_with_opt (unicodeStd search) s o = .ok h)
    (hk : to_katakana_with_opt (unicodeStd search) s o = .ok k) :
    to_hiragana_with_opt (unicodeStd search) k o = .ok h ↔ k = s := by
  constructor
  · intro e
    obtain ⟨e1, e2⟩ := punct_first (std := unicodeStd search) ho hc hcp hm hr
    rw [to_katakana_eq hstd, e2] at hk
    have hk := Except.ok.inj hk
    subst hk
    have hc' : (s.map h2kP).head? = some c := by
      rw [List.head?_map, hc]
      exact congrArg some (h2kP_no_kana fun h => punct_not_kana hcp ((h2kP_kana_iff c).1 h))
    obtain ⟨e3, _⟩ := punct_first (std := unicodeStd search) ho hc' hcp (by rw [(katakana_shift_class s).2, hm])
      (by rw [(katakana_shift_class s).1, hr])
    rw [to_hiragana_eq hstd, e1] at hh
    rw [to_hiragana_eq hstd, e3, ← hh, Except.ok.injEq, sigmas_toLowercase hstd,
      sigmas_toLowercase hstd s] at e
    have hmap := sigmas_h2k search s []
    rw [List.map_nil] at hmap
    rw [hmap] at e
    obtain ⟨ts, hts⟩ := C60_runs_exist (sigmas (unicodeStd search) [] s)
    have hns := sigmaLowered_noSigma (sigmas_lowered (unicodeStd search) s [])
    have hnk : ∀ x ∈ ts, x.1 = false → x.2.map h2kP = x.2 := by
      intro x hx hb
      conv => rhs; rw [← List.map_id x.2]
      refine List.map_congr_left fun c hc => h2kP_no_kana fun h => ?_
      have := ((hts.runs x hx).2 c hc).1 ((h2kP_kana_iff c).1 h)
      rw [hb] at this
      cases this
    have t1 : (sigmas (unicodeStd search) [] s).map h2kP =
        ts.flatMap fun x => if x.1 then x.2.map h2kP else x.2 := by
      rw [← hts.text, List.map_flatMap]
      apply flatMap_congr_left
      intro x hx
      cases hb : x.1 with
      | true => rfl
      | false => exact hnk x hx hb
    have t2 : sigmas (unicodeStd search) [] s = ts.flatMap fun x => if x.1 then id x.2 else x.2 := by
      conv => lhs; rw [← hts.text]
      apply flatMap_congr_left
      intro x _
      cases x.1 <;> rfl
    have g1 := kana_lower_runs hstd (modeOf o) (fun t => t.map h2kP) ts _ hts hns (fun t h0 hk => ⟨by simpa using h0,
      fun c hc => by
        obtain ⟨d, hd, rfl⟩ := List.mem_map.1 hc
        exact (h2kP_kana_iff d).2 (hk d hd)⟩)
    have g2 := kana_lower_runs hstd (modeOf o) id ts _ hts hns (fun t h0 hk => ⟨h0, hk⟩)
    rw [← t1] at g1
    rw [← t2] at g2
    rw [g1, g2] at e
    have al := flatMap_aligned ts (by
      intro x _
      cases x.1 with
      | true => simp
      | false => exact Nat.le_refl _) e
    have hall : ∀ c ∈ sigmas (unicodeStd search) [] s, ¬ Spec.HiraganaLetter c := by
      intro c hc hl
      rw [← hts.text] at hc
      obtain ⟨x, hx, hcx⟩ := List.mem_flatMap.1 hc
      have hb : x.1 = true := ((hts.runs x hx).2 c hcx).1 (Or.inl hl)
      have := al x hx
      rw [hb, if_pos rfl, if_pos rfl] at this
      exact (map_h2kP_fixed x.2).1 this c hcx hl
    rw [map_h2kP_fixed]
    intro c hc hl
    refine hall c ((Alike.of_lowered (sigmas_lowered (unicodeStd search) s [])).mem hc fun hx => ?_) hl
    have : ∀ c ∈ ['Σ', 'σ', 'ς'], ¬ Spec.HiraganaLetter c := by decide
    exact this c hx hl
  · rintro rfl
    exact hh

/-- texts in question: with nothing converted, with a mark converted, with kana in quotation marks -/
example : (∀ t ∈ ["#漢字", "!漢字", "“あ漢”", "“ア漢”"], ∃ c, t.toList.head? = some c ∧ Spec.EnglishPunct c ∧
      is_mixed t.toList = false ∧ is_romaji t.toList = false) ∧
    to_hiragana_with_opt modernStd "#漢字".toList {} = .ok "#漢字".toList ∧
    to_hiragana_with_opt modernStd "!漢字".toList {} = .ok "！漢字".toList ∧
    to_katakana_with_opt modernStd "！漢字".toList {} = .ok "！漢字".toList ∧
    to_katakana_with_opt modernStd "!漢字".toList {} = .ok "!漢字".toList ∧
    to_hiragana_with_opt modernStd "“あ漢”".toList {} = .ok "『あ漢』".toList ∧
    to_katakana_with_opt modernStd "“あ漢”".toList {} = .ok "“ア漢”".toList ∧
    to_hiragana_with_opt modernStd "“ア漢”".toList {} = .ok "『ア漢』".toList := by
  refine ⟨?_, by decide +kernel⟩
  intro t ht
  simp only [List.mem_cons, List.not_mem_nil, or_false] at ht
  rcases ht with rfl | rfl | rfl | rfl <;> refine ⟨_, rfl, ?_⟩ <;> decide +kernel

end WanaKana
