import Verif.Props.Typing
import Verif.Props.PunctWays
import Verif.Proofs.StdUnicode
/-! # C140: typing on after a text that is not only romaji -/

namespace WanaKana

theorem k2hP_then (std : Std) (a : Str) {b : Str} (hb : ∀ c, b.head? = some c → ¬ Spec.Kana c) :
    k2hP std false none (a ++ b) = k2hP std false none a ++ k2hP std false none b := by
  rw [k2hP_append, k2hP_prev_nonkana std false _ b hb]

theorem mem_lower_kana {std : Std} (hstd : std.Lawful) {s : Str} (hs : 'Σ' ∉ s) {c : Char} (hc : c ∈ s) (hk : Spec.Kana c) :
    c ∈ std.toLowercase s := by
  unfold Std.toLowercase
  rw [lower_noSigma std s hs, List.mem_flatMap]
  refine ⟨c, hc, ?_⟩
  have := lower_kana hstd [c] (fun d hd => by rw [List.mem_singleton.1 hd]; exact hk)
  rw [List.flatMap_cons, List.flatMap_nil, List.append_nil] at this
  rw [this]
  exact List.mem_singleton.2 rfl

theorem k2hP_noSigma {std : Std} (hstd : std.Lawful) {s : Str} (hs : 'Σ' ∉ s) : 'Σ' ∉ k2hP std false none s := by
  intro hm
  have hf := filter_nonkana hstd false s prevOk_none
  have : 'Σ' ∈ s.filter (fun c => ¬ Spec.Kana c) := by
    rw [← hf, List.mem_filter]
    exact ⟨hm, by decide⟩
  exact hs (List.mem_filter.1 this).1

theorem k2hP_has_kana {std : Std} {s : Str} (h : ∃ c ∈ s, Spec.Kana c) : ∃ c ∈ k2hP std false none s, Spec.Kana c := by
  refine Classical.byContradiction fun hn => ?_
  have := k2hP_result_no_kana std false s fun c hc hk => hn ⟨c, hc, hk⟩
  rw [this] at hn
  exact hn h

theorem mixed_append {r b : Str} (hr : ∃ c ∈ r, Spec.Kana c) (hb : ∃ c ∈ b, Spec.Romaji c) : is_mixed (r ++ b) = true := by
  obtain ⟨c, hc, hk⟩ := hr
  obtain ⟨d, hd, hdr⟩ := hb
  exact (C04_is_mixed _).2 ⟨⟨c, List.mem_append_left _ hc, hk⟩, d, List.mem_append_right _ hd, hdr⟩

/-- **C140** Typing on with `to_hiragana` in IME mode after a text with both kana and romaji, or after one that is not
only romaji and does not begin with English punctuation: converting the text first makes no difference, whatever comes
next, as long as it has romaji and does not begin with a kana. -/
theorem C140_hiragana {std : Std} (hstd : std.Lawful) (a b ra : Str) (o : Options)
    (hp : o.pass_romaji = false) (h1 : o.imemode = true) (h2 : o.use_obsolete_kana = false)
    (ha : is_mixed a = true ∨ ((∃ c ∈ a, ¬ Spec.Romaji c) ∧ ∀ c, a.head? = some c → ¬ Spec.EnglishPunct c))
    (hs : 'Σ' ∉ a) (hb : b = [] ∨ ∃ c ∈ b, Spec.Romaji c) (hsb : 'Σ' ∉ b)
    (hbk : ∀ c, b.head? = some c → ¬ Spec.Kana c) (hra : to_hiragana_with_opt std a o = .ok ra) :
    to_hiragana_with_opt std (ra ++ b) o = to_hiragana_with_opt std (a ++ b) o := by
  rw [to_hiragana_eq hstd] at hra
  cases hra
  rw [to_hiragana_eq hstd, to_hiragana_eq hstd]
  congr 1
  have hp' : ¬ o.pass_romaji = true := by simp [hp]
  have hmode := modeOf_ime.2 ⟨h1, h2⟩
  have hfew : FewKatakana (hiraP std a o) := by
    refine plain_few hstd (Or.inr ⟨fun _ => hs, fun c hc hcp => ?_⟩)
    rcases ha with h | h
    · exact Or.inl h
    · exact absurd hcp (h.2 c hc)
  have hid := k2hP_k2hP hstd hfew
  by_cases h0 : b = []
  · subst h0
    rw [List.append_nil, List.append_nil, (hira_again hstd a o hfew).1, keepsN_of hp', hmode]
    rfl
  · have hb := hb.resolve_left h0
    have mixedHira : ∀ r, (∃ c ∈ r, Spec.Kana c) →
        hiraP std (r ++ b) o = kana .ime (std.toLowercase (k2hP std false none r ++ k2hP std false none b)) := by
      intro r hr
      unfold hiraP
      rw [if_neg hp', if_pos (mixed_append hr hb), hmode, k2hP_then std r hbk]
    by_cases hm : is_mixed a = true
    · have hka := ((C04_is_mixed a).1 hm).1
      have e : hiraP std a o = kana .ime (std.toLowercase (k2hP std false none a)) := by
        unfold hiraP
        rw [if_neg hp', if_pos hm, hmode]
      have hset : ∀ c ∈ hiraP std a o, Settled std c := by
        rw [e]; exact kana_settled hstd _ _ (fun c hc => lower_settled hstd hc)
      have hkr : ∃ c ∈ hiraP std a o, Spec.Kana c := by
        obtain ⟨c, hc, hk⟩ := k2hP_has_kana (std := std) hka
        refine ⟨c, ?_, hk⟩
        rw [e]
        exact mem_kana_of_ge _ (kana_ge hk) (mem_lower_kana hstd (k2hP_noSigma hstd hs) hc hk)
      rw [mixedHira _ hkr, mixedHira _ hka, hid, lower_append (fun h => (hset _ h).2 rfl) (k2hP_noSigma hstd hsb),
        toLowercase_id hset, lower_append (k2hP_noSigma hstd hs) (k2hP_noSigma hstd hsb), e, ime_incremental]
    · obtain ⟨⟨c, hc, hn⟩, hh⟩ := ha.resolve_left hm
      have hr : ¬ (is_romaji a || ((a.head?).map is_char_english_punctuation).getD false) = true := by
        rw [Bool.or_eq_true]
        rintro (h | h)
        · exact hn (((C01_is_romaji a).1 h).2 c hc)
        · rw [head_punct_iff'] at h
          obtain ⟨d, hd, hdp⟩ := h
          exact hh d hd hdp
      have e : hiraP std a o = k2hP std false none a := by
        unfold hiraP
        rw [if_neg hp', if_neg hm, if_neg hr]
      by_cases hk : ∃ c ∈ a, Spec.Kana c
      · rw [mixedHira (hiraP std a o) (by rw [e]; exact k2hP_has_kana hk), mixedHira _ hk, hid, e]
      · rw [e, k2hP_no_kana hstd fun c hc hkc => hk ⟨c, hc, hkc⟩]

theorem lower_map_h2k {std : Std} (hstd : std.Lawful) {s : Str} (hs : 'Σ' ∉ s) :
    std.toLowercase (s.map h2kP) = (std.toLowercase s).map h2kP := by
  have hs' : 'Σ' ∉ s.map h2kP := by
    intro hm
    obtain ⟨c, hc, e⟩ := List.mem_map.1 hm
    rw [h2kP_eq_iff (by decide)] at e
    exact hs (e ▸ hc)
  unfold Std.toLowercase
  rw [lower_noSigma std _ hs', lower_noSigma std _ hs, List.flatMap_map, List.map_flatMap]
  apply flatMap_congr_left
  intro c hmem
  have one : ∀ d, Spec.Kana d → std.lowerChar d = [d] := by
    intro d hd
    have := lower_kana hstd [d] (fun x hx => by rw [List.mem_singleton.1 hx]; exact hd)
    rwa [List.flatMap_cons, List.flatMap_nil, List.append_nil] at this
  by_cases h : 0x3041 ≤ c.toNat ∧ c.toNat ≤ 0x3096
  · have hk : Spec.Kana c := specKana_iff.2 (Or.inl h)
    have hk' : Spec.Kana (h2kP c) := by
      rw [specKana_iff, h2kP_toNat, if_pos h]; omega
    rw [one _ hk, one _ hk']; rfl
  · have e : h2kP c = c := if_neg h
    rw [e]
    symm
    refine (List.map_congr_left (g := id) fun d hd => ?_).trans (List.map_id _)
    by_cases hd' : 0x3041 ≤ d.toNat ∧ d.toNat ≤ 0x3096
    · exfalso
      have hk : Spec.Kana d := specKana_iff.2 (Or.inl hd')
      have hm : d ∈ std.toLowercase [c] := by
        unfold Std.toLowercase
        rw [lower_noSigma std _ (by simp only [List.mem_singleton]; exact fun e => hs (e ▸ hmem))]
        simpa using hd
      have := List.mem_singleton.1 (lower_uncased hstd hm (kana_uncased hk))
      rw [this] at hd'
      exact h hd'
    · exact if_neg hd'

/-- **C140** the same for `to_katakana`, whatever the text begins with -/
theorem C140_katakana {std : Std} (hstd : std.Lawful) (a b ra : Str) (o : Options)
    (hp : o.pass_romaji = false) (h1 : o.imemode = true) (h2 : o.use_obsolete_kana = false)
    (ha : ∃ c ∈ a, ¬ Spec.Romaji c)
    (hs : 'Σ' ∉ a) (hb : b = [] ∨ ∃ c ∈ b, Spec.Romaji c) (hsb : 'Σ' ∉ b) (hra : to_katakana_with_opt std a o = .ok ra) :
    to_katakana_with_opt std (ra ++ b) o = to_katakana_with_opt std (a ++ b) o := by
  rw [to_katakana_eq hstd] at hra
  cases hra
  rw [to_katakana_eq hstd, to_katakana_eq hstd]
  congr 1
  have hp' : ¬ o.pass_romaji = true := by simp [hp]
  have hmode := modeOf_ime.2 ⟨h1, h2⟩
  have hnr : ¬ is_romaji a = true := by
    intro h
    obtain ⟨c, hc, hn⟩ := ha
    exact hn (((C01_is_romaji a).1 h).2 c hc)
  have hidem : ∀ s : Str, (s.map h2kP).map h2kP = s.map h2kP := by
    intro s
    rw [List.map_map]
    exact List.map_congr_left fun c _ => h2kP_idem c
  have over : ∀ x y : Str, (kana .ime (x.map h2kP ++ y)).map h2kP = (kana .ime (x ++ y)).map h2kP := by
    intro x y
    rw [← kana_shift, List.map_append, hidem, ← List.map_append, kana_shift]
  have mixedKata : ∀ r, (∃ c ∈ r, Spec.Kana c) → b ≠ [] →
      kataP std (r ++ b) o = (kana .ime (std.toLowercase (r ++ b))).map h2kP := by
    intro r hr h0
    unfold kataP
    rw [if_neg hp', if_pos (by simp [mixed_append hr (hb.resolve_left h0)]), hmode]
  by_cases hm : is_mixed a = true
  · have hka := ((C04_is_mixed a).1 hm).1
    have e : kataP std a o = (kana .ime (std.toLowercase a)).map h2kP := by
      unfold kataP
      rw [if_neg hp', if_pos (by simp [hm]), hmode]
    have hset : ∀ c ∈ kataP std a o, Settled std c := by
      rw [e]
      intro c hc
      obtain ⟨d, hd, rfl⟩ := List.mem_map.1 hc
      exact h2kP_settled hstd (kana_settled hstd _ _ (fun c hc => lower_settled hstd hc) d hd)
    by_cases h0 : b = []
    · subst h0
      have hfix : kana (modeOf o) (kataP std a o) = settleBy true (kataP std a o) := by
        rw [e, hmode]
        exact kana_through_h2k (kana_settle .ime _)
      rw [List.append_nil, List.append_nil, kataP_settle hp' hset hfix]
      show (kataP std a o).map h2kP = _
      rw [e, hidem]
    · have hkr : ∃ c ∈ kataP std a o, Spec.Kana c := by
        obtain ⟨c, hc, hk⟩ := hka
        refine ⟨h2kP c, ?_, ?_⟩
        · rw [e]
          exact List.mem_map_of_mem (mem_kana_of_ge _ (kana_ge hk) (mem_lower_kana hstd hs hc hk))
        · rw [specKana_iff] at hk ⊢
          rw [h2kP_toNat]
          split <;> omega
      rw [mixedKata _ hkr h0, mixedKata _ hka h0, lower_append (fun h => (hset _ h).2 rfl) hsb,
        toLowercase_id hset, lower_append hs hsb, e, over, ime_incremental]
  · have e : kataP std a o = a.map h2kP := by
      unfold kataP
      rw [if_neg hp', if_neg (by simp [hm, hnr])]
    by_cases hk : ∃ c ∈ a, Spec.Kana c
    · by_cases h0 : b = []
      · subst h0
        rw [List.append_nil, List.append_nil, e]
        obtain ⟨c1, c2⟩ := katakana_shift_class a
        unfold kataP
        rw [if_neg hp', if_neg (by simp [c1, c2, hm, hnr]), hidem]
      · have hkr : ∃ c ∈ a.map h2kP, Spec.Kana c := by
          obtain ⟨c, hc, hk⟩ := hk
          refine ⟨h2kP c, List.mem_map_of_mem hc, ?_⟩
          rw [specKana_iff] at hk ⊢
          rw [h2kP_toNat]
          split <;> omega
        have hs' : 'Σ' ∉ a.map h2kP := by
          intro hx
          obtain ⟨c, hc, e⟩ := List.mem_map.1 hx
          rw [h2kP_eq_iff (by decide)] at e
          exact hs (e ▸ hc)
        rw [e, mixedKata _ hkr h0, mixedKata _ hk h0, lower_append hs' hsb, lower_append hs hsb, lower_map_h2k hstd hs, over]
    · have : a.map h2kP = a := by
        refine (List.map_congr_left (g := id) fun d hd => ?_).trans (List.map_id _)
        refine if_neg fun h => hk ⟨d, hd, specKana_iff.2 (Or.inl h)⟩
      rw [e, this]

theorem hiraP_mixed_has_kana {std : Std} (hstd : std.Lawful) {a : Str} {o : Options} (hp : o.pass_romaji = false)
    (hm : is_mixed a = true) (hs : 'Σ' ∉ a) : ∃ c ∈ hiraP std a o, Spec.Kana c := by
  obtain ⟨c, hc, hk⟩ := k2hP_has_kana (std := std) ((C04_is_mixed a).1 hm).1
  refine ⟨c, ?_, hk⟩
  rw [hiraP, hp, if_neg (by decide), if_pos hm]
  exact mem_kana_of_ge _ (kana_ge hk) (mem_lower_kana hstd (k2hP_noSigma hstd hs) hc hk)

theorem not_kana_of_romaji {c : Char} (h : Spec.Romaji c) : ¬ Spec.Kana c := by
  intro hk
  rw [specRomaji_iff] at h
  rw [specKana_iff] at hk
  simp only [List.mem_cons, List.not_mem_nil, or_false] at h
  omega

/-- what the buffer holds after `a`, beginning with English punctuation, and what `to_hiragana` makes of it followed by `b` -/
theorem hiraP_typing_punct {std : Std} (hstd : std.Lawful) {a b : Str} {o : Options} (hp : o.pass_romaji = false)
    (hm : modeOf o = .ime) (hn : ∀ c ∈ a, ¬ Spec.Kana c) (hs : 'Σ' ∉ a)
    (ha : ((a.head?).map is_char_english_punctuation).getD false = true) (hb : ∀ c ∈ b, Spec.Romaji c) :
    ((is_mixed (hiraP std a o ++ b) = true ∨ is_romaji (hiraP std a o ++ b) = true ∨
        ((hiraP std a o ++ b).head?.map is_char_english_punctuation).getD false = true) ∧
      hiraP std (hiraP std a o ++ b) o = hiraP std (a ++ b) o) ∨
      (is_mixed (hiraP std a o ++ b) = false ∧ is_romaji (hiraP std a o ++ b) = false ∧
        ((hiraP std a o ++ b).head?.map is_char_english_punctuation).getD false = false ∧
        hiraP std (hiraP std a o ++ b) o = hiraP std a o ++ b) := by
  have branch : ∀ x : Str, (∀ c ∈ x, ¬ Spec.Kana c) → ((x.head?).map is_char_english_punctuation).getD false = true →
      hiraP std x o = kana (modeOf o) (std.toLowercase x) := by
    intro x hx hxp
    rw [hiraP, hp, if_neg (by decide), if_neg ?_, if_pos (by rw [hxp, Bool.or_true])]
    intro h
    obtain ⟨⟨c, hc, hk⟩, -⟩ := (C04_is_mixed x).1 h
    exact hx c hc hk
  have hhead : (((a ++ b).head?).map is_char_english_punctuation).getD false = true := by
    cases a with
    | nil => cases ha
    | cons c a => exact ha
  have ea := branch a hn ha
  have eab := branch (a ++ b)
    (fun c hc => (List.mem_append.1 hc).elim (hn c) fun h hk => not_kana_of_romaji (hb c h) hk) hhead
  rw [hm] at ea eab
  have hset : ∀ c ∈ hiraP std a o, Settled std c := by
    rw [ea]
    exact kana_settled hstd _ _ fun c hc => lower_settled hstd hc
  have hfew : FewKatakana (hiraP std a o ++ b) := by
    have hno : ∀ c, Spec.Romaji c → ¬ Spec.Katakana c := by
      intro c h1 h2
      rw [specRomaji_iff] at h1
      rw [specKatakana_iff] at h2
      simp only [List.mem_cons, List.not_mem_nil, or_false] at h1
      omega
    intro c hc hk
    rcases List.mem_append.1 hc with hc | hc
    · rw [ea] at hc
      exact few_lower hstd .ime (fun d hd hdk => absurd (katakana_is_kana hdk) (hn d hd)) c hc hk
    · exact absurd hk (hno c (hb c hc))
  have hid : k2hP std false none (hiraP std a o ++ b) = hiraP std a o ++ b := by
    have := C23_unchanged hstd _ false hfew
    rw [k2h_eq hstd] at this
    exact Except.ok.inj this
  have hK : kana .ime (std.toLowercase (hiraP std a o ++ b)) = hiraP std (a ++ b) o := by
    rw [lower_append (fun h => (hset _ h).2 rfl) (romaji_noSigma hb), toLowercase_id hset, eab,
      lower_append hs (romaji_noSigma hb), ea, ime_incremental]
  generalize hR : hiraP std a o = R at *
  cases h1 : is_mixed (R ++ b) with
  | true => left; refine ⟨Or.inl rfl, ?_⟩; rw [hiraP, hp, if_neg (by decide), if_pos h1, hid, hm, hK]
  | false =>
    by_cases h2 : (is_romaji (R ++ b) || ((R ++ b).head?.map is_char_english_punctuation).getD false) = true
    · left; refine ⟨Or.inr (by simpa using h2), ?_⟩; rw [hiraP, hp, if_neg (by decide), if_neg (by rw [h1]; decide), if_pos h2, hm, hK]
    · right
      have h3 := h2
      rw [Bool.not_eq_true, Bool.or_eq_false_iff] at h3
      refine ⟨rfl, h3.1, h3.2, ?_⟩
      rw [hiraP, hp, if_neg (by decide), if_neg (by rw [h1]; decide), if_neg h2, hid]

/-- **C140** After a text that begins with English punctuation: exactly the cases of C88. (Four of the quotation
marks are not romaji; after them the text must have no kana.) -/
theorem C140_punct {std : Std} (hstd : std.Lawful) (a b ra : Str) (o : Options)
    (hp : o.pass_romaji = false) (h1 : o.imemode = true) (h2 : o.use_obsolete_kana = false)
    (ha : ∃ c, a.head? = some c ∧ Spec.EnglishPunct c)
    (hq : ∀ c, a.head? = some c → c ∈ ['‘', '’', '“', '”'] → ∀ d ∈ a, ¬ Spec.Kana d) (hs : 'Σ' ∉ a) (hb : ∀ c ∈ b, Spec.Romaji c)
    (hra : to_hiragana_with_opt std a o = .ok ra) :
    to_hiragana_with_opt std (ra ++ b) o = to_hiragana_with_opt std (a ++ b) o ↔
      b = [] ∨ (∃ c ∈ ra, Spec.Kana c) ∨ (∀ c ∈ ra, Spec.Romaji c) ∨
        (∃ c, ra.head? = some c ∧ Spec.EnglishPunct c) ∨
        to_hiragana_with_opt std (a ++ b) o = .ok (ra ++ b) := by
  by_cases hm : is_mixed a = true
  · refine ⟨fun _ => Or.inr (Or.inl ?_), fun _ => ?_⟩
    · rw [to_hiragana_eq hstd] at hra
      cases hra
      exact hiraP_mixed_has_kana hstd hp hm hs
    · refine C140_hiragana hstd a b ra o hp h1 h2 (Or.inl hm) hs ?_ (romaji_noSigma hb)
        (fun c hc => not_kana_of_romaji (hb c (List.mem_of_mem_head? hc))) hra
      cases b with
      | nil => exact Or.inl rfl
      | cons d b => exact Or.inr ⟨d, List.mem_cons_self, hb d List.mem_cons_self⟩
  have hn : ∀ c ∈ a, ¬ Spec.Kana c := by
    intro c hc hk
    obtain ⟨d, hd, hdp⟩ := ha
    rcases punct_cases hdp with h | h
    · exact hm ((C04_is_mixed a).2 ⟨⟨c, hc, hk⟩, d, List.mem_of_mem_head? hd, h⟩)
    · exact hq d hd h c hc hk
  rw [to_hiragana_eq hstd] at hra
  cases hra
  have key := hiraP_typing_punct hstd hp (modeOf_ime.2 ⟨h1, h2⟩) hn hs (head_punct_iff'.2 ha) hb
  rw [to_hiragana_eq hstd, to_hiragana_eq hstd, Except.ok.injEq, Except.ok.injEq]
  have hR : b = [] → hiraP std a o = hiraP std (a ++ b) o := by rintro rfl; rw [List.append_nil]
  generalize hiraP std a o = R at *
  constructor
  · intro e
    cases h1 : is_mixed (R ++ b) with
    | true =>
      obtain ⟨⟨c, hc, hk⟩, _⟩ := (C04_is_mixed _).1 h1
      rcases List.mem_append.1 hc with hc | hc
      · exact Or.inr (Or.inl ⟨c, hc, hk⟩)
      · have hr := hb c hc
        rw [specRomaji_iff] at hr
        rw [specKana_iff] at hk
        simp only [List.mem_cons, List.not_mem_nil, or_false] at hr
        omega
    | false =>
      cases h2 : is_romaji (R ++ b) with
      | true =>
        exact Or.inr (Or.inr (Or.inl fun c hc => ((C01_is_romaji _).1 h2).2 c (List.mem_append_left _ hc)))
      | false =>
        cases h3 : ((R ++ b).head?.map is_char_english_punctuation).getD false with
        | true =>
          cases R with
          | nil => exact Or.inr (Or.inr (Or.inl (by simp)))
          | cons c R =>
            refine Or.inr (Or.inr (Or.inr (Or.inl ⟨c, rfl, ?_⟩)))
            simpa [is_char_english_punctuation_iff] using h3
        | false =>
          refine Or.inr (Or.inr (Or.inr (Or.inr ?_)))
          rcases key with k | k
          · rw [h1, h2, h3] at k; simp at k
          · rw [← e, k.2.2.2]
  · intro h
    rcases key with k | ⟨k1, k2, k3, k4⟩
    · exact k.2
    · rw [k4]
      rcases h with rfl | h | h | h | h
      · rw [List.append_nil]; rw [List.append_nil] at hR; exact (hR rfl).trans (by rw [List.append_nil])
      · cases b with
        | nil => rw [List.append_nil]; exact hR rfl
        | cons d b =>
          rw [Bool.eq_false_iff, Ne, C04_is_mixed] at k1
          obtain ⟨c, hc, hk⟩ := h
          exact absurd ⟨⟨c, List.mem_append_left _ hc, hk⟩,
            ⟨d, List.mem_append_right _ List.mem_cons_self, hb d List.mem_cons_self⟩⟩ k1
      · cases b with
        | nil => rw [List.append_nil]; exact hR rfl
        | cons d b =>
          rw [Bool.eq_false_iff, Ne, C01_is_romaji] at k2
          exact absurd ⟨by simp, fun c hc => (List.mem_append.1 hc).elim (h c) (hb c)⟩ k2
      · obtain ⟨c, hc, he⟩ := h
        cases R with
        | nil => cases hc
        | cons d R =>
          cases hc
          rw [List.cons_append, List.head?_cons, Option.map_some, Option.getD_some, Bool.eq_false_iff, Ne,
            is_char_english_punctuation_iff] at k3
          exact absurd he k3
      · exact h.symm

/-- a text being typed: kana, kanji and an open `n` -/
example : is_mixed "カナ漢kon".toList = true ∧ 'Σ' ∉ "カナ漢kon".toList ∧
    to_hiragana_with_opt modernStd "カナ漢kon".toList { imemode := true } = .ok "かな漢こn".toList ∧
    to_hiragana_with_opt modernStd "かな漢こnya".toList { imemode := true } = .ok "かな漢こにゃ".toList ∧
    to_hiragana_with_opt modernStd "カナ漢konya".toList { imemode := true } = .ok "かな漢こにゃ".toList ∧
    to_katakana_with_opt modernStd "かな漢kon".toList { imemode := true } = .ok "カナ漢コn".toList ∧
    to_katakana_with_opt modernStd "カナ漢コnya".toList { imemode := true } = .ok "カナ漢コニャ".toList := by decide +kernel

/-- more text with kana and kanji after it -/
example : to_hiragana_with_opt modernStd "かな漢こnyaカナKA漢".toList { imemode := true } = .ok "かな漢こにゃかなか漢".toList ∧
    to_hiragana_with_opt modernStd "カナ漢konyaカナKA漢".toList { imemode := true } = .ok "かな漢こにゃかなか漢".toList := by
  decide +kernel

/-- what the hypotheses leave out: text without romaji after it is lower-cased or not -/
example : to_hiragana_with_opt rustStd "かka".toList { imemode := true } = .ok "かか".toList ∧
    to_hiragana_with_opt rustStd "かかÉ".toList { imemode := true } = .ok "かかÉ".toList ∧
    to_hiragana_with_opt rustStd "かkaÉ".toList { imemode := true } = .ok "かかé".toList := by decide +kernel

/-- what the hypotheses leave out: after a buffer that begins with English punctuation and has no kana, what is typed
next is not converted -/
example : to_hiragana_with_opt modernStd "!漢".toList { imemode := true } = .ok "！漢".toList ∧
    to_hiragana_with_opt modernStd "！漢ka".toList { imemode := true } = .ok "！漢ka".toList ∧
    to_hiragana_with_opt modernStd "!漢ka".toList { imemode := true } = .ok "！漢か".toList := by decide +kernel

/-- the two sides of the last theorem: a mark that stays, and one that is converted -/
example : to_hiragana_with_opt modernStd "#漢".toList { imemode := true } = .ok "#漢".toList ∧
    Spec.EnglishPunct '#' ∧ to_hiragana_with_opt modernStd "#漢ka".toList { imemode := true } = .ok "#漢か".toList ∧
    Spec.EnglishPunct '!' ∧ (∀ c ∈ "！漢".toList, ¬ Spec.Kana c) ∧ ¬ Spec.EnglishPunct '！' := by decide +kernel

/-- and the small form of a capital sigma depends on what is typed next -/
example : to_hiragana_with_opt rustStd "かaΣ".toList { imemode := true } = .ok "かあς".toList ∧
    to_hiragana_with_opt rustStd "かあςka".toList { imemode := true } = .ok "かあςか".toList ∧
    to_hiragana_with_opt rustStd "かaΣka".toList { imemode := true } = .ok "かあσか".toList := by decide +kernel

end WanaKana
