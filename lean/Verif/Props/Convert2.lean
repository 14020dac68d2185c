import Verif.Props.Convert
import Verif.Spec.Convert
/-! # C59, C60: exact behaviour of `to_hiragana` and `to_katakana` -/

namespace WanaKana

/-! ## C59 -/

theorem is_mixed_false_iff {s : Str} : is_mixed s = false ↔ (∀ c ∈ s, ¬ Spec.Kana c) ∨ (∀ c ∈ s, ¬ Spec.Romaji c) := by
  rw [Bool.eq_false_iff, Ne, C04_is_mixed]
  constructor
  · intro h
    by_cases hk : ∃ c ∈ s, Spec.Kana c
    · right; intro c hc hr; exact h ⟨hk, c, hc, hr⟩
    · left; intro c hc hr; exact hk ⟨c, hc, hr⟩
  · rintro (h | h) ⟨⟨c, hc, hk⟩, d, hd, hr⟩
    · exact h c hc hk
    · exact h d hd hr

theorem englishPunct_romaji {c : Char} (h : Spec.EnglishPunct c) : Spec.Romaji c ∨ c ∈ ['‘', '’', '“', '”'] := by
  rcases h with h | h | h | h | h
  iterate 4
    · left
      rw [specRomaji_iff]
      left
      have := h.2
      omega
  · exact Or.inr h

theorem head_punct_iff {s : Str} : ((s.head?).map is_char_english_punctuation).getD false = true ↔
    ∃ c, s.head? = some c ∧ Spec.EnglishPunct c := by
  cases s with
  | nil => simp
  | cons c s => simp [is_char_english_punctuation_iff]

/-- **C59** text of romaji only is lower-cased and handed to `to_kana` with the same options -/
theorem C59_romaji (std : Std) (s : Str) (o : Options) (ho : o.pass_romaji = false)
    (h0 : s ≠ []) (h : ∀ c ∈ s, Spec.Romaji c) :
    to_hiragana_with_opt std s o = to_kana_with_opt std (std.toLowercase s) o ∧
      to_katakana_with_opt std s o = (to_kana_with_opt std (std.toLowercase s) o >>= hiragana_to_katakana) := by
  have hr := (C01_is_romaji s).2 ⟨h0, h⟩
  have hm := romaji_not_mixed hr
  constructor
  · unfold to_hiragana_with_opt romaji_to_hiragana
    simp [ho, hr, hm]
  · unfold to_katakana_with_opt romaji_to_hiragana
    simp [ho, hr, hm]

example : ("Wi".toList ≠ [] ∧ ∀ c ∈ "Wi".toList, Spec.Romaji c) ∧
    to_hiragana_with_opt modernStd "Wi".toList { use_obsolete_kana := true } = .ok "ゐ".toList ∧
    to_hiragana_with_opt modernStd "Wi".toList {} = .ok "うぃ".toList := by decide +kernel

/-- **C59** text without kana in which something is not romaji: `to_katakana` returns it unchanged, and so
does `to_hiragana` unless it starts with an English punctuation mark -/
theorem C59_other {std : Std} (hstd : std.Lawful) (s : Str) (o : Options)
    (hk : ∀ c ∈ s, ¬ Spec.Kana c) (hr : ∃ c ∈ s, ¬ Spec.Romaji c) :
    to_katakana_with_opt std s o = .ok s ∧
    ((∀ c, s.head? = some c → ¬ Spec.EnglishPunct c) → to_hiragana_with_opt std s o = .ok s) ∧
    ((∃ c, s.head? = some c ∧ Spec.EnglishPunct c) → o.pass_romaji = false →
      to_hiragana_with_opt std s o = to_kana_with_opt std (std.toLowercase s) o) := by
  have hm := is_mixed_false_iff.2 (Or.inl hk)
  have hrom : is_romaji s = false := by
    rw [Bool.eq_false_iff, Ne, C01_is_romaji]
    rintro ⟨_, h⟩
    obtain ⟨c, hc, hn⟩ := hr
    exact hn (h c hc)
  have hsame : s.map h2kP = s := by
    conv => rhs; rw [← List.map_id s]
    apply List.map_congr_left
    intro c hc
    apply char_ext
    rw [h2kP_toNat, if_neg, id]
    have := hk c hc
    rw [specKana_iff] at this
    omega
  refine ⟨?_, ?_, ?_⟩
  · rw [to_katakana_eq hstd]
    unfold kataP
    simp [hm, hrom, hsame]
  · intro hp
    have hp' : ((s.head?).map is_char_english_punctuation).getD false = false := by
      rw [Bool.eq_false_iff, Ne, head_punct_iff]
      rintro ⟨c, h1, h2⟩
      exact hp c h1 h2
    rw [to_hiragana_eq hstd]
    unfold hiraP
    simp [hm, hrom, hp', k2hP_no_katakana std false hk]
  · intro hp ho
    have hp' := head_punct_iff.2 hp
    rw [to_hiragana_eq hstd, to_kana_eq hstd]
    unfold hiraP
    simp [ho, hm, hp']

example : (∀ c ∈ "東京tokyo".toList, ¬ Spec.Kana c) ∧ (∃ c ∈ "東京tokyo".toList, ¬ Spec.Romaji c) ∧
    (∀ c, "東京tokyo".toList.head? = some c → ¬ Spec.EnglishPunct c) ∧
    to_hiragana_with_opt modernStd "(東京)tokyo".toList {} = .ok "（東京）ときょ".toList := by
  refine ⟨by decide +kernel, by decide +kernel, ?_, by decide +kernel⟩
  intro c hc
  have : c = '東' := by simpa using hc.symm
  subst this
  decide

/-- **C59** text without romaji: only the kana shift is applied, whatever the options; but `to_hiragana`
treats a text starting with a curly quote as romaji -/
theorem C59_no_romaji {std : Std} (hstd : std.Lawful) (s : Str) (o : Options) (hr : ∀ c ∈ s, ¬ Spec.Romaji c) :
    to_katakana_with_opt std s o = hiragana_to_katakana s ∧
    ((∀ c, s.head? = some c → c ∉ ['‘', '’', '“', '”']) → to_hiragana_with_opt std s o = katakana_to_hiragana std s) ∧
    ((∃ c, s.head? = some c ∧ c ∈ ['‘', '’', '“', '”']) → o.pass_romaji = false →
      to_hiragana_with_opt std s o = to_kana_with_opt std (std.toLowercase s) o) := by
  have hm := is_mixed_false_iff.2 (Or.inr hr)
  have hrom : is_romaji s = false := by
    rw [Bool.eq_false_iff, Ne, C01_is_romaji]
    rintro ⟨h0, h⟩
    cases s with
    | nil => exact h0 rfl
    | cons c s => exact hr c List.mem_cons_self (h c List.mem_cons_self)
  refine ⟨?_, ?_, ?_⟩
  · unfold to_katakana_with_opt
    simp [hm, hrom]
  · intro hq
    have hp : ((s.head?).map is_char_english_punctuation).getD false = false := by
      rw [Bool.eq_false_iff, Ne, head_punct_iff]
      rintro ⟨c, h1, h2⟩
      rcases englishPunct_romaji h2 with h3 | h3
      · exact hr c (List.mem_of_mem_head? h1) h3
      · exact hq c h1 h3
    unfold to_hiragana_with_opt
    simp [hm, hrom, hp]
  · rintro ⟨c, h1, h2⟩ ho
    have hp := head_punct_iff.2 ⟨c, h1, Or.inr (Or.inr (Or.inr (Or.inr h2)))⟩
    rw [to_hiragana_eq hstd, to_kana_eq hstd]
    unfold hiraP
    simp [ho, hm, hp]

example : ∀ c ∈ "東京へのメール。".toList, ¬ Spec.Romaji c := by decide +kernel

/-! ## C60 -/

/-- **C60** every text can be cut into maximal runs of kana and of other characters -/
theorem C60_runs_exist (s : Str) : ∃ ts, Spec.KanaRuns ts s := by
  induction s with
  | nil => exact ⟨[], by simp, trivial, rfl⟩
  | cons c s ih =>
    obtain ⟨ts, h1, h2, h3⟩ := ih
    cases ts with
    | nil =>
      refine ⟨[(decide (Spec.Kana c), [c])], ?_, trivial, by simp at h3 ⊢; exact h3.symm ▸ rfl⟩
      intro x hx
      simp only [List.mem_singleton] at hx
      subst hx
      simp
    | cons x ts =>
      by_cases hx : x.1 = decide (Spec.Kana c)
      · refine ⟨(x.1, c :: x.2) :: ts, ?_, ?_, ?_⟩
        · intro y hy
          rcases List.mem_cons.1 hy with rfl | hy
          · refine ⟨by simp, ?_⟩
            intro d hd
            rcases List.mem_cons.1 hd with rfl | hd
            · simp [hx]
            · exact (h1 x List.mem_cons_self).2 d hd
          · exact h1 y (List.mem_cons_of_mem _ hy)
        · cases ts with
          | nil => trivial
          | cons y ts => exact h2
        · simp only [List.flatMap_cons] at h3 ⊢
          rw [← h3]; rfl
      · refine ⟨(decide (Spec.Kana c), [c]) :: x :: ts, ?_, ⟨fun e => hx e.symm, h2⟩, ?_⟩
        · intro y hy
          rcases List.mem_cons.1 hy with rfl | hy
          · simp
          · exact h1 y hy
        · rw [List.flatMap_cons, h3]; rfl

theorem flatMap_congr_left {α β : Type} {f g : α → List β} {l : List α} (h : ∀ x ∈ l, f x = g x) :
    l.flatMap f = l.flatMap g := by
  rw [List.flatMap_def, List.flatMap_def, List.map_congr_left h]

theorem alternating_tail {x : Bool × Str} {ts : List (Bool × Str)} (h : Spec.Alternating (x :: ts)) :
    Spec.Alternating ts := by
  cases ts with
  | nil => trivial
  | cons y ts => exact h.2

theorem lower_noSigma (std : Std) (s : Str) (h : 'Σ' ∉ s) : ∀ pre, std.lowerFrom pre s = s.flatMap std.lowerChar := by
  induction s with
  | nil => intro pre; rfl
  | cons c s ih =>
    intro pre
    have hc : c ≠ 'Σ' := by rintro rfl; simp at h
    rw [Std.lowerFrom, if_neg hc, ih (by intro e; apply h; simp [e]), List.flatMap_cons]

theorem kana_uncased {c : Char} (h : Spec.Kana c) : Uncased c := by
  rw [specKana_iff] at h
  unfold Uncased; omega

theorem kana_ge {c : Char} (h : Spec.Kana c) : 0x2100 ≤ c.toNat := by
  rw [specKana_iff] at h; omega

/-- `to_kana` works on the runs separately -/
theorem kana_runs (m : Mode) (ts : List (Bool × Str)) (hk : ∀ x ∈ ts, x.1 = true → x.2 ≠ [] ∧ ∀ c ∈ x.2, Spec.Kana c)
    (ha : Spec.Alternating ts) :
    kana m (ts.flatMap (·.2)) = ts.flatMap fun x => if x.1 then x.2 else kana m x.2 := by
  induction ts with
  | nil => exact kana_nil m
  | cons x ts ih =>
    have ih := ih (fun y hy => hk y (List.mem_cons_of_mem _ hy)) (alternating_tail ha)
    rw [List.flatMap_cons, List.flatMap_cons, ← ih]
    cases hx : x.1 with
    | true =>
      rw [if_pos rfl]
      exact kana_of_ge (fun c hc => kana_ge ((hk x List.mem_cons_self hx).2 c hc)) _
    | false =>
      rw [if_neg (by simp)]
      apply kana_append
      apply cut_of_not_tail
      intro c hc
      cases ts with
      | nil => simp at hc
      | cons y ts =>
        have hy : y.1 = true := by
          have := ha.1
          rw [hx] at this
          cases h : y.1 with
          | true => rfl
          | false => rw [h] at this; exact absurd rfl this
        obtain ⟨h1, h2⟩ := hk y (List.mem_cons_of_mem _ List.mem_cons_self) hy
        have : c ∈ y.2 := by
          rw [List.flatMap_cons] at hc
          cases hy2 : y.2 with
          | nil => exact absurd hy2 h1
          | cons d l => rw [hy2] at hc; simp at hc; simp [hc]
        exact (inert_of_ge (m := m) (kana_ge (h2 c this))).2

theorem k2hPrev_nonkana (t : Str) (h : ∀ c ∈ t, ¬ Spec.Kana c) : k2hPrev none t = none := by
  induction t with
  | nil => rfl
  | cons c t ih =>
    have hc := h c List.mem_cons_self
    rw [specKana_iff] at hc
    rw [k2hPrev]
    have h1 : is_char_katakana c = false := by
      rw [Bool.eq_false_iff, Ne, is_char_katakana_iff]; omega
    simp [h1, ih fun d hd => h d (List.mem_cons_of_mem _ hd)]

theorem k2hP_prev_nonkana (std : Std) (dest : Bool) (prev : Option Char) (s : Str)
    (h : ∀ c, s.head? = some c → ¬ Spec.Kana c) : k2hP std dest prev s = k2hP std dest none s := by
  cases s with
  | nil => cases prev <;> rfl
  | cons c s =>
    have hc := h c rfl
    rw [specKana_iff] at hc
    have h1 : keeps c = false := by rw [Bool.eq_false_iff, Ne, keeps_iff]; omega
    have h2 : isDash c = false := by rw [Bool.eq_false_iff, Ne, isDash_iff]; omega
    have h3 : is_char_katakana c = false := by rw [Bool.eq_false_iff, Ne, is_char_katakana_iff]; omega
    rw [k2hP_cons, k2hP_cons]
    simp [h1, h2, h3]

/-- `katakana_to_hiragana` works on the runs separately -/
theorem k2hP_runs (std : Std) (dest : Bool) (ts : List (Bool × Str))
    (hr : ∀ x ∈ ts, x.2 ≠ [] ∧ ∀ c ∈ x.2, (Spec.Kana c ↔ x.1 = true)) (ha : Spec.Alternating ts) :
    k2hP std dest none (ts.flatMap (·.2)) = ts.flatMap fun x => if x.1 then k2hP std dest none x.2 else x.2 := by
  induction ts with
  | nil => rfl
  | cons x ts ih =>
    have ih := ih (fun y hy => hr y (List.mem_cons_of_mem _ hy)) (alternating_tail ha)
    rw [List.flatMap_cons, List.flatMap_cons, ← ih, k2hP_append]
    obtain ⟨h1, h2⟩ := hr x List.mem_cons_self
    cases hx : x.1 with
    | true =>
      rw [if_pos rfl]
      congr 1
      apply k2hP_prev_nonkana
      intro c hc hk
      cases ts with
      | nil => simp at hc
      | cons y ts =>
        have hy : y.1 = false := by
          have := ha.1
          rw [hx] at this
          cases h : y.1 with
          | false => rfl
          | true => rw [h] at this; exact absurd rfl this
        obtain ⟨h3, h4⟩ := hr y (List.mem_cons_of_mem _ List.mem_cons_self)
        have : c ∈ y.2 := by
          rw [List.flatMap_cons] at hc
          cases hy2 : y.2 with
          | nil => exact absurd hy2 h3
          | cons d l => rw [hy2] at hc; simp at hc; simp [hc]
        have := (h4 c this).1 hk
        rw [hy] at this; cases this
    | false =>
      have hn : ∀ c ∈ x.2, ¬ Spec.Kana c := by
        intro c hc hk
        have := (h2 c hc).1 hk
        rw [hx] at this; cases this
      rw [if_neg (by simp), k2hPrev_nonkana _ hn, k2hP_no_katakana std dest hn]

theorem alternating_map {f : Bool × Str → Bool × Str} (hf : ∀ x, (f x).1 = x.1) (ts : List (Bool × Str))
    (h : Spec.Alternating ts) : Spec.Alternating (ts.map f) := by
  induction ts with
  | nil => trivial
  | cons x ts ih =>
    cases ts with
    | nil => trivial
    | cons y ts =>
      refine ⟨?_, ih h.2⟩
      rw [hf, hf]; exact h.1

theorem lower_kana {std : Std} (hstd : std.Lawful) (s : Str) (h : ∀ c ∈ s, Spec.Kana c) :
    s.flatMap std.lowerChar = s := by
  induction s with
  | nil => rfl
  | cons c s ih =>
    rw [List.flatMap_cons, ih fun d hd => h d (List.mem_cons_of_mem _ hd),
      hstd.lowerChar_uncased c (kana_uncased (h c List.mem_cons_self))]
    rfl

theorem k2hP_allKana {std : Std} (hstd : std.Lawful) (dest : Bool) (s : Str) (h : ∀ c ∈ s, Spec.Kana c) :
    ∀ c ∈ k2hP std dest none s, Spec.Kana c := by
  intro c hc
  obtain ⟨ps, h1, h2, h3⟩ := k2hP_pieces hstd dest s prevOk_none
  rw [h2] at hc
  obtain ⟨p, hp, hcp⟩ := List.mem_flatMap.1 hc
  rcases h3 p hp with e | ⟨_, _, e⟩
  · rw [e] at hcp
    simp at hcp
    subst hcp
    exact h _ (by rw [h1]; exact List.mem_map_of_mem hp)
  · exact Or.inl (e c hcp)

/-- converting the runs of a text one by one -/
theorem kana_lower_runs {std : Std} (hstd : std.Lawful) (m : Mode) (g : Str → Str) (ts : List (Bool × Str)) (s : Str)
    (h : Spec.KanaRuns ts s) (hs : 'Σ' ∉ s)
    (hg : ∀ t : Str, t ≠ [] → (∀ c ∈ t, Spec.Kana c) → g t ≠ [] ∧ ∀ c ∈ g t, Spec.Kana c) :
    kana m (std.toLowercase (ts.flatMap fun x => if x.1 then g x.2 else x.2))
      = ts.flatMap fun x => if x.1 then g x.2 else kana m (std.toLowercase x.2) := by
  have hk : ∀ x ∈ ts, x.1 = true → x.2 ≠ [] ∧ ∀ c ∈ x.2, Spec.Kana c := fun x hx hb =>
    ⟨(h.runs x hx).1, fun c hc => ((h.runs x hx).2 c hc).2 hb⟩
  have hsig : ∀ x ∈ ts, 'Σ' ∉ x.2 := by
    intro x hx hm
    apply hs
    rw [← h.text]
    exact List.mem_flatMap.2 ⟨x, hx, hm⟩
  have hnk : ¬ Spec.Kana 'Σ' := by decide
  have e1 : std.toLowercase (ts.flatMap fun x => if x.1 then g x.2 else x.2)
      = (ts.map fun x => (x.1, if x.1 then g x.2 else std.toLowercase x.2)).flatMap (·.2) := by
    unfold Std.toLowercase
    rw [lower_noSigma]
    · rw [List.flatMap_assoc, List.flatMap_map]
      apply flatMap_congr_left
      intro x hx
      cases hb : x.1 with
      | true =>
        obtain ⟨h1, h2⟩ := hk x hx hb
        simp only [if_true]
        exact lower_kana hstd _ (hg _ h1 h2).2
      | false =>
        simp only [Bool.false_eq_true, if_false]
        rw [lower_noSigma std _ (hsig x hx)]
    · intro hm
      obtain ⟨x, hx, hm⟩ := List.mem_flatMap.1 hm
      cases hb : x.1 with
      | true =>
        rw [hb] at hm
        obtain ⟨h1, h2⟩ := hk x hx hb
        exact hnk ((hg _ h1 h2).2 _ hm)
      | false => rw [hb] at hm; exact hsig x hx hm
  rw [e1, kana_runs]
  · rw [List.flatMap_map]
    apply flatMap_congr_left
    intro x hx
    cases hb : x.1 <;> rfl
  · intro y hy hb
    obtain ⟨x, hx, rfl⟩ := List.mem_map.1 hy
    simp only at hb
    obtain ⟨h1, h2⟩ := hk x hx hb
    simp only [hb, if_true]
    exact hg _ h1 h2
  · exact alternating_map (by intro x; rfl) ts h.alternating

/-- **C60** `to_hiragana` on text with kana and romaji: the kana runs are converted by
`katakana_to_hiragana`, the others are lower-cased and converted by `to_kana`, independently of each
other.  (No Σ, whose lowercase form depends on the surrounding text.) -/
theorem C60_hiragana {std : Std} (hstd : std.Lawful) (s : Str) (o : Options) (ts : List (Bool × Str))
    (conv : Bool × Str → Str) (ho : o.pass_romaji = false) (hm : is_mixed s = true) (hs : 'Σ' ∉ s)
    (hr : Spec.KanaRuns ts s)
    (hk : ∀ x ∈ ts, x.1 = true → katakana_to_hiragana std x.2 = .ok (conv x))
    (hn : ∀ x ∈ ts, x.1 = false → to_kana_with_opt std (std.toLowercase x.2) o = .ok (conv x)) :
    to_hiragana_with_opt std s o = .ok (ts.flatMap conv) := by
  rw [to_hiragana_eq hstd]
  unfold hiraP
  rw [if_neg (by simp [ho]), if_pos hm]
  congr 1
  have e := k2hP_runs std false ts hr.runs hr.alternating
  rw [hr.text] at e
  rw [e, kana_lower_runs hstd _ _ ts s hr hs]
  · apply flatMap_congr_left
    intro x hx
    cases hb : x.1 with
    | true =>
      have := hk x hx hb
      rw [k2h_pure hstd] at this
      rw [if_pos rfl]; exact Except.ok.inj this
    | false =>
      have := hn x hx hb
      rw [to_kana_eq hstd] at this
      rw [if_neg (by simp)]; exact Except.ok.inj this
  · intro t h0 hk
    refine ⟨?_, k2hP_allKana hstd false t hk⟩
    cases t with
    | nil => exact absurd rfl h0
    | cons c t =>
      obtain ⟨d, l, e, _⟩ := k2hP_head std false c t
      rw [e]; simp

/-- **C60** `to_katakana` on text with kana and romaji, likewise -/
theorem C60_katakana {std : Std} (hstd : std.Lawful) (s : Str) (o : Options) (ts : List (Bool × Str))
    (conv : Bool × Str → Str) (ho : o.pass_romaji = false) (hm : is_mixed s = true) (hs : 'Σ' ∉ s)
    (hr : Spec.KanaRuns ts s)
    (hk : ∀ x ∈ ts, x.1 = true → hiragana_to_katakana x.2 = .ok (conv x))
    (hn : ∀ x ∈ ts, x.1 = false →
      (to_kana_with_opt std (std.toLowercase x.2) o >>= hiragana_to_katakana) = .ok (conv x)) :
    to_katakana_with_opt std s o = .ok (ts.flatMap conv) := by
  rw [to_katakana_eq hstd]
  unfold kataP
  rw [if_neg (by simp [ho]), if_pos (by simp [hm])]
  congr 1
  have e := kana_lower_runs hstd (modeOf o) id ts s hr hs (fun t h0 hk => ⟨h0, hk⟩)
  have e0 : (ts.flatMap fun x => if x.1 then id x.2 else x.2) = s := by
    rw [← hr.text]
    apply flatMap_congr_left
    intro x _
    cases x.1 <;> rfl
  rw [e0] at e
  rw [e, List.map_flatMap]
  apply flatMap_congr_left
  intro x hx
  cases hb : x.1 with
  | true =>
    have := hk x hx hb
    rw [hiragana_to_katakana_eq] at this
    exact Except.ok.inj this
  | false =>
    have := hn x hx hb
    rw [to_kana_eq hstd, ok_bind, hiragana_to_katakana_eq] at this
    exact Except.ok.inj this

/-- a text meeting the hypotheses, with its runs -/
example : is_mixed "Tabe ラーメンtou".toList = true ∧ 'Σ' ∉ "Tabe ラーメンtou".toList ∧
    Spec.KanaRuns [(false, "Tabe ".toList), (true, "ラーメン".toList), (false, "tou".toList)] "Tabe ラーメンtou".toList ∧
    katakana_to_hiragana modernStd "ラーメン".toList = .ok "らあめん".toList ∧
    to_kana_with_opt modernStd (modernStd.toLowercase "Tabe ".toList) {} = .ok "たべ ".toList := by
  refine ⟨by decide +kernel, by decide +kernel, ⟨by decide +kernel, by simp [Spec.Alternating], by decide +kernel⟩, by decide +kernel,
    by decide +kernel⟩

end WanaKana
