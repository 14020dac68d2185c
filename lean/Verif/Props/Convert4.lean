import Verif.Props.Convert3
/-! # C67 for every text: `to_hiragana` applied twice -/

namespace WanaKana
open KNode

/-- a full width character gives full width characters -/
theorem k2hP_step {std : Std} (hstd : std.Lawful) {prev : Option Char} (hok : PrevOk prev) {c : Char}
    (hc : 0x2100 ≤ c.toNat) (s : Str) : ∃ x prev', k2hP std false prev (c :: s) = x ++ k2hP std false prev' s ∧
      PrevOk prev' ∧ ∀ d ∈ x, 0x2100 ≤ d.toNat := by
  have hcons := k2hP_cons std false prev c s
  by_cases hk : keeps c = true
  · rw [if_pos hk] at hcons
    exact ⟨[c], prev, hcons, hok, by simpa using hc⟩
  · rw [if_neg hk] at hcons
    by_cases hd : isDash c = true
    · rw [if_pos hd] at hcons
      cases prev with
      | none => exact ⟨[c], none, hcons, hok, by simpa using hc⟩
      | some p =>
        refine ⟨_, some p, hcons, hok, ?_⟩
        intro d hd
        have := longOut_mem hstd (hok p rfl).1 (hok p rfl).2 false c d hd
        simp only [List.mem_cons, List.not_mem_nil, or_false] at this
        rcases this with rfl | rfl | rfl | rfl | rfl <;> decide
    · rw [if_neg hd] at hcons
      by_cases ha : is_char_katakana c = true
      · rw [if_pos ha] at hcons
        have hp := k2hChar_prevOk (by simpa using hk) (by simpa using hd) ha
        refine ⟨[_], _, hcons, hp, ?_⟩
        have := hp _ rfl
        intro d hd; simp at hd; subst hd; omega
      · rw [if_neg ha] at hcons
        exact ⟨[c], none, hcons, prevOk_none, by simpa using hc⟩

/-- what follows other text: one full width character, small tsu for small tsu -/
theorem k2hP_first (std : Std) {c : Char} (hc : 0x2100 ≤ c.toNat) (s : Str) :
    ∃ d prev, k2hP std false none (c :: s) = d :: k2hP std false prev s ∧ PrevOk prev ∧ 0x2100 ≤ d.toNat ∧
      ((d = 'っ' ∨ d = 'ッ') ↔ (c = 'っ' ∨ c = 'ッ')) := by
  have hcons := k2hP_cons std false none c s
  by_cases hk : keeps c = true
  · rw [if_pos hk] at hcons
    exact ⟨c, none, hcons, prevOk_none, hc, Iff.rfl⟩
  · rw [if_neg hk] at hcons
    by_cases hd : isDash c = true
    · rw [if_pos hd] at hcons
      exact ⟨c, none, hcons, prevOk_none, hc, Iff.rfl⟩
    · rw [if_neg hd] at hcons
      by_cases ha : is_char_katakana c = true
      · rw [if_pos ha] at hcons
        have hp := k2hChar_prevOk (by simpa using hk) (by simpa using hd) ha
        have h1 := hp _ rfl
        refine ⟨_, _, hcons, hp, by omega, ?_⟩
        rw [is_char_katakana_iff] at ha
        have hkk := mt keeps_iff.2 hk
        have hdd := mt isDash_iff.2 hd
        have h2 : 0x30A1 ≤ c.toNat ∧ c.toNat ≤ 0x30FC := by omega
        have h3 := k2hChar_toNat h2.1 h2.2
        simp only [char_eq_iff, Char.reduceToNat]
        repeat' split at h3
        all_goals omega
      · rw [if_neg ha] at hcons
        exact ⟨c, none, hcons, prevOk_none, hc, Iff.rfl⟩

theorem k2hP_low (std : Std) (a b : Str) (h : ∀ c ∈ a, c.toNat < 0x2100) : ∀ prev, a ≠ [] →
    k2hP std false prev (a ++ b) = a ++ k2hP std false none b := by
  induction a with
  | nil => intro _ h; exact absurd rfl h
  | cons c a ih =>
    intro prev _
    have hc := h c (by simp)
    have hcons := k2hP_cons std false prev c (a ++ b)
    rw [if_neg (by rw [keeps_iff]; omega), if_neg (by rw [isDash_iff]; omega),
      if_neg (by rw [is_char_katakana_iff]; omega)] at hcons
    rw [List.cons_append, hcons]
    by_cases ha : a = []
    · subst ha; rfl
    · rw [ih (fun d hd => h d (by simp [hd])) none ha]; rfl

/-- `settleN` in front of a full width character -/
theorem settleN_cut (a : Str) (d : Char) : ∃ X : Str, X.length = a.length ∧ ∀ d', 0x2100 ≤ d'.toNat →
    ((d' = 'っ' ∨ d' = 'ッ') ↔ (d = 'っ' ∨ d = 'ッ')) → ∀ b, Spec.settleN (a ++ d' :: b) = X ++ d' :: Spec.settleN b := by
  induction a with
  | nil =>
    refine ⟨[], rfl, fun d' hd' _ b => ?_⟩
    exact settleN_append_ge (a := [d']) (by simpa using hd') b
  | cons c a ih =>
    obtain ⟨X, hX, h⟩ := ih
    cases a with
    | nil =>
      refine ⟨(if d = 'っ' ∨ d = 'ッ' then Spec.nKana c else c) :: X, by simp [hX], fun d' hd' ht b => ?_⟩
      have := h d' hd' ht b
      show (if d' = 'っ' ∨ d' = 'ッ' then Spec.nKana c else c) :: Spec.settleN (d' :: b) = _
      rw [show d' :: b = [] ++ d' :: b from rfl, this]
      simp only [ht]
      rfl
    | cons e a =>
      refine ⟨(if e = 'っ' ∨ e = 'ッ' then Spec.nKana c else c) :: X, by simp [hX], fun d' hd' ht b => ?_⟩
      have := h d' hd' ht b
      show (if e = 'っ' ∨ e = 'ッ' then Spec.nKana c else c) :: Spec.settleN ((e :: a) ++ d' :: b) = _
      rw [this]; rfl

theorem settleN_length (s : Str) : (Spec.settleN s).length = s.length := by
  induction s with
  | nil => rfl
  | cons c s ih =>
    cases s with
    | nil => rfl
    | cons d s =>
      show (_ :: Spec.settleN (d :: s)).length = _
      rw [List.length_cons, ih]; rfl

/-- where converting only settles `n`, it still does after the kana shift -/
theorem kana_k2h {std : Std} (hstd : std.Lawful) {m : Mode} (r : Str) : ∀ prev, PrevOk prev →
    kana m r = Spec.settleN r → kana m (k2hP std false prev r) = Spec.settleN (k2hP std false prev r) := by
  induction r using list_strong with
  | _ r ih =>
    intro prev hok h
    cases r with
    | nil => rw [show k2hP std false prev [] = [] by cases prev <;> rfl]; exact h
    | cons c r =>
      by_cases hc : 0x2100 ≤ c.toNat
      · obtain ⟨x, prev', h1, h2, h3⟩ := k2hP_step hstd hok hc r
        have e1 := kana_of_ge (m := m) (s := [c]) (by simpa using hc) r
        have e2 := settleN_append_ge (a := [c]) (by simpa using hc) r
        simp only [List.singleton_append] at e1 e2
        rw [e1, e2, List.cons.injEq] at h
        rw [h1, kana_of_ge h3, settleN_append_ge h3, ih r (by simp) prev' h2 h.2]
      · obtain ⟨a, rest, hr, ha, hrest⟩ : ∃ a rest, c :: r = a ++ rest ∧ (∀ x ∈ a, x.toNat < 0x2100) ∧
            ∀ d, rest.head? = some d → 0x2100 ≤ d.toNat := by
          refine ⟨(c :: r).takeWhile (fun x => decide (x.toNat < 0x2100)),
            (c :: r).dropWhile (fun x => decide (x.toNat < 0x2100)), List.takeWhile_append_dropWhile.symm, ?_, ?_⟩
          · intro x hx
            have := List.all_eq_true.1 (List.all_takeWhile (p := fun x : Char => decide (x.toNat < 0x2100)) (l := c :: r)) x hx
            simpa using this
          · intro d hd
            have := List.head?_dropWhile_not (fun x : Char => decide (x.toNat < 0x2100)) (c :: r)
            rw [hd] at this
            simpa using this
        have hane : a ≠ [] := by
          rintro rfl
          simp only [List.nil_append] at hr
          subst hr
          exact hc (hrest c rfl)
        rw [hr] at h ih ⊢
        rw [k2hP_low std a rest ha prev hane]
        cases rest with
        | nil => simpa [k2hP] using h
        | cons d b =>
          have hd := hrest d rfl
          obtain ⟨X, hX, hset⟩ := settleN_cut a d
          have cut : ∀ (x : Char) (hx : 0x2100 ≤ x.toNat) (t : Str), kana m (a ++ x :: t) = kana m a ++ x :: kana m t := by
            intro x hx t
            rw [kana_append _ _ (cut_of_inert (inert_of_ge hx))]
            have := kana_of_ge (m := m) (s := [x]) (by simpa using hx) t
            simp only [List.singleton_append] at this
            rw [this]
          rw [cut d hd, hset d hd Iff.rfl] at h
          have l1 := kana_length m a
          have l2 := kana_length m b
          have l3 := congrArg List.length h
          simp only [List.length_append, List.length_cons, settleN_length] at l3
          have hl : (kana m a).length = X.length := by omega
          obtain ⟨g1, g2⟩ := List.append_inj h hl
          rw [List.cons.injEq] at g2
          obtain ⟨d', prev', f1, f2, f3, f4⟩ := k2hP_first std hd b
          rw [f1, cut d' f3, hset d' f3 f4, g1, ih b (by simp; omega) prev' f2 g2.2]

theorem hiraP_kana {std : Std} (hstd : std.Lawful) (t : Str) (o : Options) (hp : ¬ o.pass_romaji = true)
    (hmi : modeOf o ≠ .ime) :
    hiraP std (kana (modeOf o) (std.toLowercase t)) o
      = Spec.settleN (k2hP std false none (kana (modeOf o) (std.toLowercase t))) := by
  have hset : ∀ c ∈ kana (modeOf o) (std.toLowercase t), Settled std c :=
    kana_settled hstd _ _ (fun c hc => lower_settled hstd hc)
  have hfix := kana_kana hmi (std.toLowercase t)
  generalize kana (modeOf o) (std.toLowercase t) = r at hset hfix
  have hsub : ∀ c ∈ k2hP std false none r, ¬ Spec.Kana c → c ∈ r := by
    intro c hc hn
    have hf := filter_nonkana hstd false r prevOk_none
    have h1 : c ∈ (k2hP std false none r).filter (fun c => ¬ Spec.Kana c) := by simp [hn, hc]
    rw [hf] at h1
    exact (List.mem_filter.1 h1).1
  have hnok : (∀ c ∈ r, ¬ Spec.Kana c) → k2hP std false none r = r := by
    intro h
    have := C23_unchanged hstd r false (fun c hc hk => absurd (katakana_is_kana hk) (h c hc))
    rw [k2h_eq hstd] at this
    exact Except.ok.inj this
  by_cases hm : is_mixed r = true
  · have hs2 : ∀ c ∈ k2hP std false none r, Settled std c := by
      intro c hc
      by_cases hk : Spec.Kana c
      · apply settled_uncased hstd
        rw [specKana_iff] at hk
        unfold Uncased; omega
      · exact hset c (hsub c hc hk)
    unfold hiraP
    rw [if_neg hp, if_pos hm, toLowercase_id hs2, kana_k2h hstd r none prevOk_none hfix]
  · have hm' := hm
    rw [C04_is_mixed] at hm'
    replace hm' : (∀ c ∈ r, ¬ Spec.Kana c) ∨ ∀ c ∈ r, ¬ Spec.Romaji c := by
      by_cases hk : ∃ c ∈ r, Spec.Kana c
      · exact Or.inr fun c hc h => hm' ⟨hk, c, hc, h⟩
      · exact Or.inl fun c hc h => hk ⟨c, hc, h⟩
    have hrk : Spec.settleN (k2hP std false none r) = k2hP std false none r := by
      apply settleN_not_mixed
      rw [Bool.eq_false_iff, Ne, C04_is_mixed]
      rintro ⟨⟨k, hk, hkk⟩, c, hc, hcr⟩
      have hcn : ¬ Spec.Kana c := by
        rw [specKana_iff]; rw [specRomaji_iff] at hcr
        simp only [List.mem_cons, List.not_mem_nil, or_false] at hcr
        omega
      rcases hm' with h | h
      · rw [hnok h] at hk
        exact h k hk hkk
      · exact h c (hsub c hc hcn) hcr
    by_cases hr : (is_romaji r || ((r.head?).map is_char_english_punctuation).getD false) = true
    · have hno : ∀ c ∈ r, ¬ Spec.Kana c := by
        rcases hm' with h | h
        · exact h
        · exfalso
          rw [Bool.or_eq_true] at hr
          rcases hr with hr | hr
          · rw [C01_is_romaji] at hr
            obtain ⟨c, hc⟩ := List.exists_mem_of_ne_nil _ hr.1
            exact h c hc (hr.2 c hc)
          · rw [head_punct_iff'] at hr
            obtain ⟨c, hc, hcp⟩ := hr
            cases r with
            | nil => cases hc
            | cons d r =>
              simp at hc; subst hc
              have hcq : d ∈ ['‘', '’', '“', '”'] := by
                rcases hcp with g | g | g | g | g
                iterate 4
                  · exfalso
                    refine h d List.mem_cons_self ?_
                    rw [specRomaji_iff]
                    have := g.2
                    omega
                · exact g
              obtain ⟨x, t, hx, hge⟩ := kana_quote (modeOf o) hcq r
              rw [hfix, settleN_cons_of, List.cons.injEq] at hx
              · rw [← hx.1] at hge
                simp only [List.mem_cons, List.not_mem_nil, or_false] at hcq
                rcases hcq with rfl | rfl | rfl | rfl <;> exact absurd hge (by decide)
              · intro _ _ _
                simp only [List.mem_cons, List.not_mem_nil, or_false] at hcq
                rcases hcq with rfl | rfl | rfl | rfl <;> decide
      unfold hiraP
      rw [if_neg hp, if_neg hm, if_pos hr, toLowercase_id hset, hfix, hnok hno]
    · unfold hiraP
      rw [if_neg hp, if_neg hm, if_neg hr, hrk]

/-- **C67** outside IME mode and without `pass_romaji`, converting to hiragana a second time shifts what katakana is
left and turns each `n` directly before っ into ん. -/
theorem C67_hiragana {std : Std} (hstd : std.Lawful) (s r : Str) (o : Options) (hp : o.pass_romaji = false)
    (ho : o.use_obsolete_kana = true ∨ o.imemode = false)
    (h : to_hiragana_with_opt std s o = .ok r) :
    ∃ r', katakana_to_hiragana std r = .ok r' ∧ to_hiragana_with_opt std r o = .ok (Spec.settleN r') := by
  have hmi := modeOf_not_ime ho
  have hp' : ¬ o.pass_romaji = true := by rw [hp]; decide
  refine ⟨_, k2h_eq hstd r false, ?_⟩
  rw [to_hiragana_eq hstd] at h ⊢
  cases h
  congr 1
  by_cases hm : is_mixed s = true
  · have e : hiraP std s o = kana (modeOf o) (std.toLowercase (k2hP std false none s)) := by
      unfold hiraP; rw [if_neg hp', if_pos hm]
    rw [e]; exact hiraP_kana hstd _ o hp' hmi
  · by_cases hr : (is_romaji s || ((s.head?).map is_char_english_punctuation).getD false) = true
    · have e : hiraP std s o = kana (modeOf o) (std.toLowercase s) := by
        unfold hiraP; rw [if_neg hp', if_neg hm, if_pos hr]
      rw [e]; exact hiraP_kana hstd _ o hp' hmi
    · have e : hiraP std s o = k2hP std false none s := by
        unfold hiraP; rw [if_neg hp', if_neg hm, if_neg hr]
      have hid : k2hP std false none (hiraP std s o) = hiraP std s o := by
        have := C23_unchanged hstd (hiraP std s o) false (by rw [e]; exact few_k2h hstd s)
        rw [k2h_eq hstd] at this
        exact Except.ok.inj this
      obtain ⟨h1, h2⟩ := hiraP_shifted hstd hp' hm hr hid
      rw [h2, hid, settleN_not_mixed h1]

/-- no converted text starts with a curly quote -/
theorem kana_head_not_quote (m : Mode) (t : Str) {q : Char} (hq : q ∈ ['‘', '’', '“', '”']) (r : Str) :
    kana m t ≠ q :: r := by
  intro h
  obtain ⟨x, l, hx, hge⟩ := kana_quote m hq r
  have hqn : Spec.nKana q = q ∧ q.toNat < 0x2100 := by
    simp only [List.mem_cons, List.not_mem_nil, or_false] at hq
    rcases hq with rfl | rfl | rfl | rfl <;> decide
  by_cases hm : m = .ime
  · have := kana_idem m t (Or.inl hm)
    rw [h, hx, List.cons.injEq] at this
    rw [this.1] at hge; omega
  · have := kana_kana hm t
    rw [h, hx, settleN_cons_of (fun _ _ _ => hqn.1), List.cons.injEq] at this
    rw [this.1] at hge; omega

/-- what `to_hiragana` makes: converted text, or text without romaji next to kana -/
theorem hiraP_cases {std : Std} (hstd : std.Lawful) (s : Str) {o : Options} (hp : ¬ o.pass_romaji = true) :
    (∃ t, hiraP std s o = kana (modeOf o) (std.toLowercase t)) ∨
      (FewKatakana (hiraP std s o) ∧ is_mixed (hiraP std s o) = false) := by
  by_cases hm : is_mixed s = true
  · exact Or.inl ⟨_, by unfold hiraP; rw [if_neg hp, if_pos hm]⟩
  · by_cases hr : (is_romaji s || ((s.head?).map is_char_english_punctuation).getD false) = true
    · exact Or.inl ⟨_, by unfold hiraP; rw [if_neg hp, if_neg hm, if_pos hr]⟩
    · have e : hiraP std s o = k2hP std false none s := by
        unfold hiraP; rw [if_neg hp, if_neg hm, if_neg hr]
      have hf : FewKatakana (hiraP std s o) := by rw [e]; exact few_k2h hstd s
      have hid : k2hP std false none (hiraP std s o) = hiraP std s o := by
        have := C23_unchanged hstd (hiraP std s o) false hf
        rw [k2h_eq hstd] at this
        exact Except.ok.inj this
      exact Or.inr ⟨hf, (hiraP_shifted hstd hp hm hr hid).1⟩

/-- **C67** a second conversion to hiragana changes nothing exactly if the first result has no katakana other than
ー ・ ヵ ヶ and no `n` directly before っ (which matters only outside IME mode and without `pass_romaji`). -/
theorem C67_hiragana_stable {std : Std} (hstd : std.Lawful) {s r : Str} {o : Options}
    (h : to_hiragana_with_opt std s o = .ok r) :
    to_hiragana_with_opt std r o = .ok r ↔
      (∀ c ∈ r, Spec.Katakana c → c ∈ ['ー', '・', 'ヵ', 'ヶ']) ∧
      (o.pass_romaji = true ∨ (o.imemode = true ∧ o.use_obsolete_kana = false) ∨ ¬ ['n', 'っ'] <:+: r) := by
  have hfew := C43_exact hstd s r o h
  have stay : to_hiragana_with_opt std r o = .ok r → ∀ c ∈ r, Spec.Katakana c → c ∈ ['ー', '・', 'ヵ', 'ヶ'] := by
    intro h2
    by_cases hp : o.pass_romaji = true
    · exact hfew.2 (Or.inl hp)
    · rw [to_hiragana_eq hstd] at h
      cases h
      refine (C43_exact hstd _ _ o h2).2 ?_
      rcases hiraP_cases hstd s hp with ⟨t, ht⟩ | ⟨hf, _⟩
      · by_cases hr : ∃ c ∈ hiraP std s o, Spec.Romaji c
        · exact Or.inr (Or.inl hr)
        · refine Or.inr (Or.inr (Or.inl ?_))
          intro c hc hcp
          obtain ⟨l, hl⟩ : ∃ l, hiraP std s o = c :: l := by
            cases hh : hiraP std s o with
            | nil => rw [hh] at hc; cases hc
            | cons d l => rw [hh] at hc; simp at hc; subst hc; exact ⟨l, rfl⟩
          rcases hcp with g | g | g | g | g
          iterate 4
            · refine hr ⟨c, by rw [hl]; simp, ?_⟩
              rw [specRomaji_iff]
              have := g.2
              omega
          · rw [ht] at hl
            exact kana_head_not_quote _ _ g _ hl
      · exact Or.inr (Or.inr (Or.inr hf))
  by_cases hpi : o.pass_romaji = true ∨ (o.imemode = true ∧ o.use_obsolete_kana = false)
  · have hpi' : o.pass_romaji = true ∨ (o.imemode = true ∧ o.use_obsolete_kana = false) ∨ ¬ ['n', 'っ'] <:+: r := by
      rcases hpi with h | h
      · exact Or.inl h
      · exact Or.inr (Or.inl h)
    refine ⟨fun h2 => ⟨stay h2, hpi'⟩, fun h2 => ?_⟩
    refine C44_hiragana_partial hstd s r o ?_ (hfew.1 h2.1) h
    rcases hpi with h | h
    · exact Or.inl h
    · exact Or.inr (Or.inl h)
  · rw [not_or] at hpi
    obtain ⟨hp, ho⟩ := hpi
    have hp' : o.pass_romaji = false := by simpa using hp
    have ho' : o.use_obsolete_kana = true ∨ o.imemode = false := by
      cases h1 : o.use_obsolete_kana <;> cases h2 : o.imemode <;> simp_all
    obtain ⟨r', h1, h2⟩ := C67_hiragana hstd s r o hp' ho' h
    have key : (∀ c ∈ r, Spec.Katakana c → c ∈ ['ー', '・', 'ヵ', 'ヶ']) → r' = r := by
      intro hf
      have := C23_unchanged hstd r false hf
      rw [k2h_pure hstd] at h1
      rw [k2h_eq hstd] at this
      rw [this] at h1
      exact (Except.ok.inj h1).symm
    have hset : (∀ c ∈ r, Spec.Katakana c → c ∈ ['ー', '・', 'ヵ', 'ヶ']) →
        (Spec.settleN r = r ↔ ¬ ['n', 'っ'] <:+: r) := by
      intro hf
      rw [settleN_eq_iff]
      refine ⟨fun g => g 'n' (by simp) 'っ' (by simp), fun g n hn t ht hi => ?_⟩
      have hsub := hi.subset
      simp only [List.mem_cons, List.not_mem_nil, or_false] at hn ht
      have htt : t = 'っ' := by
        rcases ht with rfl | rfl
        · rfl
        · exact absurd (hf 'ッ' (hsub (by simp)) (by decide)) (by decide)
      subst htt
      rcases hn with rfl | rfl
      · exact g hi
      · rw [to_hiragana_eq hstd] at h
        cases h
        rcases hiraP_cases hstd s hp with ⟨t, ht⟩ | ⟨_, hm⟩
        · have hN : 'N' ∈ hiraP std s o := hsub (by simp)
          rw [ht] at hN
          exact settled_not_upper hstd (kana_settled hstd _ _ (fun c hc => lower_settled hstd hc) 'N' hN) (by decide)
        · rw [Bool.eq_false_iff, Ne, C04_is_mixed] at hm
          exact hm ⟨⟨'っ', hsub (by simp), by decide⟩, 'N', hsub (by simp), by decide⟩
    simp only [hp, ho, false_or, Bool.false_eq_true]
    constructor
    · intro h3
      have hf := stay h3
      rw [h2, key hf, Except.ok.injEq] at h3
      exact ⟨hf, (hset hf).1 h3⟩
    · rintro ⟨hf, hn⟩
      rw [h2, key hf, (hset hf).2 hn]

example : to_hiragana_with_opt modernStd "カnyya".toList {} = .ok "かnっや".toList ∧
    to_hiragana_with_opt modernStd "かnっや".toList {} = .ok "かんっや".toList := by decide +kernel
example : to_hiragana_with_opt modernStd "‘カー".toList {} = .ok "「カー".toList ∧
    katakana_to_hiragana modernStd "「カー".toList = .ok "「かあ".toList ∧
    to_hiragana_with_opt modernStd "「カー".toList {} = .ok "「かあ".toList := by decide +kernel

end WanaKana
