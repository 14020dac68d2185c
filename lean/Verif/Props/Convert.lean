import Verif.Proofs.Lower
import Verif.Proofs.StdConcrete
import Verif.Props.Predicates
import Verif.Props.ToKana2
import Verif.Props.KanaShift
/-! # C38–C44: `to_hiragana` and `to_katakana` -/

namespace WanaKana

theorem k2h_pure {std : Std} (hstd : std.Lawful) (s : Str) :
    katakana_to_hiragana std s = .ok (k2hP std false none s) := k2h_eq hstd s false

theorem r2h_pure {std : Std} (hstd : std.Lawful) (s : Str) (o : Options) :
    romaji_to_hiragana std s o = .ok (kana (modeOf o) (std.toLowercase s)) := to_kana_eq hstd _ o

/-- the result of `to_hiragana` -/
def hiraP (std : Std) (s : Str) (o : Options) : Str :=
  if o.pass_romaji then k2hP std false none s
  else if is_mixed s then kana (modeOf o) (std.toLowercase (k2hP std false none s))
  else if is_romaji s || ((s.head?).map is_char_english_punctuation).getD false then
    kana (modeOf o) (std.toLowercase s)
  else k2hP std false none s

theorem to_hiragana_eq {std : Std} (hstd : std.Lawful) (s : Str) (o : Options) :
    to_hiragana_with_opt std s o = .ok (hiraP std s o) := by
  unfold to_hiragana_with_opt hiraP
  simp only [k2h_pure hstd, r2h_pure hstd, ok_bind]
  repeat' split
  all_goals rfl

/-- the result of `to_katakana` -/
def kataP (std : Std) (s : Str) (o : Options) : Str :=
  if o.pass_romaji then s.map h2kP
  else if is_romaji s || is_mixed s then (kana (modeOf o) (std.toLowercase s)).map h2kP
  else s.map h2kP

theorem to_katakana_eq {std : Std} (hstd : std.Lawful) (s : Str) (o : Options) :
    to_katakana_with_opt std s o = .ok (kataP std s o) := by
  unfold to_katakana_with_opt kataP
  simp only [hiragana_to_katakana_eq, r2h_pure hstd, ok_bind]
  repeat' split
  all_goals rfl

/-! ## C38 -/

/-- **C38** neither function panics or runs forever -/
theorem C38_total {std : Std} (hstd : std.Lawful) (s : Str) (o : Options) :
    (∃ r, to_hiragana_with_opt std s o = .ok r) ∧ (∃ r, to_katakana_with_opt std s o = .ok r) :=
  ⟨⟨_, to_hiragana_eq hstd s o⟩, ⟨_, to_katakana_eq hstd s o⟩⟩

example : modernStd.Lawful ∧ to_hiragana_with_opt modernStd "ABCDカtō'ﾊ😀".toList {} = .ok "あbcdかtō'ﾊ😀".toList :=
  ⟨modernStd_lawful, by decide +kernel⟩

/-! ## C39 -/

theorem kana_not_mixed {s : Str} (h : is_kana s = true) : is_mixed s = false := by
  cases hm : is_mixed s with
  | false => rfl
  | true => have := (C04_exclusive s true hm).2.2.1; rw [h] at this; cases this

theorem kana_not_romaji {s : Str} (h : is_kana s = true) : is_romaji s = false := by
  cases hm : is_romaji s with
  | false => rfl
  | true => exact absurd ⟨C03_sub_strings s (Or.inl h), hm⟩ (C03_disjoint_strings s)

/-- **C39** kana-only text: only the kana shift is applied, whatever the options -/
theorem C39_kana (std : Std) (s : Str) (o : Options) (h : is_kana s = true) :
    to_hiragana_with_opt std s o = katakana_to_hiragana std s ∧
      to_katakana_with_opt std s o = hiragana_to_katakana s := by
  have h1 := kana_not_mixed h
  have h2 := kana_not_romaji h
  have h3 : ((s.head?).map is_char_english_punctuation).getD false = false := by
    cases s with
    | nil => rfl
    | cons c s =>
      have hk := ((C01_is_kana _).1 h).2 c List.mem_cons_self
      rw [specKana_iff] at hk
      simp only [List.head?_cons, Option.map_some, Option.getD_some]
      rw [Bool.eq_false_iff, Ne, is_char_english_punctuation_iff]
      simp only [Spec.EnglishPunct, Spec.In, List.mem_cons, List.not_mem_nil, or_false, char_eq_iff, Char.reduceToNat]
      omega
  constructor
  · unfold to_hiragana_with_opt
    simp [h1, h2, h3]
  · unfold to_katakana_with_opt
    simp [h1, h2]

example : is_kana "カタかなー・".toList = true := by decide

/-! ## C40 -/

theorem romaji_not_kana {s : Str} (h : is_romaji s = true) : ∀ c ∈ s, ¬ Spec.Kana c := by
  intro c hc hk
  have := ((C01_is_romaji s).1 h).2 c hc
  rw [specRomaji_iff] at this
  rw [specKana_iff] at hk
  simp only [List.mem_cons, List.not_mem_nil, or_false] at this
  omega

theorem romaji_not_mixed {s : Str} (h : is_romaji s = true) : is_mixed s = false := by
  cases hm : is_mixed s with
  | false => rfl
  | true => have := (C04_exclusive s true hm).1; rw [h] at this; cases this

theorem k2hP_no_katakana (std : Std) (dest : Bool) {s : Str} (h : ∀ c ∈ s, ¬ Spec.Kana c) :
    k2hP std dest none s = s := by
  apply k2hP_id
  intro d hd
  right; right
  rw [Bool.eq_false_iff, Ne, is_char_katakana_iff]
  have := h d hd
  rw [specKana_iff] at this
  omega

/-- **C40** on romaji `to_katakana` is `to_hiragana` followed by the katakana shift -/
theorem C40_compose {std : Std} (hstd : std.Lawful) (s : Str) (o : Options) (h : is_romaji s = true) :
    to_katakana_with_opt std s o = (to_hiragana_with_opt std s o >>= hiragana_to_katakana) := by
  rw [to_katakana_eq hstd, to_hiragana_eq hstd, ok_bind, hiragana_to_katakana_eq]
  congr 1
  unfold kataP hiraP
  have h1 := romaji_not_mixed h
  by_cases hp : o.pass_romaji = true
  · simp only [hp, if_true]
    rw [k2hP_no_katakana std false (romaji_not_kana h)]
  · simp [hp, h1, h]

/-- lowercase of a romaji character -/
def romajiLower (c : Char) : Char := if isMacron c then Char.ofNat (c.toNat ||| 1) else toAsciiLowercase c

theorem toLowercase_romaji {std : Std} (hstd : std.Lawful) (s : Str) (h : ∀ c ∈ s, Spec.Romaji c) :
    ∀ pre, std.lowerFrom pre s = s.map romajiLower := by
  induction s with
  | nil => intro pre; rfl
  | cons c s ih =>
    intro pre
    have hc := h c List.mem_cons_self
    rw [specRomaji_iff] at hc
    have hne : c ≠ 'Σ' := by
      rintro rfl
      simp only [List.mem_cons, List.not_mem_nil, or_false, Char.reduceToNat] at hc
      omega
    rw [Std.lowerFrom, if_neg hne, ih fun d hd => h d (List.mem_cons_of_mem _ hd)]
    have : std.lowerChar c = [romajiLower c] := by
      unfold romajiLower
      by_cases hm : isMacron c = true
      · rw [if_pos hm]
        rw [isMacron, List.contains_iff_mem] at hm
        exact hstd.lowerChar_macron c hm
      · rw [if_neg hm]
        rw [isMacron, List.contains_iff_mem] at hm
        apply hstd.lowerChar_ascii
        simp only [List.mem_cons, List.not_mem_nil, or_false] at hc hm
        omega
    rw [this]
    rfl

theorem romajiLower_ascii {c c' : Char} (h : Spec.asciiLower c = Spec.asciiLower c') :
    romajiLower c = romajiLower c' ∧ (Spec.Romaji c → Spec.Romaji c') := by
  rw [asciiLower_eq] at h
  have hn := congrArg Char.toNat h
  rw [toAsciiLowercase_toNat, toAsciiLowercase_toNat] at hn
  have hcase : c = c' ∨ (c.toNat < 128 ∧ c'.toNat < 128) := by
    by_cases e : c.toNat = c'.toNat
    · exact Or.inl (char_ext e)
    · right; split at hn <;> split at hn <;> omega
  rcases hcase with rfl | ⟨h1, h2⟩
  · exact ⟨rfl, id⟩
  · have m : ∀ c : Char, c.toNat < 128 → isMacron c = false := by
      intro c hc
      cases hm : isMacron c with
      | false => rfl
      | true => have := isMacron_range hm; omega
    refine ⟨?_, fun _ => specRomaji_iff.2 (Or.inl h2)⟩
    unfold romajiLower
    rw [m c h1, m c' h2]
    simpa using h

/-- **C40** on romaji, the case of ASCII letters does not matter -/
theorem C40_case {std : Std} (hstd : std.Lawful) (s s' : Str) (o : Options) (h : is_romaji s = true)
    (ho : o.pass_romaji = false) (hs : s.map Spec.asciiLower = s'.map Spec.asciiLower) :
    to_hiragana_with_opt std s o = to_hiragana_with_opt std s' o ∧
      to_katakana_with_opt std s o = to_katakana_with_opt std s' o := by
  have key : ∀ s s' : Str, s.map Spec.asciiLower = s'.map Spec.asciiLower →
      s.map romajiLower = s'.map romajiLower ∧ ((∀ c ∈ s, Spec.Romaji c) → ∀ c ∈ s', Spec.Romaji c) := by
    intro s
    induction s with
    | nil => intro s' h; cases s' <;> simp_all
    | cons c s ih =>
      intro s' h
      cases s' with
      | nil => cases h
      | cons c' s' =>
        simp only [List.map_cons, List.cons.injEq] at h
        obtain ⟨h1, h2⟩ := h
        obtain ⟨a, b⟩ := ih s' h2
        obtain ⟨a', b'⟩ := romajiLower_ascii h1
        refine ⟨by simp [a, a'], ?_⟩
        intro hr d hd
        rcases List.mem_cons.1 hd with rfl | hd
        · exact b' (hr c List.mem_cons_self)
        · exact b (fun d hd => hr d (List.mem_cons_of_mem _ hd)) d hd
  obtain ⟨k1, k2⟩ := key s s' hs
  have hr := (C01_is_romaji s).1 h
  have h' : is_romaji s' = true := (C01_is_romaji s').2 ⟨by
    rintro rfl
    have : s = [] := by simpa using hs
    exact hr.1 this, k2 hr.2⟩
  have hr' := (C01_is_romaji s').1 h'
  have e : std.toLowercase s = std.toLowercase s' := by
    unfold Std.toLowercase
    rw [toLowercase_romaji hstd s hr.2, toLowercase_romaji hstd s' hr'.2, k1]
  rw [to_hiragana_eq hstd, to_hiragana_eq hstd, to_katakana_eq hstd, to_katakana_eq hstd]
  unfold hiraP kataP
  simp [ho, romaji_not_mixed h, romaji_not_mixed h', h, h', e]

example : is_romaji "Tōkyō".toList = true ∧ "Tōkyō".toList.map Spec.asciiLower = "tōKYō".toList.map Spec.asciiLower := by
  decide +kernel

/-! ## C41 -/

/-- **C41** with `pass_romaji`, `to_katakana` shifts hiragana letters and changes nothing else -/
theorem C41_katakana (std : Std) (s : Str) (o : Options) (ho : o.pass_romaji = true) :
    to_katakana_with_opt std s o = .ok (s.map Spec.toKata) := by
  unfold to_katakana_with_opt
  rw [if_pos ho, C22_charwise]

/-- The effect of `katakana_to_hiragana` character by character: everything but katakana is copied,
a katakana character is copied or replaced by at most one hiragana letter. -/
theorem k2hP_pieces {std : Std} (hstd : std.Lawful) (dest : Bool) (s : Str) : ∀ {prev}, PrevOk prev →
    ∃ ps : List (Char × Str), s = ps.map Prod.fst ∧ k2hP std dest prev s = ps.flatMap Prod.snd ∧
      ∀ p ∈ ps, p.2 = [p.1] ∨ (Spec.Katakana p.1 ∧ p.2.length ≤ 1 ∧ ∀ d ∈ p.2, Spec.HiraganaLetter d) := by
  induction s with
  | nil => intro prev _; exact ⟨[], rfl, by cases prev <;> rfl, by simp⟩
  | cons c s ih =>
    intro prev hok
    have step : ∀ (out : Str) (prev' : Option Char), PrevOk prev' →
        k2hP std dest prev (c :: s) = out ++ k2hP std dest prev' s →
        (out = [c] ∨ (Spec.Katakana c ∧ out.length ≤ 1 ∧ ∀ d ∈ out, Spec.HiraganaLetter d)) →
        ∃ ps : List (Char × Str), c :: s = ps.map Prod.fst ∧ k2hP std dest prev (c :: s) = ps.flatMap Prod.snd ∧
          ∀ p ∈ ps, p.2 = [p.1] ∨ (Spec.Katakana p.1 ∧ p.2.length ≤ 1 ∧ ∀ d ∈ p.2, Spec.HiraganaLetter d) := by
      intro out prev' hok' he ho
      obtain ⟨ps, h1, h2, h3⟩ := ih hok'
      refine ⟨(c, out) :: ps, by rw [List.map_cons, ← h1], by rw [he, h2, List.flatMap_cons], ?_⟩
      intro p hp
      rcases List.mem_cons.1 hp with rfl | hp
      · exact ho
      · exact h3 p hp
    have hcons := k2hP_cons std dest prev c s
    by_cases hk : keeps c = true
    · rw [if_pos hk] at hcons
      exact step [c] prev hok hcons (Or.inl rfl)
    · rw [if_neg hk] at hcons
      by_cases hd : isDash c = true
      · rw [if_pos hd] at hcons
        cases prev with
        | none => exact step [c] none hok hcons (Or.inl rfl)
        | some p =>
          refine step _ (some p) hok hcons (Or.inr ⟨?_, ?_, ?_⟩)
          · have := isDash_iff.1 hd
            rw [specKatakana_iff]; omega
          · have := longOut_length hstd (hok p rfl).1 (hok p rfl).2 dest c
            rw [this]; split <;> omega
          · intro d hd
            have := longOut_mem hstd (hok p rfl).1 (hok p rfl).2 dest c d hd
            simp only [List.mem_cons, List.not_mem_nil, or_false] at this
            rcases this with rfl | rfl | rfl | rfl | rfl <;> decide
      · rw [if_neg hd] at hcons
        by_cases ha : is_char_katakana c = true
        · rw [if_pos ha] at hcons
          have hp := k2hChar_prevOk (by simpa using hk) (by simpa using hd) ha
          refine step [k2hChar c] _ hp hcons (Or.inr ⟨?_, by simp, ?_⟩)
          · rw [specKatakana_iff]; exact is_char_katakana_iff.1 ha
          · intro d hd
            rw [List.mem_singleton] at hd
            subst hd
            have := hp _ rfl
            show 0x3041 ≤ _ ∧ _ ≤ 0x3096
            omega
        · rw [if_neg ha] at hcons
          exact step [c] none prevOk_none hcons (Or.inl rfl)

/-- **C41** with `pass_romaji`, `to_hiragana` copies everything but katakana; a katakana character is
copied or replaced by at most one hiragana letter. -/
theorem C41_hiragana {std : Std} (hstd : std.Lawful) (s r : Str) (o : Options) (ho : o.pass_romaji = true)
    (h : to_hiragana_with_opt std s o = .ok r) :
    ∃ ps : List (Char × Str), s = ps.map Prod.fst ∧ r = ps.flatMap Prod.snd ∧
      ∀ p ∈ ps, p.2 = [p.1] ∨ (Spec.Katakana p.1 ∧ p.2.length ≤ 1 ∧ ∀ d ∈ p.2, Spec.HiraganaLetter d) := by
  rw [to_hiragana_eq hstd] at h
  cases h
  unfold hiraP
  rw [if_pos ho]
  exact k2hP_pieces hstd false s prevOk_none

theorem hiraganaLetter_kana {c : Char} (h : Spec.HiraganaLetter c) : Spec.Kana c := Or.inl h
theorem katakana_is_kana {c : Char} (h : Spec.Katakana c) : Spec.Kana c := by
  rw [specKana_iff]; rw [specKatakana_iff] at h; exact Or.inr h

theorem filter_nonkana {std : Std} (hstd : std.Lawful) (dest : Bool) (s : Str) {prev : Option Char} (hok : PrevOk prev) :
    (k2hP std dest prev s).filter (fun c => ¬ Spec.Kana c) = s.filter (fun c => ¬ Spec.Kana c) := by
  obtain ⟨ps, h1, h2, h3⟩ := k2hP_pieces hstd dest s hok
  rw [h2, h1]
  clear h1 h2
  induction ps with
  | nil => rfl
  | cons p ps ih =>
    rw [List.flatMap_cons, List.map_cons, List.filter_append, ih fun q hq => h3 q (List.mem_cons_of_mem _ hq)]
    rcases h3 p List.mem_cons_self with e | ⟨hk, _, hh⟩
    · rw [e, List.filter_cons, List.filter_cons]
      split <;> rfl
    · have e1 : p.2.filter (fun c => ¬ Spec.Kana c) = [] := by
        rw [List.filter_eq_nil_iff]
        intro d hd
        simp [hiraganaLetter_kana (hh d hd)]
      rw [e1, List.filter_cons, if_neg (by simp [katakana_is_kana hk])]
      rfl

/-- **C41** with `pass_romaji` the sequence of non-kana characters is untouched. -/
theorem C41_nonkana {std : Std} (hstd : std.Lawful) (s : Str) (o : Options) (ho : o.pass_romaji = true) :
    ∃ rh rk, to_hiragana_with_opt std s o = .ok rh ∧ to_katakana_with_opt std s o = .ok rk ∧
      rh.filter (fun c => ¬ Spec.Kana c) = s.filter (fun c => ¬ Spec.Kana c) ∧
      rk.filter (fun c => ¬ Spec.Kana c) = s.filter (fun c => ¬ Spec.Kana c) := by
  refine ⟨_, _, to_hiragana_eq hstd s o, C41_katakana std s o ho, ?_, ?_⟩
  · unfold hiraP
    rw [if_pos ho]
    exact filter_nonkana hstd false s prevOk_none
  · induction s with
    | nil => rfl
    | cons c s ih =>
      rw [List.map_cons, List.filter_cons, List.filter_cons, ih]
      have hiff : Spec.Kana (Spec.toKata c) ↔ Spec.Kana c := by
        rw [← h2kP_eq_toKata, specKana_iff, specKana_iff, h2kP_toNat]
        split <;> omega
      by_cases hk : Spec.Kana c
      · simp [hk, hiff.2 hk]
      · have e : Spec.toKata c = c := by
          rw [← h2kP_eq_toKata]
          apply char_ext
          rw [h2kP_toNat, if_neg]
          rw [specKana_iff] at hk
          omega
        simp [hk, e]

example : to_hiragana_with_opt modernStd "only カナ, ハート♥".toList { pass_romaji := true }
    = .ok "only かな, はあと♥".toList := by decide +kernel

/-! ## C42 -/

/-- **C42** `to_katakana` leaves no hiragana letter -/
theorem C42_no_hiragana {std : Std} (hstd : std.Lawful) (s r : Str) (o : Options)
    (h : to_katakana_with_opt std s o = .ok r) : ∀ c ∈ r, ¬ Spec.HiraganaLetter c := by
  rw [to_katakana_eq hstd] at h
  cases h
  have key : ∃ t : Str, kataP std s o = t.map h2kP := by
    unfold kataP
    repeat' split
    all_goals exact ⟨_, rfl⟩
  obtain ⟨t, e⟩ := key
  exact C22_no_hiragana t _ (by rw [hiragana_to_katakana_eq, e])

example : to_katakana_with_opt modernStd "かなto漢字".toList {} = .ok "カナト漢字".toList := by decide +kernel

/-! ## C43 -/

/-- katakana that `to_hiragana` may leave -/
def FewKatakana (s : Str) : Prop := ∀ c ∈ s, Spec.Katakana c → c ∈ ['ー', '・', 'ヵ', 'ヶ']

/-- the texts for which C43 holds: everything, except texts without romaji that start with a smart
quote and contain katakana letters -/
def QuoteFree (s : Str) : Prop :=
  (∃ c ∈ s, Spec.Romaji c) ∨ (∀ c, s.head? = some c → ¬ Spec.EnglishPunct c) ∨ FewKatakana s

theorem few_lower {std : Std} (hstd : std.Lawful) (m : Mode) {s : Str} (h : FewKatakana s) :
    FewKatakana (kana m (std.toLowercase s)) := by
  have huc : ∀ c, Spec.Katakana c → Uncased c := by
    intro c hc
    rw [specKatakana_iff] at hc
    unfold Uncased; omega
  intro c hc hk
  rcases mem_kana_cases m _ c hc with hc | ⟨s1, x, s2, n, out, e, hne, hw, ho, hm⟩
  · exact h c (lower_uncased hstd hc (huc c hk)) hk
  · have hup : x.all aUpper = false := by
      cases x with
      | nil => exact absurd rfl hne
      | cons a x =>
        have ha : a ∈ std.toLowercase s := by rw [e]; simp
        have := settled_not_upper hstd (lower_settled hstd ha)
        rw [List.all_cons]
        have h1 : aUpper a = false := by
          rw [Bool.eq_false_iff, Ne, aUpper_iff]; exact this
        rw [h1]; rfl
    unfold styled at hm
    rw [hup] at hm
    have := (walk_output hw ho).2.2 c (by simpa using hm)
    rw [outChar_iff] at this
    rw [specKatakana_iff] at hk
    simp only [List.mem_cons, List.not_mem_nil, or_false, char_eq_iff, Char.reduceToNat] at this ⊢
    omega

theorem few_k2h {std : Std} (hstd : std.Lawful) (s : Str) : FewKatakana (k2hP std false none s) :=
  C23_no_katakana hstd s _ false (k2h_eq hstd s false)

theorem few_romaji {s : Str} (h : is_romaji s = true) : FewKatakana s :=
  fun c hc hk => absurd (katakana_is_kana hk) (romaji_not_kana h c hc)

theorem hiraP_few {std : Std} (hstd : std.Lawful) (s : Str) (o : Options) (h : o.pass_romaji = true ∨ QuoteFree s) :
    FewKatakana (hiraP std s o) := by
  unfold hiraP
  by_cases hp : o.pass_romaji = true
  · rw [if_pos hp]; exact few_k2h hstd s
  · rw [if_neg hp]
    by_cases hm : is_mixed s = true
    · rw [if_pos hm]; exact few_lower hstd _ (few_k2h hstd s)
    · rw [if_neg hm]
      split
      · next hr =>
        apply few_lower hstd
        rw [Bool.or_eq_true] at hr
        rcases hr with hr | hr
        · exact few_romaji hr
        · rcases h.resolve_left hp with ⟨c, hc, hcr⟩ | hq | hq
          · intro d hd hk
            exact absurd ((C04_is_mixed s).2 ⟨⟨d, hd, katakana_is_kana hk⟩, ⟨c, hc, hcr⟩⟩) hm
          · cases s with
            | nil => simp at hr
            | cons c s =>
              simp only [List.head?_cons, Option.map_some, Option.getD_some, is_char_english_punctuation_iff] at hr
              exact absurd hr (hq c rfl)
          · exact hq
      · exact few_k2h hstd s

/-- **C43** (partial: texts without romaji that start with a smart quote are excluded unless they have no
katakana letters) the only katakana in the output are ー ・ ヵ ヶ. -/
theorem C43_no_katakana_partial {std : Std} (hstd : std.Lawful) (s r : Str) (o : Options)
    (hq : o.pass_romaji = true ∨ (∃ c ∈ s, Spec.Romaji c) ∨ (∀ c, s.head? = some c → ¬ Spec.EnglishPunct c))
    (h : to_hiragana_with_opt std s o = .ok r) : ∀ c ∈ r, Spec.Katakana c → c ∈ ['ー', '・', 'ヵ', 'ヶ'] := by
  rw [to_hiragana_eq hstd] at h
  cases h
  apply hiraP_few hstd
  rcases hq with h | h | h
  · exact Or.inl h
  · exact Or.inr (Or.inl h)
  · exact Or.inr (Or.inr (Or.inl h))

example : (∃ c ∈ "‘カ’ ok".toList, Spec.Romaji c) ∧
    to_hiragana_with_opt modernStd "‘カ’ ok".toList {} = .ok "「か」 おk".toList := by decide +kernel

/-- **C43** is false in general: ‘カ keeps its katakana. -/
theorem C43_false : to_hiragana_with_opt modernStd "‘カ".toList {} = .ok "「カ".toList := by decide +kernel

/-- **C43** the exact set of inputs for which the claim holds -/
theorem C43_exact {std : Std} (hstd : std.Lawful) (s r : Str) (o : Options) (h : to_hiragana_with_opt std s o = .ok r) :
    (∀ c ∈ r, Spec.Katakana c → c ∈ ['ー', '・', 'ヵ', 'ヶ']) ↔
      o.pass_romaji = true ∨ (∃ c ∈ s, Spec.Romaji c) ∨ (∀ c, s.head? = some c → ¬ Spec.EnglishPunct c) ∨
        (∀ c ∈ s, Spec.Katakana c → c ∈ ['ー', '・', 'ヵ', 'ヶ']) := by
  rw [to_hiragana_eq hstd] at h
  cases h
  refine ⟨fun h => ?_, fun h => hiraP_few hstd s o h⟩
  apply Classical.byContradiction
  intro hn
  simp only [not_or] at hn
  obtain ⟨n1, n2, n3, n4⟩ := hn
  apply n4
  intro c hc hk
  apply h c _ hk
  rw [specKatakana_iff] at hk
  have hu : Uncased c := by unfold Uncased; omega
  unfold hiraP
  rw [if_neg n1]
  have hm : is_mixed s = false := by
    rw [Bool.eq_false_iff, Ne, C04_is_mixed]
    exact fun h => n2 h.2
  have hp : ((s.head?).map is_char_english_punctuation).getD false = true := by
    cases s with
    | nil => cases hc
    | cons d s =>
      simp only [List.head?_cons, Option.map_some, Option.getD_some, is_char_english_punctuation_iff]
      apply Classical.byContradiction
      intro hne
      apply n3
      intro e he
      cases he
      exact hne
  simp only [hm, hp, Bool.or_true, if_true]
  exact mem_kana_of_ge _ (by omega) (mem_lowerFrom hstd hu s hc [])

/-! ## C44 -/

theorem katakana_shift_class (s : Str) : is_romaji (s.map h2kP) = is_romaji s ∧ is_mixed (s.map h2kP) = is_mixed s := by
  have h1 : ∀ c, Spec.Romaji (h2kP c) ↔ Spec.Romaji c := by
    intro c
    rw [specRomaji_iff, specRomaji_iff, h2kP_toNat]
    simp only [List.mem_cons, List.not_mem_nil, or_false]
    split <;> omega
  have h2 : ∀ c, Spec.Kana (h2kP c) ↔ Spec.Kana c := by
    intro c
    rw [specKana_iff, specKana_iff, h2kP_toNat]
    split <;> omega
  constructor
  · rw [Bool.eq_iff_iff, C01_is_romaji, C01_is_romaji]
    simp [h1]
  · rw [Bool.eq_iff_iff, C04_is_mixed, C04_is_mixed]
    have key : ∀ P : Char → Prop, (∀ c, P (h2kP c) ↔ P c) → ((∃ c ∈ s.map h2kP, P c) ↔ ∃ c ∈ s, P c) := by
      intro P hP
      constructor
      · rintro ⟨c, hc, h⟩
        obtain ⟨d, hd, rfl⟩ := List.mem_map.1 hc
        exact ⟨d, hd, (hP d).1 h⟩
      · rintro ⟨c, hc, h⟩
        exact ⟨h2kP c, List.mem_map_of_mem hc, (hP c).2 h⟩
    rw [key _ h1, key _ h2]

theorem noNyy_lower {std : Std} (hstd : std.Lawful) {s : Str} (h : ¬ ['n', 'y', 'y'] <:+: std.toLowercase s) :
    NoNyy (std.toLowercase s) := by
  rw [noNyy_iff]
  have : (std.toLowercase s).map Spec.asciiLower = std.toLowercase s := by
    rw [asciiLower_eq]
    conv => rhs; rw [← List.map_id (std.toLowercase s)]
    apply List.map_congr_left
    intro c hc
    apply char_ext
    rw [toAsciiLowercase_toNat, if_neg (settled_not_upper hstd (lower_settled hstd hc))]
    rfl
  rw [this]; exact h

/-- **C44** (partial: texts with nyy are excluded, except in IME mode and with `pass_romaji`) `to_katakana` is
idempotent. -/
theorem C44_katakana_partial {std : Std} (hstd : std.Lawful) (s r : Str) (o : Options)
    (hn : o.pass_romaji = true ∨ (o.imemode = true ∧ o.use_obsolete_kana = false) ∨
      ¬ ['n', 'y', 'y'] <:+: std.toLowercase s)
    (h : to_katakana_with_opt std s o = .ok r) : to_katakana_with_opt std r o = .ok r := by
  rw [to_katakana_eq hstd] at h ⊢
  cases h
  congr 1
  have idem : ∀ t : Str, (t.map h2kP).map h2kP = t.map h2kP := by
    intro t; rw [List.map_map]; exact List.map_congr_left fun c _ => h2kP_idem c
  by_cases hp : o.pass_romaji = true
  · simp only [kataP, hp, if_true, idem]
  · by_cases hr : (is_romaji s || is_mixed s) = true
    · have e : kataP std s o = (kana (modeOf o) (std.toLowercase s)).map h2kP := by
        unfold kataP; rw [if_neg hp, if_pos hr]
      have hset : ∀ c ∈ kataP std s o, Settled std c := by
        rw [e]
        intro c hc
        obtain ⟨d, hd, rfl⟩ := List.mem_map.1 hc
        exact h2kP_settled hstd (kana_settled hstd _ _ (fun c hc => lower_settled hstd hc) d hd)
      have hfix : ∀ t, t = kataP std s o → (kana (modeOf o) t).map h2kP = t ∧ t.map h2kP = t := by
        intro t ht
        subst ht
        rw [e, kana_shift, kana_idem, idem]
        · exact ⟨rfl, rfl⟩
        · rcases hn with h | h | h
          · exact absurd h hp
          · exact Or.inl (modeOf_ime.2 h)
          · exact Or.inr (noNyy_lower hstd h)
      generalize kataP std s o = t at hset hfix
      obtain ⟨f1, f2⟩ := hfix t rfl
      unfold kataP
      rw [if_neg hp, toLowercase_id hset, f1, f2]
      split <;> rfl
    · have e : kataP std s o = s.map h2kP := by
        unfold kataP; rw [if_neg hp, if_neg hr]
      rw [e]
      unfold kataP
      rw [if_neg hp, (katakana_shift_class s).1, (katakana_shift_class s).2, if_neg hr, idem]

/-- an infix cannot straddle a foreign character -/
theorem infix_split {l a x : Str} {d : Char} (hd : d ∉ l) (h : l <:+: a ++ d :: x) : l <:+: a ∨ l <:+: x := by
  obtain ⟨p, q, e⟩ := h
  rw [List.append_assoc] at e
  rcases List.append_eq_append_iff.1 e with ⟨a', h1, h2⟩ | ⟨c', h1, h2⟩
  · -- a = p ++ a', l ++ q = a' ++ d :: x
    rcases List.append_eq_append_iff.1 h2 with ⟨b, h3, h4⟩ | ⟨b, h3, h4⟩
    · left; exact ⟨p, b, by rw [h1, h3, List.append_assoc]⟩
    · cases b with
      | nil =>
        left
        refine ⟨p, [], ?_⟩
        rw [h1, h3]; simp
      | cons y b =>
        exfalso
        simp only [List.cons_append, List.cons.injEq] at h4
        apply hd
        rw [h3, h4.1]; simp
  · cases c' with
    | nil =>
      cases l with
      | nil => left; exact List.nil_infix
      | cons y l =>
        exfalso
        simp only [List.nil_append, List.cons_append, List.cons.injEq] at h2
        exact hd (by rw [h2.1]; simp)
    | cons y c' =>
      right
      simp only [List.cons_append, List.cons.injEq] at h2
      exact ⟨c', q, by rw [h2.2, List.append_assoc]⟩

/-- lowercasing without the context rule for Σ -/
def plainLower (std : Std) (s : Str) : Str := s.flatMap fun c => if c = 'Σ' then ['σ'] else std.lowerChar c

def unifySigma (c : Char) : Char := if c = 'ς' then 'σ' else c

theorem unify_lower (std : Std) (s : Str) : ∀ pre,
    (std.lowerFrom pre s).map unifySigma = (plainLower std s).map unifySigma := by
  induction s with
  | nil => intro pre; rfl
  | cons c s ih =>
    intro pre
    rw [Std.lowerFrom, plainLower, List.flatMap_cons, List.map_append, List.map_append, ih]
    congr 1
    by_cases h : c = 'Σ'
    · simp only [h, if_true]
      split <;> rfl
    · simp only [h, if_false]

theorem nyy_unify (s : Str) : ['n', 'y', 'y'] <:+: s.map unifySigma ↔ ['n', 'y', 'y'] <:+: s := by
  have hu : ∀ x y : Char, y = 'n' ∨ y = 'y' → (unifySigma x = y ↔ x = y) := by
    intro x y hy
    unfold unifySigma
    split
    · next h => subst h; rcases hy with rfl | rfl <;> decide
    · rfl
  constructor
  · rintro ⟨a, b, e⟩
    rw [List.append_assoc] at e
    obtain ⟨a', r, h1, h2, h3⟩ := List.map_eq_append_iff.1 e.symm
    obtain ⟨m, b', h4, h5, h6⟩ := List.map_eq_append_iff.1 h3
    refine ⟨a', b', ?_⟩
    have hm : m = ['n', 'y', 'y'] := by
      have hl := congrArg List.length h5
      rw [List.length_map] at hl
      obtain ⟨x, y, z, rfl⟩ : ∃ x y z, m = [x, y, z] := by
        cases m with
        | nil => cases hl
        | cons x m => cases m with
          | nil => cases hl
          | cons y m => cases m with
            | nil => cases hl
            | cons z m => cases m with
              | nil => exact ⟨x, y, z, rfl⟩
              | cons t m => simp at hl
      simp only [List.map_cons, List.map_nil, List.cons.injEq, and_true] at h5
      rw [hu x 'n' (Or.inl rfl), hu y 'y' (Or.inr rfl), hu z 'y' (Or.inr rfl)] at h5
      rw [h5.1, h5.2.1, h5.2.2]
    rw [h1, h4, hm, List.append_assoc]
  · rintro ⟨a, b, e⟩
    refine ⟨a.map unifySigma, b.map unifySigma, ?_⟩
    rw [← e]
    simp only [List.map_append]
    rfl

theorem nyy_plain (std : Std) (s : Str) : ['n', 'y', 'y'] <:+: std.toLowercase s ↔ ['n', 'y', 'y'] <:+: plainLower std s := by
  rw [← nyy_unify, ← nyy_unify (plainLower std s)]
  unfold Std.toLowercase
  rw [unify_lower]

theorem plainLower_append (std : Std) (a b : Str) : plainLower std (a ++ b) = plainLower std a ++ plainLower std b := by
  unfold plainLower; rw [List.flatMap_append]

theorem plainLower_cons (std : Std) (c : Char) (b : Str) : plainLower std (c :: b) = plainLower std [c] ++ plainLower std b :=
  plainLower_append std [c] b

theorem plainLower_kana {std : Std} (hstd : std.Lawful) {c : Char} (h : Uncased c) : plainLower std [c] = [c] := by
  obtain ⟨h1, h2⟩ := settled_uncased hstd h
  simp [plainLower, h1, h2]

/-- `katakana_to_hiragana` does not create `nyy` -/
theorem nyy_k2hP {std : Std} (hstd : std.Lawful) (dest : Bool) (s : Str) : ∀ (prev : Option Char) (w w' : Str),
    PrevOk prev → (prev ≠ none → ∃ w0 d, w = w0 ++ [d] ∧ d ∉ ['n', 'y', 'y']) →
    (∀ x, ['n', 'y', 'y'] <:+: w ++ x → ['n', 'y', 'y'] <:+: w' ++ x) →
    ['n', 'y', 'y'] <:+: w ++ plainLower std (k2hP std dest prev s) → ['n', 'y', 'y'] <:+: w' ++ plainLower std s := by
  have foreign : ∀ {d : Char}, Uncased d → d ∉ ['n', 'y', 'y'] := by
    intro d hd hm
    simp only [List.mem_cons, List.not_mem_nil, or_false] at hm
    unfold Uncased at hd
    rcases hm with rfl | rfl | rfl <;> simp only [Char.reduceToNat] at hd <;> omega
  -- replacing one foreign character (or nothing after a foreign character) by another one
  have swap : ∀ {w w' : Str} {d e : Char}, Uncased d →
      (∀ x, ['n', 'y', 'y'] <:+: w ++ x → ['n', 'y', 'y'] <:+: w' ++ x) →
      ∀ x, ['n', 'y', 'y'] <:+: (w ++ [d]) ++ x → ['n', 'y', 'y'] <:+: (w' ++ [e]) ++ x := by
    intro w w' d e hd hE x hx
    rw [List.append_assoc] at hx
    rcases infix_split (foreign hd) hx with h | h
    · have := hE [] (by simpa using h)
      rw [List.append_nil] at this
      rw [List.append_assoc]
      exact this.trans (List.prefix_append _ _).isInfix
    · exact h.trans (List.suffix_append _ _).isInfix
  induction s with
  | nil =>
    intro prev w w' _ _ hE h
    have e : k2hP std dest prev [] = [] := by cases prev <;> rfl
    rw [e] at h
    exact hE _ h
  | cons c s ih =>
    intro prev w w' hok hw hE h
    rw [plainLower_cons]
    rw [← List.append_assoc]
    have hcons := k2hP_cons std dest prev c s
    have copy : ∀ prev', PrevOk prev' → (prev' ≠ none → Uncased c) →
        k2hP std dest prev (c :: s) = c :: k2hP std dest prev' s →
        ['n', 'y', 'y'] <:+: (w' ++ plainLower std [c]) ++ plainLower std s := by
      intro prev' hok' hu he
      rw [he, plainLower_cons, ← List.append_assoc] at h
      refine ih prev' _ _ hok' ?_ ?_ h
      · intro hne
        exact ⟨w, c, by rw [plainLower_kana hstd (hu hne)], foreign (hu hne)⟩
      · intro x hx
        rw [List.append_assoc] at hx ⊢
        exact hE _ hx
    by_cases hk : keeps c = true
    · rw [if_pos hk] at hcons
      refine copy prev hok (fun _ => ?_) hcons
      have := keeps_iff.1 hk
      unfold Uncased; omega
    · rw [if_neg hk] at hcons
      by_cases hd : isDash c = true
      · rw [if_pos hd] at hcons
        have hcu : Uncased c := by
          have := isDash_iff.1 hd
          unfold Uncased; omega
        rw [plainLower_kana hstd hcu]
        cases prev with
        | none => rw [← plainLower_kana hstd hcu]; exact copy none hok (fun h => absurd rfl h) hcons
        | some p =>
          rw [hcons] at h
          simp only at h
          have hl := longOut_length hstd (hok p rfl).1 (hok p rfl).2 dest c
          cases hlo : longOut std dest c p with
          | nil =>
            rw [hlo, List.nil_append] at h
            obtain ⟨w0, d, e, hdn⟩ := hw (by simp)
            refine ih (some p) w _ hok (fun _ => ⟨w0, d, e, hdn⟩) ?_ h
            intro x hx
            rw [e, List.append_assoc] at hx
            rcases infix_split hdn hx with h' | h'
            · have h2 := hE [] (by rw [List.append_nil, e]; exact h'.trans (List.prefix_append _ _).isInfix)
              rw [List.append_nil] at h2
              rw [List.append_assoc]
              exact h2.trans (List.prefix_append _ _).isInfix
            · exact h'.trans (List.suffix_append _ _).isInfix
          | cons d l =>
            have hl0 : l = [] := by
              rw [hlo, List.length_cons] at hl
              cases l with
              | nil => rfl
              | cons a l => rw [List.length_cons] at hl; split at hl <;> omega
            subst hl0
            have hdu : Uncased d := by
              have := longOut_mem hstd (hok p rfl).1 (hok p rfl).2 dest c d (by rw [hlo]; simp)
              simp only [List.mem_cons, List.not_mem_nil, or_false] at this
              unfold Uncased
              rcases this with rfl | rfl | rfl | rfl | rfl <;> decide
            rw [hlo, plainLower_append, plainLower_kana hstd hdu, ← List.append_assoc] at h
            exact ih (some p) _ _ hok (fun _ => ⟨w, d, rfl, foreign hdu⟩) (swap hdu hE) h
      · rw [if_neg hd] at hcons
        by_cases ha : is_char_katakana c = true
        · rw [if_pos ha] at hcons
          have hp := k2hChar_prevOk (by simpa using hk) (by simpa using hd) ha
          have hcu : Uncased c := by
            have := is_char_katakana_iff.1 ha
            unfold Uncased; omega
          have hdu : Uncased (k2hChar c) := by
            have := hp _ rfl
            unfold Uncased; omega
          rw [plainLower_kana hstd hcu]
          rw [hcons, plainLower_cons, plainLower_kana hstd hdu, ← List.append_assoc] at h
          exact ih _ _ _ hp (fun _ => ⟨w, _, rfl, foreign hdu⟩) (swap hdu hE) h
        · rw [if_neg ha] at hcons
          exact copy none prevOk_none (fun h => absurd rfl h) hcons

theorem nyy_k2h {std : Std} (hstd : std.Lawful) (dest : Bool) (s : Str)
    (h : ['n', 'y', 'y'] <:+: std.toLowercase (k2hP std dest none s)) : ['n', 'y', 'y'] <:+: std.toLowercase s := by
  rw [nyy_plain] at h ⊢
  exact nyy_k2hP hstd dest s none [] [] prevOk_none (fun h => absurd rfl h) (fun _ h => h) h

/-- The first character of the text is copied or gives a kana. -/
theorem k2hP_head' (std : Std) (dest : Bool) (c : Char) (s : Str) :
    ∃ d prev, k2hP std dest none (c :: s) = d :: k2hP std dest prev s ∧ ((d = c ∧ prev = none) ∨ Spec.Kana d) := by
  have hcons := k2hP_cons std dest none c s
  by_cases hk : keeps c = true
  · rw [if_pos hk] at hcons
    exact ⟨_, _, hcons, Or.inl ⟨rfl, rfl⟩⟩
  · rw [if_neg hk] at hcons
    by_cases hd : isDash c = true
    · rw [if_pos hd] at hcons
      exact ⟨_, _, hcons, Or.inl ⟨rfl, rfl⟩⟩
    · rw [if_neg hd] at hcons
      by_cases ha : is_char_katakana c = true
      · rw [if_pos ha] at hcons
        have hp := k2hChar_prevOk (by simpa using hk) (by simpa using hd) ha
        refine ⟨_, _, hcons, Or.inr ?_⟩
        have := hp _ rfl
        rw [specKana_iff]; omega
      · rw [if_neg ha] at hcons
        exact ⟨_, _, hcons, Or.inl ⟨rfl, rfl⟩⟩

theorem k2hP_head (std : Std) (dest : Bool) (c : Char) (s : Str) :
    ∃ d l, k2hP std dest none (c :: s) = d :: l ∧ (d = c ∨ Spec.Kana d) := by
  obtain ⟨d, prev, h1, h2⟩ := k2hP_head' std dest c s
  exact ⟨d, _, h1, h2.imp_left And.left⟩

theorem punct_not_kana {c : Char} (h : Spec.EnglishPunct c) : ¬ Spec.Kana c := by
  simp only [Spec.EnglishPunct, Spec.In, List.mem_cons, List.not_mem_nil, or_false, char_eq_iff, Char.reduceToNat] at h
  rw [specKana_iff]
  omega

/-- If `katakana_to_hiragana` gives a text without kana, it changed nothing. -/
theorem k2hP_result_no_kana (std : Std) (dest : Bool) (s : Str) (h : ∀ c ∈ k2hP std dest none s, ¬ Spec.Kana c) :
    k2hP std dest none s = s := by
  induction s with
  | nil => rfl
  | cons c s ih =>
    obtain ⟨d, prev, h1, h2⟩ := k2hP_head' std dest c s
    rw [h1] at h ⊢
    rcases h2 with ⟨rfl, rfl⟩ | h2
    · rw [ih fun c hc => h c (List.mem_cons_of_mem _ hc)]
    · exact absurd h2 (h d List.mem_cons_self)

/-- a text that is only shifted stays as it is and does not become mixed -/
theorem hiraP_shifted {std : Std} (hstd : std.Lawful) {s : Str} {o : Options} (hp : ¬ o.pass_romaji = true)
    (hm : ¬ is_mixed s = true)
    (hr : ¬ (is_romaji s || ((s.head?).map is_char_english_punctuation).getD false) = true)
    (hid : k2hP std false none (hiraP std s o) = hiraP std s o) :
    is_mixed (hiraP std s o) = false ∧ hiraP std (hiraP std s o) o = hiraP std s o := by
  have e : hiraP std s o = k2hP std false none s := by
    unfold hiraP; rw [if_neg hp, if_neg hm, if_neg hr]
  have hf := filter_nonkana hstd false s prevOk_none
  rw [← e] at hf
  rw [Bool.or_eq_true, not_or] at hr
  obtain ⟨hr1, hr2⟩ := hr
  have hmem : ∀ c, ¬ Spec.Kana c → (c ∈ hiraP std s o ↔ c ∈ s) := by
    intro c hc
    have : c ∈ (hiraP std s o).filter (fun c => ¬ Spec.Kana c) ↔ c ∈ s.filter (fun c => ¬ Spec.Kana c) := by rw [hf]
    simpa [hc] using this
  have hnk : ∀ c, Spec.Romaji c → ¬ Spec.Kana c := by
    intro c h1 h2
    rw [specRomaji_iff] at h1
    rw [specKana_iff] at h2
    simp only [List.mem_cons, List.not_mem_nil, or_false] at h1
    omega
  have m1 : is_mixed (hiraP std s o) = false := by
    rw [Bool.eq_false_iff, Ne, C04_is_mixed]
    rintro ⟨⟨a, ha, hka⟩, ⟨b, hb, hrb⟩⟩
    apply hm
    rw [C04_is_mixed]
    refine ⟨?_, b, (hmem b (hnk b hrb)).1 hb, hrb⟩
    apply Classical.byContradiction
    intro hno
    have hno : ∀ c ∈ s, ¬ Spec.Kana c := fun c hc hk => hno ⟨c, hc, hk⟩
    rw [e, k2hP_no_katakana std false hno] at ha
    exact hno a ha hka
  have m2 : is_romaji (hiraP std s o) = false := by
    cases hx : is_romaji (hiraP std s o) with
    | false => rfl
    | true =>
      have : s = hiraP std s o := by
        rw [e]
        exact (k2hP_result_no_kana std false s (by rw [← e]; exact romaji_not_kana hx)).symm
      rw [← this] at hx
      exact absurd hx hr1
  have m3 : ((hiraP std s o).head?.map is_char_english_punctuation).getD false = false := by
    rw [e]
    cases s with
    | nil => rfl
    | cons c s =>
      simp only [List.head?_cons, Option.map_some, Option.getD_some, Bool.not_eq_true] at hr2
      obtain ⟨d, l, h1, h2⟩ := k2hP_head std false c s
      rw [h1]
      simp only [List.head?_cons, Option.map_some, Option.getD_some]
      rcases h2 with rfl | h2
      · exact hr2
      · rw [Bool.eq_false_iff, Ne, is_char_english_punctuation_iff]
        intro hx
        exact punct_not_kana hx h2
  refine ⟨m1, ?_⟩
  generalize hiraP std s o = r at *
  unfold hiraP
  rw [if_neg hp, m1, m2, m3]
  simpa using hid

/-- **C44** (partial: as before, and texts excluded in C43) `to_hiragana` is idempotent. -/
theorem C44_hiragana_partial {std : Std} (hstd : std.Lawful) (s r : Str) (o : Options)
    (hn : o.pass_romaji = true ∨ (o.imemode = true ∧ o.use_obsolete_kana = false) ∨
      ¬ ['n', 'y', 'y'] <:+: std.toLowercase s)
    (hq : o.pass_romaji = true ∨ (∃ c ∈ s, Spec.Romaji c) ∨ (∀ c, s.head? = some c → ¬ Spec.EnglishPunct c) ∨
        (∀ c ∈ s, Spec.Katakana c → c ∈ ['ー', '・', 'ヵ', 'ヶ']))
    (h : to_hiragana_with_opt std s o = .ok r) : to_hiragana_with_opt std r o = .ok r := by
  rw [to_hiragana_eq hstd] at h ⊢
  cases h
  congr 1
  have hfew := hiraP_few hstd s o hq
  have hid : k2hP std false none (hiraP std s o) = hiraP std s o := by
    have := C23_unchanged hstd _ false hfew
    rw [k2h_eq hstd] at this
    exact Except.ok.inj this
  by_cases hp : o.pass_romaji = true
  · generalize hiraP std s o = t at hid
    unfold hiraP; rw [if_pos hp, hid]
  · have fix : ∀ t, hiraP std s o = kana (modeOf o) (std.toLowercase t) →
        (modeOf o = .ime ∨ NoNyy (std.toLowercase t)) → hiraP std (hiraP std s o) o = hiraP std s o := by
      intro t e hnn
      have hset : ∀ c ∈ hiraP std s o, Settled std c := by
        rw [e]; exact kana_settled hstd _ _ (fun c hc => lower_settled hstd hc)
      have hfix : kana (modeOf o) (hiraP std s o) = hiraP std s o := by
        rw [e, kana_idem _ _ hnn]
      generalize hiraP std s o = t at hset hfix hid
      unfold hiraP
      rw [if_neg hp, hid, toLowercase_id hset, hfix]
      repeat' split
      all_goals rfl
    have hn' : modeOf o = .ime ∨ ¬ ['n', 'y', 'y'] <:+: std.toLowercase s := by
      rcases hn with h | h | h
      · exact absurd h hp
      · exact Or.inl (modeOf_ime.2 h)
      · exact Or.inr h
    by_cases hm : is_mixed s = true
    · apply fix (k2hP std false none s)
      · unfold hiraP; rw [if_neg hp, if_pos hm]
      · exact hn'.imp_right fun h => noNyy_lower hstd fun h' => h (nyy_k2h hstd false s h')
    · by_cases hr : (is_romaji s || ((s.head?).map is_char_english_punctuation).getD false) = true
      · apply fix s
        · unfold hiraP; rw [if_neg hp, if_neg hm, if_pos hr]
        · exact hn'.imp_right (noNyy_lower hstd)
      · exact (hiraP_shifted hstd hp hm hr hid).2

/-- the hypotheses of `C44_hiragana_partial` and `C44_katakana_partial` are met by a mixed text and by one starting
with a quote -/
example : to_hiragana_with_opt modernStd "「スーパー」 nya ンーnn".toList {} = .ok "「すうぱあ」 にゃ んんん".toList := by decide +kernel
example : ¬ ['n', 'y', 'y'] <:+: modernStd.toLowercase "「スーパー」 nya ンーnn".toList := by decide +kernel
example : ∃ c ∈ "「スーパー」 nya ンーnn".toList, Spec.Romaji c := by decide +kernel

/-- **C44** is false in general: `nyya` gives nッヤ, which gives ンッヤ. -/
theorem C44_katakana_false : to_katakana_with_opt modernStd "nyya".toList {} = .ok "nッヤ".toList ∧
    to_katakana_with_opt modernStd "nッヤ".toList {} = .ok "ンッヤ".toList := by decide +kernel

theorem C44_hiragana_false : to_hiragana_with_opt modernStd "nyya".toList {} = .ok "nっや".toList ∧
    to_hiragana_with_opt modernStd "nっや".toList {} = .ok "んっや".toList := by decide +kernel

/-- **C44** is false in general: ‘カ gives 「カ, which gives 「か. -/
theorem C44_hiragana_false_quote : to_hiragana_with_opt modernStd "‘カ".toList {} = .ok "「カ".toList ∧
    to_hiragana_with_opt modernStd "「カ".toList {} = .ok "「か".toList := by decide +kernel

end WanaKana
