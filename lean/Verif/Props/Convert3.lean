import Verif.Props.Convert
import Verif.Props.ToKana4
/-! # C67: `to_hiragana` and `to_katakana` applied twice, exactly -/

namespace WanaKana

theorem settleN_not_mixed {s : Str} (h : is_mixed s = false) : Spec.settleN s = s := by
  rw [settleN_eq_iff]
  intro n hn t ht hi
  rw [Bool.eq_false_iff, Ne, C04_is_mixed] at h
  apply h
  have hsub := hi.subset
  refine ⟨⟨t, hsub (by simp), ?_⟩, n, hsub (by simp), ?_⟩
  · simp only [List.mem_cons, List.not_mem_nil, or_false] at ht
    rcases ht with rfl | rfl <;> decide
  · simp only [List.mem_cons, List.not_mem_nil, or_false] at hn
    rcases hn with rfl | rfl <;> decide

theorem h2kP_eq_iff {c d : Char} (h : d.toNat < 0x3041) : h2kP c = d ↔ c = d := by
  rw [char_eq_iff, char_eq_iff, h2kP_toNat]
  split <;> omega

theorem h2kP_tsu_iff {d : Char} : (h2kP d = 'っ' ∨ h2kP d = 'ッ') ↔ (d = 'っ' ∨ d = 'ッ') := by
  simp only [char_eq_iff, h2kP_toNat, Char.reduceToNat]
  split <;> omega

theorem settleN_shift (s : Str) : (Spec.settleN (s.map h2kP)).map h2kP = (Spec.settleN s).map h2kP := by
  have idem : ∀ c, h2kP (h2kP c) = h2kP c := h2kP_idem
  have hn : ∀ c, h2kP (Spec.nKana (h2kP c)) = h2kP (Spec.nKana c) := by
    intro c
    have e1 : (h2kP c = 'n') = (c = 'n') := propext (h2kP_eq_iff (by decide))
    have e2 : (h2kP c = 'N') = (c = 'N') := propext (h2kP_eq_iff (by decide))
    unfold Spec.nKana
    simp only [e1, e2]
    repeat' split
    all_goals first | rfl | exact idem c
  induction s with
  | nil => rfl
  | cons c s ih =>
    cases s with
    | nil => simp [Spec.settleN, idem]
    | cons d s =>
      have e : (h2kP d = 'っ' ∨ h2kP d = 'ッ') = (d = 'っ' ∨ d = 'ッ') := propext h2kP_tsu_iff
      show h2kP (if h2kP d = 'っ' ∨ h2kP d = 'ッ' then Spec.nKana (h2kP c) else h2kP c) :: (Spec.settleN ((d :: s).map h2kP)).map h2kP
        = h2kP (if d = 'っ' ∨ d = 'ッ' then Spec.nKana c else c) :: (Spec.settleN (d :: s)).map h2kP
      simp only [e, ih]
      congr 1
      split
      · exact hn c
      · exact idem c

theorem modeOf_not_ime {o : Options} (ho : o.use_obsolete_kana = true ∨ o.imemode = false) : modeOf o ≠ .ime := by
  intro e
  have := modeOf_ime.1 e
  rcases ho with h | h <;> simp_all

/-- **C67** outside IME mode and without `pass_romaji`, converting to katakana a second time turns each `n` directly
before ッ into ン and changes nothing else. -/
theorem C67_katakana {std : Std} (hstd : std.Lawful) (s r : Str) (o : Options) (hp : o.pass_romaji = false)
    (ho : o.use_obsolete_kana = true ∨ o.imemode = false) (h : to_katakana_with_opt std s o = .ok r) :
    to_katakana_with_opt std r o = .ok ((Spec.settleN r).map Spec.toKata) := by
  have hmi := modeOf_not_ime ho
  have hp' : ¬ o.pass_romaji = true := by rw [hp]; decide
  rw [to_katakana_eq hstd] at h ⊢
  cases h
  congr 1
  rw [toKata_eq]
  have idem : ∀ t : Str, (t.map h2kP).map h2kP = t.map h2kP := by
    intro t; rw [List.map_map]; exact List.map_congr_left fun c _ => h2kP_idem c
  have hK : kana (modeOf o) (kataP std s o) = kana (modeOf o) (kataP std s o) := rfl
  by_cases hr : (is_romaji s || is_mixed s) = true
  · have e : kataP std s o = (kana (modeOf o) (std.toLowercase s)).map h2kP := by
      unfold kataP; rw [if_neg hp', if_pos hr]
    have hset : ∀ c ∈ kataP std s o, Settled std c := by
      rw [e]
      intro c hc
      obtain ⟨d, hd, rfl⟩ := List.mem_map.1 hc
      exact h2kP_settled hstd (kana_settled hstd _ _ (fun c hc => lower_settled hstd hc) d hd)
    have f1 : (kana (modeOf o) (kataP std s o)).map h2kP = (Spec.settleN (kataP std s o)).map h2kP := by
      rw [e, kana_shift, kana_kana hmi, settleN_shift]
    have f2 : (kataP std s o).map h2kP = kataP std s o := by rw [e, idem]
    generalize kataP std s o = t at hset f1 f2
    by_cases hr2 : (is_romaji t || is_mixed t) = true
    · unfold kataP
      rw [if_neg hp', if_pos hr2, toLowercase_id hset, f1]
    · unfold kataP
      rw [if_neg hp', if_neg hr2]
      rw [Bool.or_eq_true, not_or] at hr2
      rw [settleN_not_mixed (by simpa using hr2.2)]
  · have e : kataP std s o = s.map h2kP := by
      unfold kataP; rw [if_neg hp', if_neg hr]
    have hr' := hr
    rw [Bool.or_eq_true, not_or] at hr'
    have hm : is_mixed (s.map h2kP) = false := by
      rw [(katakana_shift_class s).2]; simpa using hr'.2
    rw [e, settleN_not_mixed hm]
    unfold kataP
    rw [if_neg hp', (katakana_shift_class s).1, (katakana_shift_class s).2, if_neg hr]

theorem settleN_shift_eq {r : Str} (h : r.map h2kP = r) : (Spec.settleN r).map h2kP = r ↔ Spec.settleN r = r := by
  refine ⟨fun he => ?_, fun he => by rw [he, h]⟩
  have hn : ∀ c, h2kP (Spec.nKana c) = c → Spec.nKana c = c := by
    intro c hc
    unfold Spec.nKana at hc ⊢
    by_cases h1 : c = 'n'
    · subst h1; exact absurd hc (by decide +kernel)
    · rw [if_neg h1] at hc ⊢
      by_cases h2 : c = 'N'
      · subst h2; exact absurd hc (by decide +kernel)
      · rw [if_neg h2]
  clear h
  induction r with
  | nil => rfl
  | cons c r ih =>
    cases r with
    | nil => rfl
    | cons d r =>
      simp only [Spec.settleN, List.map_cons, List.cons.injEq] at he ⊢
      refine ⟨?_, ih he.2⟩
      have := he.1
      split at this
      · next hd => rw [if_pos hd]; exact hn c this
      · next hd => rw [if_neg hd]

/-- **C67** a second conversion to katakana changes nothing exactly if the first result has no `n` directly before ッ;
in IME mode and with `pass_romaji` it never does. -/
theorem C67_katakana_stable {std : Std} (hstd : std.Lawful) {s r : Str} {o : Options}
    (h : to_katakana_with_opt std s o = .ok r) :
    to_katakana_with_opt std r o = .ok r ↔
      o.pass_romaji = true ∨ (o.imemode = true ∧ o.use_obsolete_kana = false) ∨ ¬ ['n', 'ッ'] <:+: r := by
  by_cases hp : o.pass_romaji = true
  · simp only [hp, true_or, iff_true]
    exact C44_katakana_partial hstd s r o (Or.inl hp) h
  · by_cases ho : o.imemode = true ∧ o.use_obsolete_kana = false
    · simp only [ho, and_self, true_or, or_true, iff_true]
      exact C44_katakana_partial hstd s r o (Or.inr (Or.inl ho)) h
    · have hp' : o.pass_romaji = false := by simpa using hp
      have ho' : o.use_obsolete_kana = true ∨ o.imemode = false := by
        cases h1 : o.use_obsolete_kana <;> cases h2 : o.imemode <;> simp_all
      rw [C67_katakana hstd s r o hp' ho' h, Except.ok.injEq]
      simp only [hp, ho, false_or, toKata_eq, Bool.false_eq_true]
      have hrk : r.map h2kP = r := by
        have := h
        rw [to_katakana_eq hstd] at this
        cases this
        unfold kataP
        repeat' split
        all_goals rw [List.map_map]; exact List.map_congr_left fun c _ => h2kP_idem c
      rw [settleN_shift_eq hrk, settleN_eq_iff]
      constructor
      · intro h; exact h 'n' (by simp) 'ッ' (by simp)
      · intro hno n hn t ht hi
        have hsub := hi.subset
        simp only [List.mem_cons, List.not_mem_nil, or_false] at hn ht
        rcases ht with rfl | rfl
        · have := List.map_eq_map_iff.1 (hrk.trans (List.map_id r).symm) 'っ' (hsub (by simp))
          exact absurd this (by decide +kernel)
        · rcases hn with rfl | rfl
          · exact hno hi
          · have hm : is_mixed r = true := (C04_is_mixed r).2 ⟨⟨'ッ', hsub (by simp), by decide⟩, 'N', hsub (by simp), by decide⟩
            rw [to_katakana_eq hstd] at h
            cases h
            by_cases hr : (is_romaji s || is_mixed s) = true
            · have e : kataP std s o = (kana (modeOf o) (std.toLowercase s)).map h2kP := by
                unfold kataP; rw [if_neg hp, if_pos hr]
              rw [e] at hsub
              obtain ⟨d, hd, he⟩ := List.mem_map.1 (hsub (List.mem_cons_self))
              have hset := h2kP_settled hstd (kana_settled hstd _ _ (fun c hc => lower_settled hstd hc) d hd)
              rw [he] at hset
              exact settled_not_upper hstd hset (by decide)
            · have e : kataP std s o = s.map h2kP := by
                unfold kataP; rw [if_neg hp, if_neg hr]
              rw [e, (katakana_shift_class s).2] at hm
              rw [hm, Bool.or_true] at hr
              exact hr rfl

example : to_katakana_with_opt modernStd "ka,nyyakoNYYO".toList {} = .ok "カ、nッヤコnッヨ".toList ∧
    (Spec.settleN "カ、nッヤコnッヨ".toList).map Spec.toKata = "カ、ンッヤコンッヨ".toList := by decide +kernel

theorem head_punct_iff' {s : Str} : ((s.head?).map is_char_english_punctuation).getD false = true ↔
    ∃ c, s.head? = some c ∧ Spec.EnglishPunct c := by
  cases s with
  | nil => simp
  | cons c s => simp [is_char_english_punctuation_iff]

/-- a curly quote is converted -/
theorem kana_quote (m : Mode) {c : Char} (hc : c ∈ ['‘', '’', '“', '”']) (t : Str) :
    ∃ x r, kana m (c :: t) = x :: r ∧ 0x2100 ≤ x.toNat := by
  have h : ([Mode.normal, .obsolete, .ime].all fun m => ['‘', '’', '“', '”'].all fun c =>
      match (tree m).walk [toAsciiLowercase c] with
      | some n => n.transitions.isEmpty && (match n.output with | some (_ :: _) => true | _ => false)
      | none => false) = true := by decide +kernel
  have := List.all_eq_true.1 (List.all_eq_true.1 h m (by cases m <;> simp)) c hc
  cases hw : (tree m).walk [toAsciiLowercase c] with
  | none => rw [hw] at this; cases this
  | some n =>
    rw [hw] at this
    simp only [Bool.and_eq_true, List.isEmpty_iff] at this
    obtain ⟨hl, ho⟩ := this
    cases hout : n.output with
    | none => rw [hout] at ho; cases ho
    | some out =>
      rw [hout] at ho
      cases out with
      | nil => cases ho
      | cons x out =>
        have hst : KNode.Stops (tree m) (c :: t) n 1 :=
          ⟨by simp, by simpa [KNode.low] using hw, fun d _ => find_none_of_leaf hl _⟩
        have hge := styled_ge hst.walk hout ((c :: t).take 1)
        rw [kana_hit hst hout]
        cases hs : styled ((c :: t).take 1) (x :: out) with
        | nil => unfold styled at hs; split at hs <;> simp at hs
        | cons y l => exact ⟨y, _, rfl, hge y (by rw [hs]; simp)⟩

end WanaKana
