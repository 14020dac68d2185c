import Verif.Props.Platform
import Verif.Spec.Platform2
/-! # C102: exactly which texts have the same hiragana with every standard library -/

namespace WanaKana

theorem toHira_letter_vu {g : Char} (h : Spec.KatakanaLetter g) (e : Spec.toHira g = 'ゔ') : g = 'ヴ' := by
  have hc : ((List.range 0x30fb).all fun n => decide (n < 0x30a1) ||
      decide (Spec.toHira (Char.ofNat n) = 'ゔ' → Char.ofNat n = 'ヴ')) = true := by decide +kernel
  unfold Spec.KatakanaLetter Spec.In at h
  have := List.all_eq_true.1 hc g.toNat (List.mem_range.2 (by omega))
  rw [Char.ofNat_toNat, Bool.or_eq_true, decide_eq_true_iff, decide_eq_true_iff] at this
  exact this.resolve_left (by omega) e

theorem hiraFromV_same (x x' : Char) (d : Bool) (s : Str) : ∀ before : Str,
    (∀ pre post, s = pre ++ 'ー' :: post → Spec.governing (before ++ pre) ≠ some 'ヴ') →
    Spec.hiraFromV x d before s = Spec.hiraFromV x' d before s := by
  induction s with
  | nil => intro _ _; rfl
  | cons c s ih =>
    intro before h
    rw [Spec.hiraFromV, Spec.hiraFromV, ih (before ++ [c]) (fun pre post e => by
      have := h (c :: pre) post (by rw [e]; rfl)
      simpa using this)]
    congr 1
    by_cases hc : c = 'ー'
    · rw [if_pos hc, if_pos hc]
      have hg := h [] s (by rw [hc]; rfl)
      rw [List.append_nil] at hg
      unfold Spec.markAfterV
      cases hgv : Spec.governing before with
      | none => rfl
      | some g =>
        simp only
        by_cases hk : Spec.KatakanaLetter g
        · rw [if_pos hk, if_pos hk]
          unfold Spec.longVowelV
          have : Spec.toHira g ≠ 'ゔ' := fun e => hg (by rw [hgv, toHira_letter_vu hk e])
          rw [if_neg this, if_neg this]
        · rw [if_neg hk, if_neg hk]
    · rw [if_neg hc, if_neg hc]

theorem firstVu (n : Nat) : ∀ s : Str, s.length ≤ n → Spec.ProlongedVu s →
    ∃ pre post, s = pre ++ 'ー' :: post ∧ Spec.governing pre = some 'ヴ' ∧ ¬ Spec.ProlongedVu pre := by
  induction n with
  | zero =>
    rintro s hs ⟨pre, post, rfl, -⟩
    simp at hs
  | succ n ih =>
    rintro s hs ⟨pre, post, rfl, hg⟩
    by_cases hp : Spec.ProlongedVu pre
    · obtain ⟨p, q, rfl, h1, h2⟩ := ih pre (by simp at hs; omega) hp
      exact ⟨p, q ++ 'ー' :: post, by simp, h1, h2⟩
    · exact ⟨pre, post, rfl, hg, hp⟩

theorem hiraFromV_not (x x' : Char) (d : Bool) {s : Str} (h : ¬ Spec.ProlongedVu s) :
    Spec.hiraFromV x d [] s = Spec.hiraFromV x' d [] s :=
  hiraFromV_same x x' d s [] fun pre post e hg => h ⟨pre, post, e, by simpa using hg⟩

theorem k2hP_form_vu {std : Std} (hstd : std.Lawful) (d : Bool) (s : Str) :
    k2hP std d none s = Spec.hiraFromV (vuOf std) d [] s := by
  have := k2hP_hiraFromV hstd d s []
  rwa [show k2hPrev none [] = none from rfl] at this

/-- two searches after which the vowel of the first prolonged ヴ differs -/
theorem vu_first_differ (d : Bool) {s : Str} (h : Spec.ProlongedVu s) : ∃ a v w b b',
    k2hP modernStd d none s = a ++ v :: b ∧ k2hP secondStd d none s = a ++ w :: b' ∧ v ≠ w ∧
    v ∈ ['う', 'お'] ∧ w = 'あ' := by
  obtain ⟨pre, post, rfl, hg, hn⟩ := firstVu _ _ (Nat.le_refl _) h
  rw [k2hP_form_vu modernStd_lawful, k2hP_form_vu secondStd_lawful, vu_modern.1, vu_second.1,
    hiraFromV_append, hiraFromV_append, hiraFromV_not 'o' 'a' d hn, Spec.hiraFromV, Spec.hiraFromV, if_pos rfl, if_pos rfl,
    List.nil_append]
  refine ⟨Spec.hiraFromV 'a' d [] pre, if d then 'お' else 'う', 'あ', Spec.hiraFromV 'o' d (pre ++ ['ー']) post,
    Spec.hiraFromV 'a' d (pre ++ ['ー']) post, ?_, ?_, ?_, ?_, rfl⟩
  · congr 1
    rw [show Spec.markAfterV 'o' d pre = [if d then 'お' else 'う'] by
      unfold Spec.markAfterV; rw [hg]; cases d <;> decide]
    rfl
  · congr 1
    rw [show Spec.markAfterV 'a' d pre = ['あ'] by
      unfold Spec.markAfterV; rw [hg]; cases d <;> decide]
    rfl
  · cases d <;> decide
  · cases d <;> decide

/-- **C102** the hiragana of a text are the same with every conforming standard library exactly if no long vowel mark
prolongs ヴ -/
theorem C102_shift (s : Str) (d : Bool) : (∀ std std' : Std, std.Lawful → std'.Lawful →
    katakana_to_hiragana_with_opt std s d = katakana_to_hiragana_with_opt std' s d) ↔ ¬ Spec.ProlongedVu s := by
  constructor
  · intro h hv
    obtain ⟨a, v, w, b, b', h1, h2, hne, -⟩ := vu_first_differ d hv
    have := h modernStd secondStd modernStd_lawful secondStd_lawful
    rw [k2h_eq modernStd_lawful, k2h_eq secondStd_lawful, h1, h2, Except.ok.injEq] at this
    have := List.append_cancel_left this
    rw [List.cons.injEq] at this
    exact hne this.1
  · intro h std std' hstd hstd'
    rw [k2h_eq hstd, k2h_eq hstd', k2hP_form_vu hstd, k2hP_form_vu hstd', hiraFromV_not _ _ d h]

theorem lowerFrom_stdWith (f g : List Char → Char → Option Nat) (s : Str) : ∀ pre pre',
    (stdWith f).lowerFrom pre s = (stdWith g).lowerFrom pre' s := by
  induction s with
  | nil => intro _ _; rfl
  | cons c s ih =>
    intro pre pre'
    rw [Std.lowerFrom, Std.lowerFrom, ih (pre ++ [c]) (pre' ++ [c])]
    rfl

theorem lower_stdWith_append (f : List Char → Char → Option Nat) (a b : Str) : ∀ pre,
    (stdWith f).lowerFrom pre (a ++ b) = (stdWith f).lowerFrom pre a ++ (stdWith f).lowerFrom [] b := by
  induction a with
  | nil => intro pre; exact lowerFrom_stdWith f f b pre []
  | cons c a ih =>
    intro pre
    rw [List.cons_append, Std.lowerFrom, Std.lowerFrom, ih, List.append_assoc]
    rfl

theorem lower_stdWith_vowel (f : List Char → Char → Option Nat) (a b : Str) {v : Char} (hv : v ∈ ['あ', 'う', 'お']) :
    (stdWith f).toLowercase (a ++ v :: b) = (stdWith f).toLowercase a ++ v :: (stdWith f).toLowercase b := by
  unfold Std.toLowercase
  rw [lower_stdWith_append, Std.lowerFrom, lowerFrom_stdWith f f b _ []]
  have : (if v = 'Σ' then (if (stdWith f).finalSigma [] b then ['ς'] else ['σ']) else (stdWith f).lowerChar v) = [v] := by
    simp only [List.mem_cons, List.not_mem_nil, or_false] at hv
    rcases hv with rfl | rfl | rfl <;> rfl
  rw [this]
  rfl

/-- a text with ヴ but without romaji is converted as romaji exactly if it begins with a quotation mark -/
theorem vu_not_romaji {s : Str} (h : 'ヴ' ∈ s) (hr : ∀ c ∈ s, ¬ Spec.Romaji c) :
    (is_romaji s || ((s.head?).map is_char_english_punctuation).getD false) = true ↔
      ∃ q ∈ ['‘', '’', '“', '”'], s.head? = some q := by
  have h1 : is_romaji s = false := by
    rw [← Bool.not_eq_true, C01_is_romaji]
    rintro ⟨-, hi⟩
    exact hr _ h (hi _ h)
  rw [h1, Bool.false_or]
  cases hh : s.head? with
  | none => simp
  | some c =>
    rw [Option.map_some, Option.getD_some, is_char_english_punctuation_iff]
    obtain ⟨t, rfl⟩ := List.head?_eq_some_iff.1 hh
    have hc := hr c (by simp)
    simp only [Option.some.injEq, exists_eq_right']
    unfold Spec.Romaji Spec.Ascii at hc
    rw [not_or] at hc
    unfold Spec.EnglishPunct Spec.In
    constructor
    · rintro (h | h | h | h | h)
      · omega
      · omega
      · omega
      · omega
      · exact h
    · exact fun h => Or.inr (Or.inr (Or.inr (Or.inr h)))

/-- **C102** `to_hiragana` gives the same result with all conforming standard libraries that lower-case alike, exactly if
no long vowel mark prolongs ヴ, or the text begins with a typographic quotation mark and contains no romaji (then its
kana are left as they are unless `pass_romaji` is set) -/
theorem C102_to_hiragana (s : Str) (o : Options) : (∀ std std' : Std, std.Lawful → std'.Lawful →
    (∀ t, std.toLowercase t = std'.toLowercase t) → to_hiragana_with_opt std s o = to_hiragana_with_opt std' s o) ↔
    (Spec.ProlongedVu s →
      o.pass_romaji = false ∧ (∀ c ∈ s, ¬ Spec.Romaji c) ∧ ∃ q ∈ ['‘', '’', '“', '”'], s.head? = some q) := by
  have hvm : Spec.ProlongedVu s → 'ヴ' ∈ s := by
    rintro ⟨pre, post, rfl, hg⟩
    exact List.mem_append_left _ (governing_mem hg).1
  have hmix : 'ヴ' ∈ s → is_mixed s = false → ∀ c ∈ s, ¬ Spec.Romaji c := by
    intro h hm c hc hcr
    have := (C04_is_mixed s).2 ⟨⟨'ヴ', h, by decide⟩, ⟨c, hc, hcr⟩⟩
    rw [hm] at this
    cases this
  constructor
  · intro h hv
    obtain ⟨a, v, w, b, b', h1, h2, hne, hv', rfl⟩ := vu_first_differ false hv
    have e := h modernStd secondStd modernStd_lawful secondStd_lawful
      (fun t => lowerFrom_stdWith modernSearch secondSearch t [] [])
    rw [to_hiragana_eq modernStd_lawful, to_hiragana_eq secondStd_lawful, Except.ok.injEq, hiraP, hiraP] at e
    have hk : k2hP modernStd false none s ≠ k2hP secondStd false none s := by
      rw [h1, h2]
      intro e
      have := List.append_cancel_left e
      rw [List.cons.injEq] at this
      exact hne this.1
    have hm : ∀ m : Mode, kana m (modernStd.toLowercase (k2hP modernStd false none s)) ≠
        kana m (secondStd.toLowercase (k2hP secondStd false none s)) := by
      intro m
      have hv2 : v ∈ ['あ', 'う', 'お'] := List.mem_cons_of_mem _ hv'
      have hi : Inert m v := by
        apply inert_of_ge
        simp only [List.mem_cons, List.not_mem_nil, or_false] at hv'
        rcases hv' with rfl | rfl <;> decide
      have hi' : Inert m 'あ' := inert_of_ge (by decide)
      rw [h1, h2]
      unfold modernStd secondStd
      rw [lower_stdWith_vowel _ _ _ hv2, lower_stdWith_vowel _ _ _ (by simp), kana_append_inert _ hi, kana_append_inert _ hi',
        show (stdWith modernSearch).toLowercase a = (stdWith secondSearch).toLowercase a from
          lowerFrom_stdWith modernSearch secondSearch a [] []]
      intro e
      have := List.append_cancel_left e
      rw [List.cons.injEq] at this
      exact hne this.1
    split at e
    · exact absurd e hk
    · rename_i hp
      refine ⟨by simpa using hp, ?_⟩
      split at e
      · exact absurd e (hm _)
      · rename_i hmi
        have hr := hmix (hvm hv) (by simpa using hmi)
        refine ⟨hr, (vu_not_romaji (hvm hv) hr).1 ?_⟩
        split at e
        · rename_i hh; exact hh
        · exact absurd e hk
  · intro h std std' hstd hstd' hl
    by_cases hv : Spec.ProlongedVu s
    · obtain ⟨h1, h2, h3⟩ := h hv
      have hmi : is_mixed s = false := by
        rw [← Bool.not_eq_true, C04_is_mixed]
        rintro ⟨-, c, hc, hr⟩
        exact h2 c hc hr
      rw [to_hiragana_eq hstd, to_hiragana_eq hstd', hiraP, hiraP, h1, hmi, (vu_not_romaji (hvm hv) h2).2 h3, hl s]
      rfl
    · have h2 : k2hP std false none s = k2hP std' false none s := by
        rw [k2hP_form_vu hstd, k2hP_form_vu hstd', hiraFromV_not _ _ _ hv]
      rw [to_hiragana_eq hstd, to_hiragana_eq hstd', hiraP, hiraP, hl s, ← h2, hl (k2hP std false none s)]

/-- ヴー depends on the search, also in a mixed text -/
example : Spec.ProlongedVu "ヴー".toList ∧ Spec.ProlongedVu "aヴ・ー".toList ∧ ¬ Spec.ProlongedVu "ヴェラーゔー".toList ∧
    to_hiragana modernStd "ヴー".toList = .ok "ゔう".toList ∧ to_hiragana secondStd "ヴー".toList = .ok "ゔあ".toList ∧
    to_hiragana modernStd "‘ヴー’".toList = .ok "「ヴー」".toList := by
  refine ⟨⟨['ヴ'], [], rfl, by decide⟩, ⟨['a', 'ヴ', '・'], [], rfl, by decide⟩, ?_, by decide +kernel, by decide +kernel, by decide +kernel⟩
  rintro ⟨pre, post, e, h⟩
  have hl := congrArg List.length e
  match pre, e, h with
  | [], e, h => cases e
  | [_], e, h => cases e
  | [_, _], e, h => cases e
  | [_, _, _], e, h => cases e; revert h; decide
  | [_, _, _, _], e, h => cases e
  | [_, _, _, _, _], e, h => cases e; revert h; decide
  | _ :: _ :: _ :: _ :: _ :: _ :: _, e, h => simp at hl

end WanaKana
