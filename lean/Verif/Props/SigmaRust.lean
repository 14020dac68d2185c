import Verif.Props.Sigma
import Verif.Props.BothWays
/-! # C138: capital sigma and the case mappings of Unicode -/

namespace WanaKana
open Spec (SigmaLowered)
open Unicode

/-! ## Kana do not decide which small sigma is used -/

theorem cased_no_kana : (casedRanges.all fun x => Nat.ble (x.2 + 1) 0x3041 || Nat.ble 0x30FD x.1) = true := by
  decide +kernel

theorem ignorable_no_kana : (ignorableRanges.all fun x => Nat.ble (x.2 + 1) 0x3041 ||
    (Nat.ble 0x3097 x.1 && Nat.ble (x.2 + 1) 0x30A1) || Nat.ble 0x30FB x.1) = true := by
  decide +kernel

theorem kana_not_cased {c : Char} (h1 : 0x3041 ≤ c.toNat) (h2 : c.toNat ≤ 0x30FC) : uniIn c.toNat casedRanges = false := by
  cases h : uniIn c.toNat casedRanges with
  | false => rfl
  | true =>
    obtain ⟨x, hx, g1, g2⟩ := uniIn_mem h
    have := List.all_eq_true.1 cased_no_kana x hx
    simp only [Bool.or_eq_true, Nat.ble_eq] at this
    omega

theorem kana_not_ignorable {c : Char} (h : 0x3041 ≤ c.toNat ∧ c.toNat ≤ 0x3096 ∨ 0x30A1 ≤ c.toNat ∧ c.toNat ≤ 0x30FA) :
    uniIn c.toNat ignorableRanges = false := by
  cases h' : uniIn c.toNat ignorableRanges with
  | false => rfl
  | true =>
    obtain ⟨x, hx, g1, g2⟩ := uniIn_mem h'
    have := List.all_eq_true.1 ignorable_no_kana x hx
    simp only [Bool.or_eq_true, Bool.and_eq_true, Nat.ble_eq] at this
    omega

theorem itc_cons (c : Char) (s : Str) : ignorableThenCased (c :: s) =
    if uniIn c.toNat ignorableRanges then ignorableThenCased s else uniIn c.toNat casedRanges := by
  unfold ignorableThenCased
  rw [List.dropWhile_cons]
  by_cases h : uniIn c.toNat ignorableRanges = true
  · rw [if_pos h, if_pos h]
  · rw [if_neg h, if_neg h]

theorem itc_snoc (s : Str) (c : Char) : ignorableThenCased (s ++ [c]).reverse =
    if uniIn c.toNat ignorableRanges then ignorableThenCased s.reverse else uniIn c.toNat casedRanges := by
  rw [List.reverse_append]
  exact itc_cons c s.reverse

theorem itc_uncased (l : Str) (hl : ∀ c ∈ l, uniIn c.toNat casedRanges = false) : ∀ s,
    ignorableThenCased s.reverse = false → ignorableThenCased (s ++ l).reverse = false := by
  induction l with
  | nil => intro s h; rwa [List.append_nil]
  | cons c l ih =>
    intro s h
    rw [List.append_cons]
    apply ih (fun c hc => hl c (List.mem_cons_of_mem _ hc))
    rw [itc_snoc, h, hl c List.mem_cons_self]
    split <;> rfl

theorem katakana_codes {c : Char} (hk : ¬ keeps c = true) (hd : ¬ isDash c = true) (ha : is_char_katakana c = true) :
    0x30A1 ≤ c.toNat ∧ c.toNat ≤ 0x30FA := by
  rw [is_char_katakana_iff] at ha
  rw [keeps_iff] at hk
  rw [isDash_iff] at hd
  omega

/-- what follows a sigma -/
theorem itc_k2h (std : Std) (s : Str) : ignorableThenCased (k2hP std false none s) = ignorableThenCased s := by
  induction s with
  | nil => rfl
  | cons c s ih =>
    rw [k2hP_cons]
    by_cases hk : keeps c = true
    · rw [if_pos hk, itc_cons, itc_cons, ih]
    · rw [if_neg hk]
      by_cases hd : isDash c = true
      · rw [if_pos hd]
        simp only
        rw [itc_cons, itc_cons, ih]
      · rw [if_neg hd]
        by_cases ha : is_char_katakana c = true
        · rw [if_pos ha, itc_cons, itc_cons]
          have h1 := katakana_codes hk hd ha
          have h2 := k2hChar_prevOk (Bool.eq_false_iff.2 hk) (Bool.eq_false_iff.2 hd) ha _ rfl
          rw [kana_not_ignorable (by omega), kana_not_ignorable (by omega), kana_not_cased (by omega) (by omega),
            kana_not_cased (by omega) (by omega)]
          rfl
        · rw [if_neg ha, itc_cons, itc_cons, ih]

/-- what precedes a sigma -/
theorem itc_k2h_back {std : Std} (hstd : std.Lawful) (s : Str) : ∀ prev out inp, PrevOk prev →
    ignorableThenCased out.reverse = ignorableThenCased inp.reverse →
    (prev ≠ none → ignorableThenCased inp.reverse = false) →
    ignorableThenCased (out ++ k2hP std false prev s).reverse = ignorableThenCased (inp ++ s).reverse := by
  induction s with
  | nil => intro prev out inp _ h _; rw [k2hP, List.append_nil, List.append_nil, h]
  | cons c s ih =>
    intro prev out inp hp h h'
    have same : ∀ prev', PrevOk prev' → (prev' ≠ none → ignorableThenCased (inp ++ [c]).reverse = false) →
        ignorableThenCased (out ++ c :: k2hP std false prev' s).reverse =
          ignorableThenCased (inp ++ c :: s).reverse := by
      intro prev' hp' hi
      rw [List.append_cons out, List.append_cons inp]
      exact ih prev' _ _ hp' (by rw [itc_snoc, itc_snoc, h]) hi
    rw [k2hP_cons]
    by_cases hk : keeps c = true
    · rw [if_pos hk]
      refine same prev hp fun hne => ?_
      rw [itc_snoc, h' hne]
      rw [keeps_iff] at hk
      rw [kana_not_cased (by omega) (by omega)]
      split <;> rfl
    · rw [if_neg hk]
      by_cases hd : isDash c = true
      · rw [if_pos hd]
        cases prev with
        | none => exact same none prevOk_none fun hne => absurd rfl hne
        | some p =>
          simp only
          have h0 := h' (by simp)
          rw [← List.append_assoc, List.append_cons inp]
          have h1 : ignorableThenCased (inp ++ [c]).reverse = false := by
            rw [isDash_iff] at hd
            rw [itc_snoc, h0, kana_not_cased (by omega) (by omega)]
            split <;> rfl
          refine ih (some p) _ _ hp ?_ fun _ => h1
          rw [h1]
          refine itc_uncased _ (fun d hd => ?_) _ (h.trans h0)
          have := longOut_mem hstd (hp p rfl).1 (hp p rfl).2 false c d hd
          simp only [List.mem_cons, List.not_mem_nil, or_false] at this
          rcases this with rfl | rfl | rfl | rfl | rfl <;> exact kana_not_cased (by decide) (by decide)
      · rw [if_neg hd]
        by_cases ha : is_char_katakana c = true
        · rw [if_pos ha, List.append_cons out, List.append_cons inp]
          have h1 := katakana_codes hk hd ha
          have hp' := k2hChar_prevOk (Bool.eq_false_iff.2 hk) (Bool.eq_false_iff.2 hd) ha
          have h2 := hp' _ rfl
          have e1 : ignorableThenCased (inp ++ [c]).reverse = false := by
            rw [itc_snoc, kana_not_ignorable (by omega), kana_not_cased (by omega) (by omega)]; rfl
          have e2 : ignorableThenCased (out ++ [k2hChar c]).reverse = false := by
            rw [itc_snoc, kana_not_ignorable (by omega), kana_not_cased (by omega) (by omega)]; rfl
          exact ih _ _ _ hp' (by rw [e1, e2]) fun _ => e1
        · rw [if_neg ha]
          exact same none prevOk_none fun hne => absurd rfl hne

/-- the choice of sigma is the same before and after `katakana_to_hiragana` -/
theorem finalSigma_k2h (search : List Char → Char → Option Nat) (std : Std)
    (h : std.Lawful) (a b : Str) :
    (unicodeStd search).finalSigma (k2hP std false none a) (k2hP std false none b) =
      (unicodeStd search).finalSigma a b := by
  show (ignorableThenCased _ && !ignorableThenCased _) = (ignorableThenCased _ && !ignorableThenCased _)
  rw [itc_k2h]
  have := itc_k2h_back h a none [] [] prevOk_none rfl (fun h => absurd rfl h)
  rw [List.nil_append, List.nil_append] at this
  rw [this]

/-! ## Replacing the sigmas first -/

/-- replaces the capital sigmas as `str::to_lowercase` does -/
def sigmas (std : Std) : Str → Str → Str
  | _, [] => []
  | pre, c :: s => (if c = 'Σ' then (if std.finalSigma pre s then 'ς' else 'σ') else c) :: sigmas std (pre ++ [c]) s

theorem sigmas_lowered (std : Std) (s : Str) : ∀ pre, SigmaLowered s (sigmas std pre s) := by
  induction s with
  | nil => intro _; exact .nil
  | cons c s ih =>
    intro pre
    rw [sigmas]
    by_cases hc : c = 'Σ'
    · subst hc
      rw [if_pos rfl]
      exact .sigma (by split <;> simp) (ih _)
    · rw [if_neg hc]
      exact .keep hc (ih _)

theorem sigmas_lower {std : Std} (hstd : std.Lawful) (s : Str) : ∀ pre,
    std.lowerFrom pre s = (sigmas std pre s).flatMap std.lowerChar := by
  induction s with
  | nil => intro _; rfl
  | cons c s ih =>
    intro pre
    rw [Std.lowerFrom, sigmas, List.flatMap_cons, ih]
    by_cases hc : c = 'Σ'
    · rw [if_pos hc, if_pos hc]
      split
      · rw [hstd.lowerChar_sigma.2]
      · rw [hstd.lowerChar_sigma.1]
    · rw [if_neg hc, if_neg hc]

theorem sigmas_toLowercase {std : Std} (hstd : std.Lawful) (s : Str) :
    std.toLowercase s = std.toLowercase (sigmas std [] s) := by
  unfold Std.toLowercase
  rw [sigmas_lower hstd, lower_noSigma std _ (sigmaLowered_noSigma (sigmas_lowered std s []))]

theorem sigmas_append (std : Std) (x y : Str) (hx : 'Σ' ∉ x) : ∀ pre,
    sigmas std pre (x ++ y) = x ++ sigmas std (pre ++ x) y := by
  induction x with
  | nil => intro pre; rw [List.nil_append, List.nil_append, List.append_nil]
  | cons c x ih =>
    intro pre
    rw [List.cons_append, sigmas, if_neg (fun e => hx (by rw [e]; exact List.mem_cons_self)),
      ih (fun hm => hx (List.mem_cons_of_mem _ hm)), List.cons_append, ← List.append_cons]

theorem k2hP_one_noSigma {std : Std} (hstd : std.Lawful) {c : Char} (hc : c ≠ 'Σ') {prev : Option Char} (hp : PrevOk prev) :
    'Σ' ∉ k2hP std false prev [c] := by
  have hc' : ¬ 'Σ' ∈ [c] := by simp [Ne.symm hc]
  rw [k2hP_cons]
  by_cases hk : keeps c = true
  · rw [if_pos hk, k2hP]; exact hc'
  · rw [if_neg hk]
    by_cases hd : isDash c = true
    · rw [if_pos hd]
      cases prev with
      | none => simp only; rw [k2hP]; exact hc'
      | some p =>
        simp only
        rw [k2hP, List.append_nil]
        intro hm
        exact absurd (longOut_mem hstd (hp p rfl).1 (hp p rfl).2 false c _ hm) (by decide)
    · rw [if_neg hd]
      by_cases ha : is_char_katakana c = true
      · rw [if_pos ha, k2hP]
        have h2 := k2hChar_prevOk (Bool.eq_false_iff.2 hk) (Bool.eq_false_iff.2 hd) ha _ rfl
        intro hm
        rw [List.mem_singleton] at hm
        rw [← hm] at h2
        exact absurd h2 (by decide)
      · rw [if_neg ha, k2hP]; exact hc'

theorem k2hP_sigma (std : Std) {c : Char} (hc : c ∈ ['Σ', 'σ', 'ς']) (prev : Option Char) (s : Str) :
    k2hP std false prev (c :: s) = c :: k2hP std false none s ∧ k2hPrev prev [c] = none := by
  simp only [List.mem_cons, List.not_mem_nil, or_false] at hc
  rw [k2hP_cons, k2hPrev]
  rcases hc with rfl | rfl | rfl <;> exact ⟨rfl, rfl⟩

/-- replacing the sigmas and converting the katakana commute -/
theorem sigmas_k2h (search : List Char → Char → Option Nat) (std : Std)
    (h : std.Lawful) (s : Str) : ∀ a,
    sigmas (unicodeStd search) (k2hP std false none a) (k2hP std false (k2hPrev none a) s) =
      k2hP std false (k2hPrev none a) (sigmas (unicodeStd search) a s) := by
  induction s with
  | nil => intro a; rfl
  | cons c s ih =>
    intro a
    have ih := ih (a ++ [c])
    rw [k2hP_append, k2hPrev_append] at ih
    rw [sigmas]
    by_cases hc : c = 'Σ'
    · subst hc
      rw [if_pos rfl]
      obtain ⟨e1, e2⟩ := k2hP_sigma std (c := 'Σ') (by simp) (k2hPrev none a) s
      obtain ⟨e3, _⟩ := k2hP_sigma std (c := 'Σ') (by simp) (k2hPrev none a) []
      rw [e1, sigmas, if_pos rfl, finalSigma_k2h search std h]
      have hd : (if (unicodeStd search).finalSigma a s = true then 'ς' else 'σ') ∈ ['Σ', 'σ', 'ς'] := by
        split <;> simp
      rw [(k2hP_sigma std hd (k2hPrev none a) _).1]
      rw [e2, e3, k2hP] at ih
      rw [ih]
    · rw [if_neg hc]
      have hs : k2hP std false (k2hPrev none a) (c :: s) =
          k2hP std false (k2hPrev none a) [c] ++ k2hP std false (k2hPrev (k2hPrev none a) [c]) s :=
        k2hP_append std false [c] s _
      have hs' : k2hP std false (k2hPrev none a) (c :: sigmas (unicodeStd search) (a ++ [c]) s) =
          k2hP std false (k2hPrev none a) [c] ++
            k2hP std false (k2hPrev (k2hPrev none a) [c]) (sigmas (unicodeStd search) (a ++ [c]) s) :=
        k2hP_append std false [c] _ _
      rw [hs, hs', sigmas_append _ _ _ (k2hP_one_noSigma h hc (k2hPrev_ok a prevOk_none)), ih]

/-! ## The conversions -/

/-- texts that differ only in sigmas -/
inductive Alike : Str → Str → Prop
  | nil : Alike [] []
  | cons {c d : Char} {s t : Str} : c = d ∨ (c ∈ ['Σ', 'σ', 'ς'] ∧ d ∈ ['Σ', 'σ', 'ς']) → Alike s t →
      Alike (c :: s) (d :: t)

theorem Alike.of_lowered {s t : Str} (h : SigmaLowered s t) : Alike s t := by
  induction h with
  | nil => exact .nil
  | keep _ _ ih => exact .cons (Or.inl rfl) ih
  | @sigma d s t hd _ ih =>
    refine .cons (Or.inr ⟨by simp, ?_⟩) ih
    simp only [List.mem_cons, List.not_mem_nil, or_false] at hd ⊢
    exact Or.inr hd

theorem Alike.symm {s t : Str} (h : Alike s t) : Alike t s := by
  induction h with
  | nil => exact .nil
  | cons hc _ ih => exact .cons (hc.imp Eq.symm And.symm) ih

theorem Alike.append {a a' b b' : Str} (h : Alike a a') (h' : Alike b b') : Alike (a ++ b) (a' ++ b') := by
  induction h with
  | nil => exact h'
  | cons hc _ ih => exact .cons hc ih

theorem Alike.reverse {s t : Str} (h : Alike s t) : Alike s.reverse t.reverse := by
  induction h with
  | nil => exact .nil
  | cons hc _ ih => rw [List.reverse_cons, List.reverse_cons]; exact ih.append (.cons hc .nil)

theorem Alike.split (a b : Str) : ∀ {t}, Alike (a ++ b) t → ∃ a' b', t = a' ++ b' ∧ Alike a a' ∧ Alike b b' := by
  induction a with
  | nil => intro t h; exact ⟨[], t, rfl, .nil, h⟩
  | cons c a ih =>
    intro t h
    cases h with
    | @cons _ d _ t hc h =>
      obtain ⟨a', b', rfl, h1, h2⟩ := ih h
      exact ⟨d :: a', b', rfl, .cons hc h1, h2⟩

theorem Alike.mem {s t : Str} (h : Alike s t) {c : Char} (hc : c ∈ s) (hn : c ∉ ['Σ', 'σ', 'ς']) : c ∈ t := by
  induction h with
  | nil => cases hc
  | cons hd _ ih =>
    rcases List.mem_cons.1 hc with rfl | hc
    · rcases hd with rfl | ⟨h1, _⟩
      · exact List.mem_cons_self
      · exact absurd h1 hn
    · exact List.mem_cons_of_mem _ (ih hc)

theorem Alike.governing {a b : Str} (h : Alike a b) {g : Char} (hn : g ∉ ['Σ', 'σ', 'ς'])
    (hg : Spec.governing a = some g) : Spec.governing b = some g := by
  unfold Spec.governing at hg ⊢
  have h := h.reverse
  generalize a.reverse = a at *
  generalize b.reverse = b at *
  induction h with
  | nil => exact hg
  | @cons c d s t hc h ih =>
    rw [List.dropWhile_cons] at hg ⊢
    rcases hc with rfl | ⟨h1, h2⟩
    · split at hg
      · rename_i hx; rw [if_pos hx]; exact ih hg
      · rename_i hx; rw [if_neg hx]; exact hg
    · have : ¬ c ∈ Spec.chain := by
        simp only [List.mem_cons, List.not_mem_nil, or_false] at h1
        rcases h1 with rfl | rfl | rfl <;> decide
      rw [if_neg (by simpa using this)] at hg
      simp only [List.head?_cons, Option.some.injEq] at hg
      rw [hg] at h1
      exact absurd h1 hn

theorem Alike.mixed {s t : Str} (h : Alike s t) (hm : is_mixed s = true) : is_mixed t = true := by
  rw [C04_is_mixed] at *
  obtain ⟨⟨c, hc, hk⟩, d, hd, hr⟩ := hm
  have n1 : ∀ c ∈ ['Σ', 'σ', 'ς'], ¬ Spec.Kana c := by decide
  have n2 : ∀ c ∈ ['Σ', 'σ', 'ς'], ¬ Spec.Romaji c := by decide
  exact ⟨⟨c, h.mem hc fun h => n1 c h hk, hk⟩, d, h.mem hd fun h => n2 d h hr, hr⟩

theorem Alike.noLoss {s t : Str} (h : Alike s t) (hl : (∀ c ∈ s, c ∉ ['ヷ', 'ヸ', 'ヹ', 'ヺ']) ∧
    ∀ a b g, s = a ++ 'ー' :: b → Spec.governing a = some g → ¬ Spec.KatakanaLetter g) :
    (∀ c ∈ t, c ∉ ['ヷ', 'ヸ', 'ヹ', 'ヺ']) ∧
      ∀ a b g, t = a ++ 'ー' :: b → Spec.governing a = some g → ¬ Spec.KatakanaLetter g := by
  constructor
  · intro c hc hm
    refine hl.1 c (h.symm.mem hc ?_) hm
    have : ∀ c ∈ ['ヷ', 'ヸ', 'ヹ', 'ヺ'], c ∉ ['Σ', 'σ', 'ς'] := by decide
    exact this c hm
  · rintro a b g rfl hg hk
    obtain ⟨a', b', e, h1, h2⟩ := Alike.split a ('ー' :: b) h.symm
    cases h2 with
    | @cons _ d _ b' hd _ =>
      have : d = 'ー' := by
        rcases hd with h | ⟨h, _⟩
        · exact h.symm
        · exact absurd h (by decide)
      subst this
      refine hl.2 a' b' g e (h1.governing ?_ hg) hk
      intro hm
      have : ∀ c ∈ ['Σ', 'σ', 'ς'], ¬ Spec.KatakanaLetter c := by decide
      exact this g hm hk

theorem sigmas_convert {search : List Char → Char → Option Nat} (hstd : (unicodeStd search).Lawful) (s : Str)
    (o : Options) (ho : ¬ o.pass_romaji = true) (hm : is_mixed s = true) :
    hiraP (unicodeStd search) s o = hiraP (unicodeStd search) (sigmas (unicodeStd search) [] s) o ∧
    kataP (unicodeStd search) s o = kataP (unicodeStd search) (sigmas (unicodeStd search) [] s) o := by
  have hm' := (Alike.of_lowered (sigmas_lowered (unicodeStd search) s [])).mixed hm
  constructor
  · unfold hiraP
    rw [if_neg ho, if_neg ho, if_pos hm, if_pos hm', sigmas_toLowercase hstd]
    have := sigmas_k2h search _ hstd s []
    simp only [k2hP, k2hPrev] at this
    rw [this]
  · unfold kataP
    rw [if_neg ho, if_neg ho, if_pos (by simp [hm]), if_pos (by simp [hm']), sigmas_toLowercase hstd]

/-- **C138** With the case mappings of Unicode a text with kana and romaji is converted, to hiragana and to katakana, like
the same text with its capital sigmas replaced by small ones as lower-casing does. -/
theorem C138_sigma {search : List Char → Char → Option Nat} (hstd : (unicodeStd search).Lawful) (s : Str) (o : Options)
    (ho : o.pass_romaji = false) (hm : is_mixed s = true) : ∃ t, SigmaLowered s t ∧
    (unicodeStd search).toLowercase t = (unicodeStd search).toLowercase s ∧
    to_hiragana_with_opt (unicodeStd search) s o = to_hiragana_with_opt (unicodeStd search) t o ∧
    to_katakana_with_opt (unicodeStd search) s o = to_katakana_with_opt (unicodeStd search) t o := by
  obtain ⟨h1, h2⟩ := sigmas_convert hstd s o (by simp [ho]) hm
  refine ⟨_, sigmas_lowered _ s [], (sigmas_toLowercase hstd s).symm, ?_, ?_⟩
  · rw [to_hiragana_eq hstd, to_hiragana_eq hstd, h1]
  · rw [to_katakana_eq hstd, to_katakana_eq hstd, h2]

/-- **C138** C94 for texts with capital sigmas: to katakana by way of hiragana -/
theorem C138_katakana {search : List Char → Char → Option Nat} (hstd : (unicodeStd search).Lawful) (s h k : Str)
    (o : Options) (hq : o.pass_romaji = true ∨
      ∀ c, s.head? = some c → Spec.EnglishPunct c → is_mixed s = true ∨ is_romaji s = true)
    (hh : to_hiragana_with_opt (unicodeStd search) s o = .ok h)
    (hk : to_katakana_with_opt (unicodeStd search) s o = .ok k) :
    to_katakana_with_opt (unicodeStd search) h o = .ok k ↔
      (∀ c ∈ s, c ∉ ['ヷ', 'ヸ', 'ヹ', 'ヺ']) ∧
      (∀ a b g, s = a ++ 'ー' :: b → Spec.governing a = some g → ¬ Spec.KatakanaLetter g) ∧
      (o.pass_romaji = true ∨ (o.imemode = true ∧ o.use_obsolete_kana = false) ∨ ¬ ['n', 'っ'] <:+: h) := by
  by_cases hp : o.pass_romaji = true
  · exact C94_katakana hstd s h k o (Or.inl hp) hh hk
  · by_cases hm : is_mixed s = true
    · obtain ⟨h1, h2⟩ := sigmas_convert hstd s o hp hm
      have hal := (Alike.of_lowered (sigmas_lowered (unicodeStd search) s []))
      have hm' := hal.mixed hm
      rw [to_hiragana_eq hstd, h1, ← to_hiragana_eq hstd] at hh
      rw [to_katakana_eq hstd, h2, ← to_katakana_eq hstd] at hk
      rw [C94_katakana hstd _ h k o (Or.inr ⟨fun _ => sigmaLowered_noSigma (sigmas_lowered _ s []),
        fun _ _ _ => Or.inl hm'⟩) hh hk, ← and_assoc, ← and_assoc]
      exact and_congr_left fun _ => ⟨hal.symm.noLoss, hal.noLoss⟩
    · exact C94_katakana hstd s h k o (Or.inr ⟨fun h => absurd h hm, hq.resolve_left hp⟩) hh hk

/-- **C138** C94 for texts with capital sigmas: to hiragana by way of katakana -/
theorem C138_hiragana {search : List Char → Char → Option Nat} (hstd : (unicodeStd search).Lawful) (s h k : Str)
    (o : Options) (hq : o.pass_romaji = true ∨
      ∀ c, s.head? = some c → Spec.EnglishPunct c → is_mixed s = true ∨ is_romaji s = true)
    (hh : to_hiragana_with_opt (unicodeStd search) s o = .ok h)
    (hk : to_katakana_with_opt (unicodeStd search) s o = .ok k) :
    to_hiragana_with_opt (unicodeStd search) k o = .ok h ↔
      'ゕ' ∉ h ∧ 'ゖ' ∉ h ∧
      (∀ a b g, h = a ++ 'ー' :: b → Spec.governing a = some g → ¬ Spec.HiraganaLetter g) ∧
      (o.pass_romaji = true ∨ (o.imemode = true ∧ o.use_obsolete_kana = false) ∨ ¬ ['n', 'っ'] <:+: h) := by
  by_cases hp : o.pass_romaji = true
  · exact C94_hiragana hstd s h k o (Or.inl hp) hh hk
  · by_cases hm : is_mixed s = true
    · obtain ⟨h1, h2⟩ := sigmas_convert hstd s o hp hm
      have hm' := (Alike.of_lowered (sigmas_lowered (unicodeStd search) s [])).mixed hm
      rw [to_hiragana_eq hstd, h1, ← to_hiragana_eq hstd] at hh
      rw [to_katakana_eq hstd, h2, ← to_katakana_eq hstd] at hk
      exact C94_hiragana hstd _ h k o (Or.inr ⟨fun _ => sigmaLowered_noSigma (sigmas_lowered _ s []),
        fun _ _ _ => Or.inl hm'⟩) hh hk
    · exact C94_hiragana hstd s h k o (Or.inr ⟨fun h => absurd h hm, hq.resolve_left hp⟩) hh hk

/-- the claims hold for current Rust -/
example (s : Str) (hm : is_mixed s = true) : ∃ t, SigmaLowered s t ∧ rustStd.toLowercase t = rustStd.toLowercase s ∧
    to_hiragana_with_opt rustStd s {} = to_hiragana_with_opt rustStd t {} ∧
    to_katakana_with_opt rustStd s {} = to_katakana_with_opt rustStd t {} :=
  C138_sigma rustStd_lawful s {} rfl hm

/-- both small sigmas occur -/
example : to_hiragana_with_opt rustStd "アーΣ kaΣ アkaΣa".toList {} = .ok "ああσ かς あかσあ".toList ∧
    to_katakana_with_opt rustStd "アーΣ kaΣ アkaΣa".toList {} = .ok "アーσ カς アカσア".toList := by decide +kernel

end WanaKana
