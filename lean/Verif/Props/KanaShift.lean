import Verif.Proofs.K2h
import Verif.Proofs.StdConcrete
import Verif.Spec.KanaShift
/-! # C22–C26: the hiragana ↔ katakana conversions -/

namespace WanaKana
open RNode

/-! ## C22 -/

theorem h2kP_eq_toKata (c : Char) : h2kP c = Spec.toKata c := by
  apply char_ext
  rw [h2kP_toNat]
  by_cases h : Spec.HiraganaLetter c
  · have h' : 0x3041 ≤ c.toNat ∧ c.toNat ≤ 0x3096 := h
    rw [Spec.toKata, if_pos h, if_pos h', toNat_ofNat_lt (by omega)]
  · have h' : ¬ (0x3041 ≤ c.toNat ∧ c.toNat ≤ 0x3096) := h
    rw [Spec.toKata, if_neg h, if_neg h']

/-- **C22** `hiragana_to_katakana` returns for every text; the i-th character of the result is
the katakana counterpart of the i-th character of the input. -/
theorem C22_charwise (s : Str) : hiragana_to_katakana s = .ok (s.map Spec.toKata) := by
  rw [hiragana_to_katakana_eq]
  rw [List.map_congr_left fun c _ => h2kP_eq_toKata c]

example : hiragana_to_katakana "ひらがな ゖa漢ー".toList = .ok "ヒラガナ ヶa漢ー".toList := by decide +kernel

/-- **C22** no hiragana letter is left -/
theorem C22_no_hiragana (s r : Str) (h : hiragana_to_katakana s = .ok r) :
    ∀ c ∈ r, ¬ Spec.HiraganaLetter c := by
  rw [hiragana_to_katakana_eq] at h
  cases h
  intro c hc hl
  obtain ⟨d, _, rfl⟩ := List.mem_map.1 hc
  have hl' : 0x3041 ≤ (h2kP d).toNat ∧ (h2kP d).toNat ≤ 0x3096 := hl
  rw [h2kP_toNat] at hl'
  split at hl' <;> omega

/-- **C22** idempotent -/
theorem C22_idempotent (s r : Str) (h : hiragana_to_katakana s = .ok r) :
    hiragana_to_katakana r = .ok r := by
  rw [hiragana_to_katakana_eq] at h ⊢
  cases h
  rw [List.map_map]
  congr 1
  exact List.map_congr_left fun c _ => h2kP_idem c

/-- **C22** text can be converted in pieces -/
theorem C22_append (a b ra rb : Str) (ha : hiragana_to_katakana a = .ok ra)
    (hb : hiragana_to_katakana b = .ok rb) : hiragana_to_katakana (a ++ b) = .ok (ra ++ rb) := by
  rw [hiragana_to_katakana_eq] at ha hb ⊢
  cases ha; cases hb
  rw [List.map_append]

/-- **C22** the length is preserved -/
theorem C22_length (s r : Str) (h : hiragana_to_katakana s = .ok r) : r.length = s.length := by
  rw [hiragana_to_katakana_eq] at h
  cases h
  simp

/-! ## Facts about the pure loop -/

theorem chain_iff {c : Char} : c ∈ Spec.chain ↔ (keeps c || isDash c) = true := by
  simp only [Spec.chain, List.mem_cons, List.not_mem_nil, or_false, char_eq_iff, Char.reduceToNat,
    Bool.or_eq_true, keeps_iff, isDash_iff]
  omega

theorem k2hPrev_append (a b : Str) : ∀ prev, k2hPrev prev (a ++ b) = k2hPrev (k2hPrev prev a) b := by
  induction a with
  | nil => intro prev; rfl
  | cons c a ih =>
    intro prev
    simp only [List.cons_append, k2hPrev]
    repeat' split
    all_goals exact ih _

/-- `previous_kana` is determined by the governing character. -/
theorem k2hPrev_governing (s : Str) : k2hPrev none s =
    (Spec.governing s).bind fun g => if is_char_katakana g then some (k2hChar g) else none := by
  have key : ∀ r : Str, k2hPrev none r.reverse =
      ((r.dropWhile fun c => decide (c ∈ Spec.chain)).head?).bind fun g =>
        if is_char_katakana g then some (k2hChar g) else none := by
    intro r
    induction r with
    | nil => rfl
    | cons c r ih =>
      rw [List.reverse_cons, k2hPrev_append]
      by_cases hc : c ∈ Spec.chain
      · have hc' := chain_iff.1 hc
        rw [List.dropWhile_cons_of_pos (by simpa using hc), ← ih]
        simp only [k2hPrev, hc', if_true]
      · have hc' : ¬ (keeps c || isDash c) = true := fun h => hc (chain_iff.2 h)
        rw [List.dropWhile_cons_of_neg (by simpa using hc)]
        simp only [k2hPrev, hc', List.head?_cons, Option.bind]
        split <;> simp_all
  have := key s.reverse
  rw [List.reverse_reverse] at this
  exact this

theorem toHira_toNat (c : Char) : (Spec.toHira c).toNat = if c.toNat = 0x30F7 then 0x308F
    else if c.toNat = 0x30F8 then 0x3090 else if c.toNat = 0x30F9 then 0x3091
    else if c.toNat = 0x30FA then 0x3092
    else if 0x30A1 ≤ c.toNat ∧ c.toNat ≤ 0x30F4 then c.toNat - 0x60 else c.toNat := by
  unfold Spec.toHira
  simp only [char_eq_iff, Char.reduceToNat]
  by_cases h : Spec.In 0x30A1 0x30F4 c
  · have h' : 0x30A1 ≤ c.toNat ∧ c.toNat ≤ 0x30F4 := h
    rw [if_pos h, if_pos h']
    repeat' split
    all_goals first
      | rfl
      | rw [toNat_ofNat_lt (by omega)]
  · have h' : ¬ (0x30A1 ≤ c.toNat ∧ c.toNat ≤ 0x30F4) := h
    rw [if_neg h, if_neg h']
    repeat' split
    all_goals rfl

/-- a katakana letter other than ヵ, ヶ becomes its counterpart -/
theorem k2hChar_toHira {c : Char} (hk : keeps c = false) (hd : isDash c = false)
    (ha : is_char_katakana c = true) : k2hChar c = Spec.toHira c := by
  apply char_ext
  rw [is_char_katakana_iff] at ha
  have h1 : ¬ (c.toNat = 0x30FB ∨ c.toNat = 0x30F5 ∨ c.toNat = 0x30F6) :=
    fun h => by rw [keeps_iff.2 h] at hk; cases hk
  have h2 : ¬ c.toNat = 0x30FC := fun h => by rw [isDash_iff.2 h] at hd; cases hd
  rw [k2hChar_toNat ha.1 ha.2, toHira_toNat]
  repeat' split
  all_goals omega

theorem toHira_other {c : Char} (h : keeps c = true ∨ isDash c = true ∨ is_char_katakana c = false) :
    Spec.toHira c = c := by
  apply char_ext
  rw [toHira_toNat]
  have : c.toNat = 0x30FB ∨ c.toNat = 0x30F5 ∨ c.toNat = 0x30F6 ∨ c.toNat = 0x30FC
      ∨ ¬ (0x30A1 ≤ c.toNat ∧ c.toNat ≤ 0x30FC) := by
    rcases h with h | h | h
    · have := keeps_iff.1 h; omega
    · have := isDash_iff.1 h; omega
    · have : ¬ (0x30A1 ≤ c.toNat ∧ c.toNat ≤ 0x30FC) := by
        rw [← is_char_katakana_iff]; simp [h]
      omega
  repeat' split
  all_goals omega

/-- last letter of the romaji of a single kana: its vowel -/
theorem root_vowel {std : Std} (hstd : std.Lawful) {p : Char} {n : RNode}
    (h : TO_ROMAJI_NODE_TREE.rfind std p = some n) (h1 : 0x3041 ≤ p.toNat) (h2 : p.toNat ≤ 0x3094)
    (hv : p ≠ 'ゔ') (dest : Bool) :
    (if n.output.getLast? = some 'o' ∧ dest = true then ['お']
      else (n.output.getLast?.bind LONG_VOWELS).toList) = Spec.longVowel dest p := by
  have hc : (TO_ROMAJI_NODE_TREE.paths.all fun x => match x with
      | ([p], n) => decide (0x3041 ≤ p.toNat ∧ p.toNat ≤ 0x3094 ∧ p ≠ 'ゔ') → [true, false].all fun dest =>
        decide ((if n.output.getLast? = some 'o' ∧ dest = true then ['お']
          else (n.output.getLast?.bind LONG_VOWELS).toList) = Spec.longVowel dest p)
      | _ => true) = true := by decide +kernel
  have := rwalk_check hstd hc (p := [p]) (n := n) (by rw [rwalk_singleton]; exact h)
  simp only [decide_eq_true_iff] at this
  have := this ⟨h1, h2, hv⟩
  rw [List.all_eq_true] at this
  have := this dest (by cases dest <;> simp)
  exact of_decide_eq_true this

theorem longOut_eq {std : Std} (hstd : std.Lawful) {p : Char} (h1 : 0x3041 ≤ p.toNat)
    (h2 : p.toNat ≤ 0x3094) (hv : p ≠ 'ゔ') (dest : Bool) (c : Char) :
    longOut std dest c p = Spec.longVowel dest p := by
  obtain ⟨n, hn⟩ := root_has hstd h1 h2
  rw [longOut, hn]
  exact root_vowel hstd hn h1 h2 hv dest

/-- after ゔ the mark becomes exactly one vowel, which one is up to the binary search -/
theorem longOut_vu {std : Std} (hstd : std.Lawful) (dest : Bool) (c : Char) :
    ∃ v ∈ ['あ', 'い', 'う', 'え', 'お'], longOut std dest c 'ゔ' = [v] := by
  obtain ⟨n, hn⟩ := root_has hstd (p := 'ゔ') (by decide) (by decide)
  have hc : (TO_ROMAJI_NODE_TREE.paths.all fun x => match x with
      | (['ゔ'], n) => decide (∃ v ∈ ['あ', 'い', 'う', 'え', 'お'], (if n.output.getLast? = some 'o' ∧ dest = true then ['お']
          else (n.output.getLast?.bind LONG_VOWELS).toList) = [v])
      | _ => true) = true := by cases dest <;> decide +kernel
  have := rwalk_check hstd hc (p := ['ゔ']) (n := n) (by rw [rwalk_singleton]; exact hn)
  simp only [decide_eq_true_iff] at this
  rw [longOut, hn]
  exact this

theorem vuOf_mem {std : Std} (hstd : std.Lawful) : vuOf std ∈ ['a', 'i', 'u', 'e', 'o'] := by
  obtain ⟨n, hn⟩ := root_has hstd (p := 'ゔ') (by decide) (by decide)
  have hc : (TO_ROMAJI_NODE_TREE.paths.all fun x => match x with
      | (['ゔ'], n) => decide (n.output.getLast?.getD 'u' ∈ ['a', 'i', 'u', 'e', 'o'])
      | _ => true) = true := by decide +kernel
  have := rwalk_check hstd hc (p := ['ゔ']) (n := n) (by rw [rwalk_singleton]; exact hn)
  simp only [decide_eq_true_iff] at this
  rw [vuOf, hn]
  exact this

theorem longOut_eqV {std : Std} (hstd : std.Lawful) {p : Char} (h1 : 0x3041 ≤ p.toNat)
    (h2 : p.toNat ≤ 0x3094) (dest : Bool) (c : Char) :
    longOut std dest c p = Spec.longVowelV (vuOf std) dest p := by
  by_cases hv : p = 'ゔ'
  · subst hv
    obtain ⟨n, hn⟩ := root_has hstd (p := 'ゔ') (by decide) (by decide)
    have hc : (TO_ROMAJI_NODE_TREE.paths.all fun x => match x with
        | (['ゔ'], n) => decide ((if n.output.getLast? = some 'o' ∧ dest = true then ['お']
            else (n.output.getLast?.bind LONG_VOWELS).toList)
              = Spec.longVowelV (n.output.getLast?.getD 'u') dest 'ゔ')
        | _ => true) = true := by cases dest <;> decide +kernel
    have := rwalk_check hstd hc (p := ['ゔ']) (n := n) (by rw [rwalk_singleton]; exact hn)
    simp only [decide_eq_true_iff] at this
    rw [longOut, vuOf, hn]
    exact this
  · rw [longOut_eq hstd h1 h2 hv, Spec.longVowelV, if_neg hv]

theorem markAfterV_eq {std : Std} (hstd : std.Lawful) (dest : Bool) (pre rest : Str)
    {c : Char} (hd : isDash c = true) :
    k2hP std dest (k2hPrev none pre) (c :: rest)
      = Spec.markAfterV (vuOf std) dest pre ++ k2hP std dest (k2hPrev none pre) rest := by
  have hk : keeps c = false := by
    cases h : keeps c with
    | false => rfl
    | true => rw [keeps_iff] at h; rw [isDash_iff] at hd; omega
  have hc : c = 'ー' := char_ext (by rw [isDash_iff.1 hd]; rfl)
  rw [k2hP_cons, if_neg (by simp [hk]), if_pos hd]
  have hok := k2hPrev_ok pre prevOk_none
  rw [k2hPrev_governing] at hok ⊢
  unfold Spec.markAfterV
  cases hg : Spec.governing pre with
  | none => subst hc; rfl
  | some g =>
    have hgc : g ∉ Spec.chain := by
      intro hm
      unfold Spec.governing at hg
      have := List.head?_dropWhile_not (fun c => decide (c ∈ Spec.chain)) pre.reverse
      rw [hg] at this
      simp [hm] at this
    have hgk : keeps g = false ∧ isDash g = false := by
      rw [chain_iff] at hgc; simpa using hgc
    simp only [Option.bind]
    by_cases ha : is_char_katakana g = true
    · have hl : Spec.KatakanaLetter g := by
        have := is_char_katakana_iff.1 ha
        have h3 : ¬ g.toNat = 0x30FC := fun h => by have := isDash_iff.2 h; simp [hgk.2] at this
        have h4 : ¬ g.toNat = 0x30FB := fun h => by have := keeps_iff.2 (Or.inl h); simp [hgk.1] at this
        exact ⟨this.1, by omega⟩
      rw [if_pos hl]
      simp only [ha, if_true]
      have hp := hok (k2hChar g) (by rw [hg]; simp [ha])
      rw [← k2hChar_toHira hgk.1 hgk.2 ha, longOut_eqV hstd hp.1 hp.2]
    · have hl : ¬ Spec.KatakanaLetter g := by
        intro h
        have h' : 0x30A1 ≤ g.toNat ∧ g.toNat ≤ 0x30FA := h
        exact ha (is_char_katakana_iff.2 (by omega))
      rw [if_neg hl]
      simp only [ha]
      subst hc; rfl

theorem k2hP_hiraFromV {std : Std} (hstd : std.Lawful) (dest : Bool) (s : Str) : ∀ (pre : Str),
    k2hP std dest (k2hPrev none pre) s = Spec.hiraFromV (vuOf std) dest pre s := by
  induction s with
  | nil => intro pre; cases k2hPrev none pre <;> rfl
  | cons c s ih =>
    intro pre
    have ih' := ih (pre ++ [c])
    rw [k2hPrev_append] at ih'
    rw [Spec.hiraFromV, ← ih']
    by_cases hd : isDash c = true
    · have hc : c = 'ー' := char_ext (by rw [isDash_iff.1 hd]; rfl)
      rw [markAfterV_eq hstd dest pre s hd, if_pos hc]
      congr 1
      simp [k2hPrev, hd]
    · have hc : c ≠ 'ー' := by
        intro h; apply hd; rw [h]; decide
      rw [if_neg hc, k2hP_cons]
      by_cases hk : keeps c = true
      · simp [hk, k2hPrev, toHira_other (Or.inl hk)]
      · by_cases ha : is_char_katakana c = true
        · simp [hk, hd, ha, k2hPrev, k2hChar_toHira (by simpa using hk) (by simpa using hd) ha]
        · simp [hk, hd, ha, k2hPrev, toHira_other (Or.inr (Or.inr (by simpa using ha)))]

theorem toHira_vu {g : Char} (h : Spec.toHira g = 'ゔ') : g = 'ヴ' ∨ g = 'ゔ' := by
  have h5 := congrArg Char.toNat h
  rw [toHira_toNat] at h5
  simp only [char_eq_iff, Char.reduceToNat] at h5 ⊢
  repeat' split at h5
  all_goals omega

theorem markAfterV_of_ne (x : Char) (dest : Bool) (pre : Str) (hv : Spec.governing pre ≠ some 'ヴ') :
    Spec.markAfterV x dest pre = Spec.markAfter dest pre := by
  unfold Spec.markAfterV Spec.markAfter
  cases hg : Spec.governing pre with
  | none => rfl
  | some g =>
    simp only []
    by_cases hl : Spec.KatakanaLetter g
    · rw [if_pos hl, if_pos hl, Spec.longVowelV, if_neg]
      intro h
      rcases toHira_vu h with e | e
      · rw [hg, e] at hv; exact hv rfl
      · subst e; revert hl; decide
    · rw [if_neg hl, if_neg hl]

theorem hiraFromV_of_not_mem (x : Char) (dest : Bool) (s : Str) : ∀ (pre : Str), 'ヴ' ∉ pre ++ s →
    Spec.hiraFromV x dest pre s = Spec.hiraFrom dest pre s := by
  induction s with
  | nil => intro pre _; rfl
  | cons c s ih =>
    intro pre hv
    rw [Spec.hiraFromV, Spec.hiraFrom, ih (pre ++ [c]) (by simpa using hv), markAfterV_of_ne]
    intro hg
    apply hv
    unfold Spec.governing at hg
    have h1 := List.mem_of_mem_head? hg
    have h2 := (List.dropWhile_sublist _).subset h1
    simp at h2
    simp [h2]

theorem markAfter_eq {std : Std} (hstd : std.Lawful) (dest : Bool) (pre rest : Str)
    (hv : Spec.governing pre ≠ some 'ヴ') {c : Char} (hd : isDash c = true) :
    k2hP std dest (k2hPrev none pre) (c :: rest)
      = Spec.markAfter dest pre ++ k2hP std dest (k2hPrev none pre) rest := by
  rw [markAfterV_eq hstd dest pre rest hd, markAfterV_of_ne _ _ _ hv]

theorem k2hP_hiraFrom {std : Std} (hstd : std.Lawful) (dest : Bool) (s : Str) (pre : Str)
    (hv : 'ヴ' ∉ pre ++ s) : k2hP std dest (k2hPrev none pre) s = Spec.hiraFrom dest pre s := by
  rw [k2hP_hiraFromV hstd, hiraFromV_of_not_mem _ _ _ _ hv]

theorem longOut_mem {std : Std} (hstd : std.Lawful) {p : Char} (h1 : 0x3041 ≤ p.toNat)
    (h2 : p.toNat ≤ 0x3094) (dest : Bool) (c : Char) :
    ∀ d ∈ longOut std dest c p, d ∈ ['あ', 'い', 'う', 'え', 'お'] := by
  by_cases hv : p = 'ゔ'
  · subst hv
    obtain ⟨v, hv, he⟩ := longOut_vu hstd dest c
    rw [he]; intro d hd; simp at hd; subst hd; exact hv
  · rw [longOut_eq hstd h1 h2 hv]
    unfold Spec.longVowel
    cases dest <;> repeat' split
    all_goals simp

/-- every output character is not katakana, or one of the symbols -/
theorem k2hP_out {std : Std} (hstd : std.Lawful) (dest : Bool) (s : Str) : ∀ {prev}, PrevOk prev →
    ∀ d ∈ k2hP std dest prev s, keeps d = true ∨ isDash d = true ∨ is_char_katakana d = false := by
  induction s with
  | nil => intro prev _ d hd; cases prev <;> simp [k2hP] at hd
  | cons c s ih =>
    intro prev hok d hd
    rw [k2hP_cons] at hd
    by_cases hk : keeps c = true
    · rw [if_pos hk] at hd
      rcases List.mem_cons.1 hd with rfl | hd
      · exact Or.inl hk
      · exact ih hok d hd
    · rw [if_neg hk] at hd
      by_cases hd' : isDash c = true
      · rw [if_pos hd'] at hd
        cases prev with
        | none =>
          rcases List.mem_cons.1 hd with rfl | hd
          · exact Or.inr (Or.inl hd')
          · exact ih hok d hd
        | some p =>
          rcases List.mem_append.1 hd with hd | hd
          · have := longOut_mem hstd (hok p rfl).1 (hok p rfl).2 dest c d hd
            right; right
            simp only [List.mem_cons, List.not_mem_nil, or_false] at this
            rcases this with rfl | rfl | rfl | rfl | rfl <;> rfl
          · exact ih hok d hd
      · rw [if_neg hd'] at hd
        by_cases ha : is_char_katakana c = true
        · rw [if_pos ha] at hd
          have hp := k2hChar_prevOk (by simpa using hk) (by simpa using hd') ha
          rcases List.mem_cons.1 hd with rfl | hd
          · right; right
            have := hp _ rfl
            rw [Bool.eq_false_iff]
            intro h
            rw [is_char_katakana_iff] at h
            omega
          · exact ih hp d hd
        · rw [if_neg ha] at hd
          rcases List.mem_cons.1 hd with rfl | hd
          · exact Or.inr (Or.inr (by simpa using ha))
          · exact ih prevOk_none d hd

theorem k2hP_id (std : Std) (dest : Bool) (s : Str)
    (h : ∀ d ∈ s, keeps d = true ∨ isDash d = true ∨ is_char_katakana d = false) :
    k2hP std dest none s = s := by
  induction s with
  | nil => rfl
  | cons c s ih =>
    have ih := ih fun d hd => h d (List.mem_cons_of_mem _ hd)
    rw [k2hP_cons]
    by_cases hk : keeps c = true
    · simp [hk, ih]
    · by_cases hd : isDash c = true
      · simp [hk, hd, ih]
      · have : is_char_katakana c = false := by
          rcases h c List.mem_cons_self with h | h | h
          · exact absurd h hk
          · exact absurd h hd
          · exact h
        simp [hk, hd, this, ih]

/-! ## C23 -/

/-- **C23** it returns for every text -/
theorem C23_total {std : Std} (hstd : std.Lawful) (s : Str) (dest : Bool) :
    ∃ r, katakana_to_hiragana_with_opt std s dest = .ok r := ⟨_, k2h_eq hstd s dest⟩

/-- **C23** the only katakana left are ー ・ ヵ ヶ -/
theorem C23_no_katakana {std : Std} (hstd : std.Lawful) (s r : Str) (dest : Bool)
    (h : katakana_to_hiragana_with_opt std s dest = .ok r) :
    ∀ c ∈ r, Spec.Katakana c → c ∈ ['ー', '・', 'ヵ', 'ヶ'] := by
  rw [k2h_eq hstd] at h
  cases h
  intro c hc hk
  have := k2hP_out hstd dest s prevOk_none c hc
  have hk' := is_char_katakana_iff.2 (specKatakana_iff.1 hk)
  show c ∈ Spec.chain
  rw [chain_iff]
  rcases this with h | h | h
  · simp [h]
  · simp [h]
  · rw [hk'] at h; cases h

/-- **C23** text without katakana letters (ー ・ ヵ ヶ allowed) is returned unchanged -/
theorem C23_unchanged {std : Std} (hstd : std.Lawful) (s : Str) (dest : Bool)
    (h : ∀ c ∈ s, Spec.Katakana c → c ∈ ['ー', '・', 'ヵ', 'ヶ']) :
    katakana_to_hiragana_with_opt std s dest = .ok s := by
  rw [k2h_eq hstd, k2hP_id]
  intro d hd
  cases hk : is_char_katakana d with
  | false => simp
  | true =>
    have hm : d ∈ Spec.chain := h d hd (specKatakana_iff.2 (is_char_katakana_iff.1 hk))
    rw [chain_iff] at hm
    simpa using hm

example : ∀ c ∈ "ひーらヶ abc 漢".toList, Spec.Katakana c → c ∈ ['ー', '・', 'ヵ', 'ヶ'] := by decide +kernel

/-- **C23** idempotent, in all four combinations of the destination flag -/
theorem C23_idempotent {std : Std} (hstd : std.Lawful) (s r : Str) (dest dest' : Bool)
    (h : katakana_to_hiragana_with_opt std s dest = .ok r) :
    katakana_to_hiragana_with_opt std r dest' = .ok r :=
  C23_unchanged hstd r dest' (C23_no_katakana hstd s r dest h)

/-! ## C24 -/

/-- **C24** Exact result: every character other than ー becomes its hiragana counterpart, and
every ー becomes the vowel of the letter it prolongs.  The vowel `x` of ヴ is the same for all
texts and all places. -/
theorem C24_exact {std : Std} (hstd : std.Lawful) : ∃ x ∈ ['a', 'i', 'u', 'e', 'o'],
    ∀ (s : Str) (dest : Bool), katakana_to_hiragana_with_opt std s dest = .ok (Spec.hiraFromV x dest [] s) := by
  refine ⟨vuOf std, vuOf_mem hstd, fun s dest => ?_⟩
  rw [k2h_eq hstd]
  congr 1
  exact k2hP_hiraFromV hstd dest s []

/-- **C24** with the binary search of current Rust the vowel of ヴ is o -/
theorem C24_exact_modern (s : Str) (dest : Bool) :
    katakana_to_hiragana_with_opt modernStd s dest = .ok (Spec.hiraFromV 'o' dest [] s) := by
  rw [k2h_eq modernStd_lawful]
  congr 1
  have := k2hP_hiraFromV modernStd_lawful dest s []
  rwa [show vuOf modernStd = 'o' by decide +kernel] at this

example : Spec.hiraFromV 'o' true [] "ヴーヷー".toList = "ゔおわあ".toList := by decide +kernel

/-- **C24** without ヴ nothing is left open -/
theorem C24_exact_no_vu {std : Std} (hstd : std.Lawful) (s : Str) (dest : Bool) (hv : 'ヴ' ∉ s) :
    katakana_to_hiragana_with_opt std s dest = .ok (Spec.hiraFrom dest [] s) := by
  rw [k2h_eq hstd]
  congr 1
  exact k2hP_hiraFrom hstd dest s [] (by simpa using hv)

example : Spec.hiraFrom false [] "ーラーメン・コーヒーンーひーaー".toList
    = "ーらあめん・こうひいんひーaー".toList := by decide +kernel
example : Spec.hiraFrom true [] "コヵーー".toList = "こヵおお".toList := by decide +kernel

/-- **C24** In every context, for a ー whose governing letter is not ヴ: inserting it adds
exactly the prolonged vowel at its place and changes nothing else. -/
theorem C24_insert {std : Std} (hstd : std.Lawful) (pre post : Str) (dest : Bool)
    (hv : Spec.governing pre ≠ some 'ヴ') :
    ∃ ra rb, katakana_to_hiragana_with_opt std pre dest = .ok ra ∧
      katakana_to_hiragana_with_opt std (pre ++ post) dest = .ok (ra ++ rb) ∧
      katakana_to_hiragana_with_opt std (pre ++ 'ー' :: post) dest
        = .ok (ra ++ (Spec.markAfter dest pre ++ rb)) := by
  refine ⟨_, k2hP std dest (k2hPrev none pre) post, k2h_eq hstd pre dest, ?_, ?_⟩
  · rw [k2h_eq hstd, k2hP_append]
  · rw [k2h_eq hstd, k2hP_append, markAfter_eq hstd dest pre post hv rfl]

example : Spec.governing "ヴァ・ー".toList ≠ some 'ヴ' ∧ Spec.markAfter true "ヴァ・ー".toList = ['あ'] := by
  decide +kernel

/-- **C24** after ヴ the mark also becomes exactly one vowel -/
theorem C24_insert_vu {std : Std} (hstd : std.Lawful) (pre post : Str) (dest : Bool)
    (hv : Spec.governing pre = some 'ヴ') :
    ∃ ra rb, ∃ v ∈ ['あ', 'い', 'う', 'え', 'お'],
      katakana_to_hiragana_with_opt std pre dest = .ok ra ∧
      katakana_to_hiragana_with_opt std (pre ++ post) dest = .ok (ra ++ rb) ∧
      katakana_to_hiragana_with_opt std (pre ++ 'ー' :: post) dest = .ok (ra ++ v :: rb) := by
  obtain ⟨v, hv1, hv2⟩ := longOut_vu hstd dest 'ー'
  have hp : k2hPrev none pre = some 'ゔ' := by
    rw [k2hPrev_governing, hv]; decide
  refine ⟨_, k2hP std dest (some 'ゔ') post, v, hv1, k2h_eq hstd pre dest, ?_, ?_⟩
  · rw [k2h_eq hstd, k2hP_append, hp]
  · rw [k2h_eq hstd, k2hP_append, hp, k2hP_cons, if_neg (by decide), if_pos (by decide)]
    simp only [hv2]
    rfl

/-! ## C25 -/

/-- **C25** hiragana → katakana → hiragana is lossless on every text without katakana and
without ゕ ゖ (missing for the full claim: ゕ and ゖ, whose katakana is kept as a symbol). -/
theorem C25_hiragana_partial {std : Std} (hstd : std.Lawful) (s : Str) (dest : Bool)
    (h : ∀ c ∈ s, ¬ Spec.Katakana c ∧ c ≠ 'ゕ' ∧ c ≠ 'ゖ') :
    (do katakana_to_hiragana_with_opt std (← hiragana_to_katakana s) dest) = .ok s := by
  rw [hiragana_to_katakana_eq, ok_bind, k2h_eq hstd]
  congr 1
  have key : ∀ prev, k2hP std dest prev (s.map h2kP) = s := by
    induction s with
    | nil => intro prev; cases prev <;> rfl
    | cons c s ih =>
      intro prev
      have ih := ih fun d hd => h d (List.mem_cons_of_mem _ hd)
      obtain ⟨h1, h2, h3⟩ := h c List.mem_cons_self
      rw [specKatakana_iff] at h1
      have h2' : c.toNat ≠ 0x3095 := fun e => h2 (char_ext e)
      have h3' : c.toNat ≠ 0x3096 := fun e => h3 (char_ext e)
      have hn := h2kP_toNat c
      have hk : keeps (h2kP c) = false := by
        rw [Bool.eq_false_iff]; intro e; rw [keeps_iff, hn] at e
        split at e <;> omega
      have hd : isDash (h2kP c) = false := by
        rw [Bool.eq_false_iff]; intro e; rw [isDash_iff, hn] at e
        split at e <;> omega
      rw [List.map_cons, k2hP_cons, if_neg (by simp [hk]), if_neg (by simp [hd])]
      by_cases hl : 0x3041 ≤ c.toNat ∧ c.toNat ≤ 0x3096
      · have ha : is_char_katakana (h2kP c) = true := by
          rw [is_char_katakana_iff, hn, if_pos hl]; omega
        rw [if_pos ha, ih]
        congr 1
        apply char_ext
        have := is_char_katakana_iff.1 ha
        rw [k2hChar_toNat this.1 this.2, hn, if_pos hl]
        repeat' split
        all_goals omega
      · have ha : ¬ is_char_katakana (h2kP c) = true := by
          rw [is_char_katakana_iff, hn, if_neg hl]; exact h1
        rw [if_neg ha, ih]
        congr 1
        apply char_ext
        rw [hn, if_neg hl]
  exact key none

example : ∀ c ∈ "ひらがなゔ、漢字 abc".toList, ¬ Spec.Katakana c ∧ c ≠ 'ゕ' ∧ c ≠ 'ゖ' := by decide +kernel

/-- **C25** fails for ゕ (and ゖ): the katakana ヵ is treated as a symbol on the way back. -/
theorem C25_hiragana_false {std : Std} (hstd : std.Lawful) :
    ∃ s, (∀ c ∈ s, Spec.HiraganaLetter c) ∧
      (do katakana_to_hiragana_with_opt std (← hiragana_to_katakana s) false) ≠ .ok s := by
  refine ⟨['ゕ'], by decide, ?_⟩
  rw [hiragana_to_katakana_eq, ok_bind, k2h_eq hstd]
  have : k2hP std false none (['ゕ'].map h2kP) = ['ヵ'] := by
    rw [k2hP_id]
    · decide
    · decide
  rw [this]
  decide

/-- **C25** katakana → hiragana → katakana is lossless on every text without hiragana letters,
ー, ヷ, ヸ, ヹ, ヺ (missing for the full claim: the four voiced w-row letters). -/
theorem C25_katakana_partial {std : Std} (hstd : std.Lawful) (s : Str) (dest : Bool)
    (h : ∀ c ∈ s, ¬ Spec.Hiragana c ∧ c ∉ ['ヷ', 'ヸ', 'ヹ', 'ヺ']) :
    (do hiragana_to_katakana (← katakana_to_hiragana_with_opt std s dest)) = .ok s := by
  rw [k2h_eq hstd, ok_bind, hiragana_to_katakana_eq]
  congr 1
  have key : ∀ prev, (k2hP std dest prev s).map h2kP = s := by
    induction s with
    | nil => intro prev; cases prev <;> rfl
    | cons c s ih =>
      intro prev
      have ih := ih fun d hd => h d (List.mem_cons_of_mem _ hd)
      obtain ⟨h1, h2⟩ := h c List.mem_cons_self
      rw [specHiragana_iff] at h1
      simp only [List.mem_cons, List.not_mem_nil, or_false, char_eq_iff, Char.reduceToNat] at h2
      have hd : isDash c = false := by
        rw [Bool.eq_false_iff]; intro e; rw [isDash_iff] at e; omega
      have hself : h2kP c = c := by
        apply char_ext; rw [h2kP_toNat, if_neg (by omega)]
      rw [k2hP_cons]
      by_cases hk : keeps c = true
      · simp [hk, ih, hself]
      · by_cases ha : is_char_katakana c = true
        · have h3 := is_char_katakana_iff.1 ha
          have h4 : ¬ (c.toNat = 0x30FB ∨ c.toNat = 0x30F5 ∨ c.toNat = 0x30F6) := fun h => hk (keeps_iff.2 h)
          simp only [hk, hd, ha, if_true, Bool.false_eq_true, if_false, List.map_cons, ih]
          congr 1
          apply char_ext
          rw [h2kP_toNat, k2hChar_toNat h3.1 h3.2]
          repeat' split
          all_goals omega
        · simp [hk, hd, ha, ih, hself]
  exact key none

example : ∀ c ∈ "カタカナ・ヴヵ、漢字 abc".toList,
    ¬ Spec.Hiragana c ∧ c ∉ ['ヷ', 'ヸ', 'ヹ', 'ヺ'] := by decide +kernel

/-- **C25** fails for ヷ ヸ ヹ ヺ: they lose their voicing mark. -/
theorem C25_katakana_false {std : Std} (hstd : std.Lawful) :
    ∃ s, (∀ c ∈ s, Spec.KatakanaLetter c) ∧
      (do hiragana_to_katakana (← katakana_to_hiragana_with_opt std s false)) ≠ .ok s := by
  refine ⟨['ヷ'], by decide, ?_⟩
  rw [k2h_eq hstd, ok_bind, hiragana_to_katakana_eq]
  have : k2hP std false none ['ヷ'] = ['わ'] := by
    rw [k2hP_cons]; rfl
  rw [this]
  decide

/-! ## C26 -/

theorem longOut_length {std : Std} (hstd : std.Lawful) {p : Char} (h1 : 0x3041 ≤ p.toNat)
    (h2 : p.toNat ≤ 0x3094) (dest : Bool) (c : Char) :
    (longOut std dest c p).length = if p = 'っ' ∨ p = 'ん' then 0 else 1 := by
  by_cases hv : p = 'ゔ'
  · subst hv
    obtain ⟨v, _, he⟩ := longOut_vu hstd dest c
    rw [he]; rfl
  · rw [longOut_eq hstd h1 h2 hv]
    have hall : ((List.range (0x3094 - 0x3041 + 1)).all fun i => [true, false].all fun dest =>
        decide (Char.ofNat (0x3041 + i) ≠ 'ゔ' → (Spec.longVowel dest (Char.ofNat (0x3041 + i))).length
          = if Char.ofNat (0x3041 + i) = 'っ' ∨ Char.ofNat (0x3041 + i) = 'ん' then 0 else 1)) = true := by
      decide +kernel
    have := List.all_eq_true.1 hall (p.toNat - 0x3041) (by rw [List.mem_range]; omega)
    have e : Char.ofNat (0x3041 + (p.toNat - 0x3041)) = p := by
      apply char_ext; rw [toNat_ofNat_lt (by omega)]; omega
    rw [e, List.all_eq_true] at this
    exact of_decide_eq_true (this dest (by cases dest <;> simp)) hv

theorem k2hP_length {std : Std} (hstd : std.Lawful) (dest : Bool) (s : Str) : ∀ (pre : Str),
    (k2hP std dest (k2hPrev none pre) s).length + Spec.swallowed pre s = s.length := by
  induction s with
  | nil => intro pre; cases k2hPrev none pre <;> rfl
  | cons c s ih =>
    intro pre
    have ih' := ih (pre ++ [c])
    rw [k2hPrev_append] at ih'
    rw [Spec.swallowed, k2hP_cons, List.length_cons]
    by_cases hd : isDash c = true
    · have hc : c = 'ー' := char_ext (by rw [isDash_iff.1 hd]; rfl)
      have hk : keeps c = false := by rw [hc]; rfl
      have hstep : k2hPrev (k2hPrev none pre) [c] = k2hPrev none pre := by simp [k2hPrev, hd]
      rw [hstep] at ih'
      rw [if_neg (by simp [hk]), if_pos hd]
      have hok := k2hPrev_ok pre prevOk_none
      have hg := k2hPrev_governing pre
      cases hp : k2hPrev none pre with
      | none =>
        rw [hp] at ih' hg
        have hn : ¬ (c = 'ー' ∧ (Spec.governing pre = some 'ン' ∨ Spec.governing pre = some 'ッ')) := by
          rintro ⟨_, h | h⟩ <;> rw [h] at hg <;> revert hg <;> decide
        rw [if_neg hn]
        simp only [List.length_cons]
        omega
      | some p =>
        rw [hp] at ih' hg
        have hpo := hok p hp
        simp only [List.length_append, longOut_length hstd hpo.1 hpo.2]
        have hiff : (p = 'っ' ∨ p = 'ん') ↔
            (c = 'ー' ∧ (Spec.governing pre = some 'ン' ∨ Spec.governing pre = some 'ッ')) := by
          constructor
          · intro h
            refine ⟨hc, ?_⟩
            cases hgo : Spec.governing pre with
            | none => rw [hgo] at hg; cases hg
            | some g =>
              rw [hgo] at hg
              simp only [Option.bind] at hg
              by_cases ha : is_char_katakana g = true
              · rw [if_pos ha] at hg
                have h3 := is_char_katakana_iff.1 ha
                have h4 := k2hChar_toNat h3.1 h3.2
                have h5 : p = k2hChar g := by simpa using hg
                rw [← h5] at h4
                have h6 : p.toNat = 0x3063 ∨ p.toNat = 0x3093 := by
                  rcases h with h | h <;> rw [h] <;> simp
                have h7 : g.toNat = 0x30F3 ∨ g.toNat = 0x30C3 := by
                  repeat' split at h4
                  all_goals omega
                rcases h7 with h7 | h7
                · left; congr 1; exact char_ext h7
                · right; congr 1; exact char_ext h7
              · rw [if_neg ha] at hg; cases hg
          · rintro ⟨_, h | h⟩
            · rw [h] at hg
              right
              have : some p = some 'ん' := by rw [hg]; decide
              simpa using this
            · rw [h] at hg
              left
              have : some p = some 'っ' := by rw [hg]; decide
              simpa using this
        by_cases hx : p = 'っ' ∨ p = 'ん'
        · rw [if_pos hx, if_pos (hiff.1 hx)]; omega
        · rw [if_neg hx, if_neg (fun h => hx (hiff.2 h))]; omega
    · have hc : c ≠ 'ー' := by
        intro h; apply hd; rw [h]; decide
      rw [if_neg (fun h : c = 'ー' ∧ _ => hc h.1)]
      by_cases hk : keeps c = true
      · simp only [k2hPrev, hk, Bool.true_or, if_true] at ih' ⊢
        rw [List.length_cons]; omega
      · by_cases ha : is_char_katakana c = true
        · simp only [k2hPrev, hk, hd, ha, Bool.or_false, Bool.false_eq_true, if_true, if_false] at ih' ⊢
          rw [List.length_cons]; omega
        · simp only [k2hPrev, hk, hd, ha, Bool.or_false, Bool.false_eq_true, if_false] at ih' ⊢
          rw [List.length_cons]; omega

/-- **C26** The result is exactly as many characters shorter as there are long vowel marks
prolonging ン or ッ. -/
theorem C26_count {std : Std} (hstd : std.Lawful) (s r : Str) (dest : Bool)
    (h : katakana_to_hiragana_with_opt std s dest = .ok r) :
    r.length + Spec.swallowed [] s = s.length := by
  rw [k2h_eq hstd] at h
  cases h
  exact k2hP_length hstd dest s []

example : Spec.swallowed [] "ンーーアーッ・ー".toList = 3 := by decide +kernel

/-- **C26** never longer -/
theorem C26_le {std : Std} (hstd : std.Lawful) (s r : Str) (dest : Bool)
    (h : katakana_to_hiragana_with_opt std s dest = .ok r) : r.length ≤ s.length := by
  have := C26_count hstd s r dest h; omega

theorem swallowed_zero (s : Str) : ∀ pre, ('ー' ∉ s ∨ ('ン' ∉ pre ++ s ∧ 'ッ' ∉ pre ++ s)) →
    Spec.swallowed pre s = 0 := by
  induction s with
  | nil => intro pre _; rfl
  | cons c s ih =>
    intro pre h
    rw [Spec.swallowed, ih (pre ++ [c]) (by
      rcases h with h | h
      · left; simp at h; exact h.2
      · right; simpa using h)]
    rw [if_neg]
    rintro ⟨hc, hg⟩
    rcases h with h | h
    · simp [hc] at h
    · have : ∀ g, Spec.governing pre = some g → g ∈ pre := by
        intro g hg
        unfold Spec.governing at hg
        have h1 := List.mem_of_mem_head? hg
        have h2 := (List.dropWhile_sublist _).subset h1
        simpa using h2
      rcases hg with hg | hg
      · exact h.1 (List.mem_append_left _ (this _ hg))
      · exact h.2 (List.mem_append_left _ (this _ hg))

/-- **C26** the length is preserved on texts without ー, or without ン and ッ -/
theorem C26_same {std : Std} (hstd : std.Lawful) (s r : Str) (dest : Bool)
    (h : katakana_to_hiragana_with_opt std s dest = .ok r)
    (hs : 'ー' ∉ s ∨ ('ン' ∉ s ∧ 'ッ' ∉ s)) : r.length = s.length := by
  have := C26_count hstd s r dest h
  rw [swallowed_zero s [] (by simpa using hs)] at this
  omega

end WanaKana
