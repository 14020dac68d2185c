import Verif.Model.StdConcrete
import Verif.Proofs.Chars
/-! # The concrete standard libraries are lawful -/

namespace WanaKana

theorem sorted_get {keys : List Char} (hs : SortedKeys keys) : ∀ {i j : Nat} {a b : Char}, i ≤ j →
    keys[i]? = some a → keys[j]? = some b → a.toNat ≤ b.toNat := by
  induction keys with
  | nil => intro i j a b _ h; simp at h
  | cons x xs ih =>
    intro i j a b hij ha hb
    cases i with
    | zero =>
      simp at ha; subst ha
      cases j with
      | zero => simp at hb; subst hb; exact Nat.le_refl _
      | succ j => simp at hb; exact hs.1 b (List.mem_of_getElem? hb)
    | succ i =>
      cases j with
      | zero => omega
      | succ j => simp at ha hb; exact ih hs.2 (by omega) ha hb

theorem getD_some {keys : List Char} {i : Nat} (h : i < keys.length) :
    keys[i]? = some (keys.getD i default) := by
  rw [List.getD_eq_getElem?_getD, List.getElem?_eq_getElem h]; rfl

theorem modernLoop_spec {keys : List Char} (hs : SortedKeys keys) (k : Char) :
    ∀ (fuel size base : Nat), size ≤ fuel → 1 ≤ size → base + size ≤ keys.length →
      (∃ i, base ≤ i ∧ i < base + size ∧ keys[i]? = some k) →
      keys[modernLoop keys k fuel size base]? = some k := by
  intro fuel
  induction fuel with
  | zero => intro size base h1 h2; omega
  | succ fuel ih =>
    intro size base h1 h2 h3 ⟨i, hi1, hi2, hi3⟩
    rw [modernLoop]
    by_cases hsz : 1 < size
    · rw [if_pos hsz]
      simp only []
      have hm := getD_some (keys := keys) (i := base + size / 2) (by omega)
      by_cases hlt : k.toNat < (keys.getD (base + size / 2) default).toNat
      · rw [if_pos hlt]
        apply ih _ _ (by omega) (by omega) (by omega)
        refine ⟨i, hi1, ?_, hi3⟩
        have : i < base + size / 2 := by
          rcases Nat.lt_or_ge i (base + size / 2) with h | h
          · exact h
          · have := sorted_get hs h hm hi3; omega
        omega
      · rw [if_neg hlt]
        apply ih _ _ (by omega) (by omega) (by omega)
        rcases Nat.lt_or_ge i (base + size / 2) with h | h
        · have := sorted_get hs (Nat.le_of_lt h) hi3 hm
          refine ⟨base + size / 2, Nat.le_refl _, by omega, ?_⟩
          rw [hm]; congr 1; apply char_ext; omega
        · exact ⟨i, h, by omega, hi3⟩
    · rw [if_neg hsz]
      have : i = base := by omega
      subst this; exact hi3

theorem legacyLoop_some {keys : List Char} (k : Char) : ∀ (fuel left right i : Nat),
    right ≤ keys.length → legacyLoop keys k fuel left right = some i → keys[i]? = some k := by
  intro fuel
  induction fuel with
  | zero => intro left right i _ h; cases h
  | succ fuel ih =>
    intro left right i hr h
    rw [legacyLoop] at h
    by_cases hl : left < right
    · rw [if_pos hl] at h
      simp only [] at h
      by_cases h1 : (keys.getD (left + (right - left) / 2) default).toNat < k.toNat
      · rw [if_pos h1] at h; exact ih _ _ _ hr h
      · rw [if_neg h1] at h
        by_cases h2 : k.toNat < (keys.getD (left + (right - left) / 2) default).toNat
        · rw [if_pos h2] at h; exact ih _ _ _ (by omega) h
        · rw [if_neg h2] at h
          cases h
          rw [getD_some (by omega)]
          congr 1; apply char_ext; omega
    · rw [if_neg hl] at h; cases h

theorem legacyLoop_none {keys : List Char} (hs : SortedKeys keys) (k : Char) : ∀ (fuel left right : Nat),
    right - left < fuel → right ≤ keys.length → legacyLoop keys k fuel left right = none →
    ∀ i, left ≤ i → i < right → keys[i]? ≠ some k := by
  intro fuel
  induction fuel with
  | zero => intro left right h; omega
  | succ fuel ih =>
    intro left right hf hr h i hi1 hi2 hk
    rw [legacyLoop, if_pos (by omega)] at h
    simp only [] at h
    have hm := getD_some (keys := keys) (i := left + (right - left) / 2) (by omega)
    by_cases h1 : (keys.getD (left + (right - left) / 2) default).toNat < k.toNat
    · rw [if_pos h1] at h
      apply ih _ _ (by omega) hr h i _ hi2 hk
      rcases Nat.lt_or_ge (left + (right - left) / 2) i with h3 | h3
      · exact h3
      · have := sorted_get hs h3 hk hm; omega
    · rw [if_neg h1] at h
      by_cases h2 : k.toNat < (keys.getD (left + (right - left) / 2) default).toNat
      · rw [if_pos h2] at h
        apply ih _ _ (by omega) (by omega) h i hi1 _ hk
        rcases Nat.lt_or_ge i (left + (right - left) / 2) with h3 | h3
        · exact h3
        · have := sorted_get hs h3 hm hk; omega
      · rw [if_neg h2] at h; cases h

/-- the case mapping of `stdWith` as a single character -/
theorem stdWith_lower (search : List Char → Char → Option Nat) (c : Char) :
    ∃ d, (stdWith search).lowerChar c = [d] ∧
      (c.toNat = 0x3A3 ∧ d = 'σ' ∨ (isMacron c = true ∧ d = Char.ofNat (c.toNat ||| 1) ∧ isMacron d = true ∧
          d.toNat ||| 1 = d.toNat) ∨
        c.toNat ≠ 0x3A3 ∧ isMacron c = false ∧ d = toAsciiLowercase c) := by
  by_cases h1 : c = 'Σ'
  · exact ⟨'σ', by simp [stdWith, h1], Or.inl ⟨by simp [h1], rfl⟩⟩
  · have h1' : c.toNat ≠ 0x3A3 := fun h => h1 (char_ext h)
    by_cases h2 : isMacron c = true
    · refine ⟨Char.ofNat (c.toNat ||| 1), by simp [stdWith, h1, h2], Or.inr (Or.inl ⟨h2, rfl, ?_⟩)⟩
      rw [isMacron, List.contains_iff_mem] at h2
      generalize c.toNat = n at h2
      simp only [List.mem_cons, List.not_mem_nil, or_false] at h2
      rcases h2 with rfl | rfl | rfl | rfl | rfl | rfl | rfl | rfl | rfl | rfl <;> decide
    · have h2' : isMacron c = false := by simpa using h2
      exact ⟨toAsciiLowercase c, by simp [stdWith, h1, h2'], Or.inr (Or.inr ⟨h1', h2', rfl⟩)⟩

theorem isMacron_range {c : Char} (h : isMacron c = true) : 0x100 ≤ c.toNat ∧ c.toNat ≤ 0x16b := by
  rw [isMacron, List.contains_iff_mem] at h
  simp only [List.mem_cons, List.not_mem_nil, or_false] at h
  omega

theorem stdLower_toNat (c : Char) : (toAsciiLowercase c).toNat =
    if 65 ≤ c.toNat ∧ c.toNat ≤ 90 then c.toNat + 32 else c.toNat := by
  unfold toAsciiLowercase
  split
  · rw [toNat_ofNat_lt (by omega)]
  · rfl

theorem stdWith_lawful {search : List Char → Char → Option Nat}
    (h1 : ∀ keys k i, SortedKeys keys → search keys k = some i → keys[i]? = some k)
    (h2 : ∀ keys k, SortedKeys keys → search keys k = none → k ∉ keys) : (stdWith search).Lawful where
  isUppercase_ascii c _ := decide_eq_true_iff
  isUppercase_uncased c h := by
    unfold Uncased at h
    exact decide_eq_false (by omega)
  lowerChar_ascii c h := by
    obtain ⟨d, hd, h' | ⟨h', _⟩ | h'⟩ := stdWith_lower search c
    · omega
    · have := isMacron_range h'; omega
    · rw [hd, h'.2.2]
  lowerChar_uncased c h := by
    unfold Uncased at h
    obtain ⟨d, hd, h' | ⟨h', _⟩ | h'⟩ := stdWith_lower search c
    · omega
    · have := isMacron_range h'; omega
    · rw [hd, h'.2.2]
      have : toAsciiLowercase c = c := by unfold toAsciiLowercase; rw [if_neg (by omega)]
      rw [this]
  lowerChar_macron c h := by
    have hm : isMacron c = true := by
      rw [isMacron, List.contains_iff_mem]; exact h
    have := isMacron_range hm
    obtain ⟨d, hd, h' | ⟨_, h', _⟩ | h'⟩ := stdWith_lower search c
    · omega
    · rw [hd, h']
    · rw [hm] at h'; cases h'.2.1
  lowerChar_target c d hd hne hu := by
    unfold Uncased at hu
    obtain ⟨e, he, h'⟩ := stdWith_lower search c
    rw [he, List.mem_singleton] at hd
    subst hd
    rcases h' with h' | ⟨_, _, h', _⟩ | h'
    · rw [h'.2] at hu; simp only [Char.reduceToNat] at hu; omega
    · have := isMacron_range h'; omega
    · have h3 := stdLower_toNat c
      rw [← h'.2.2] at h3
      split at h3
      · omega
      · exact hne (char_ext h3)
  lowerChar_idem c d hd := by
    obtain ⟨e, he, h'⟩ := stdWith_lower search c
    rw [he, List.mem_singleton] at hd
    subst hd
    rcases h' with h' | ⟨_, _, h', h''⟩ | h'
    · rw [h'.2]; exact ⟨rfl, by decide⟩
    · have hr := isMacron_range h'
      have hne : d ≠ 'Σ' := by rintro rfl; simp only [Char.reduceToNat] at hr; omega
      refine ⟨?_, hne⟩
      simp only [stdWith, if_neg hne, h', if_true, h'', Char.ofNat_toNat]
    · have h3 := stdLower_toNat c
      rw [← h'.2.2] at h3
      have hne : d ≠ 'Σ' := by
        rintro rfl; simp only [Char.reduceToNat] at h3; split at h3 <;> omega
      refine ⟨?_, hne⟩
      have hm : isMacron d = false := by
        split at h3
        · cases hm : isMacron d with
          | false => rfl
          | true => have := isMacron_range hm; omega
        · rw [show d = c from char_ext h3]; exact h'.2.1
      have hl : toAsciiLowercase d = d := by
        unfold toAsciiLowercase; rw [if_neg]; split at h3 <;> omega
      simp [stdWith, hne, hm, hl]
  lowerChar_sigma := ⟨rfl, rfl⟩
  upperChar_ascii c _ := rfl
  upperChar_uncased c h := by
    unfold Uncased at h
    simp only [stdWith]
    rw [if_neg (by omega)]
  binarySearch_some := h1
  binarySearch_none := h2

/-- The contract `Std.Lawful` is satisfied by the search of current Rust. -/
theorem modernStd_lawful : modernStd.Lawful := by
  apply stdWith_lawful
  · intro keys k i _ h
    unfold modernSearch at h
    split at h
    · cases h
    · simp only [] at h
      split at h
      · next h' => cases h; exact h'
      · cases h
  · intro keys k hs h hk
    unfold modernSearch at h
    obtain ⟨i, hi⟩ := List.getElem?_of_mem hk
    have hlt : i < keys.length := by
      rcases Nat.lt_or_ge i keys.length with h | h
      · exact h
      · rw [List.getElem?_eq_none h] at hi; cases hi
    rw [if_neg (by omega)] at h
    simp only [] at h
    rw [if_pos (modernLoop_spec hs k _ _ _ (Nat.le_refl _) (by omega) (by omega) ⟨i, by omega, by omega, hi⟩)] at h
    cases h

/-- … and by the search of Rust before 1.82. -/
theorem legacyStd_lawful : legacyStd.Lawful := by
  apply stdWith_lawful
  · intro keys k i _ h
    exact legacyLoop_some k _ _ _ _ (Nat.le_refl _) h
  · intro keys k hs h hk
    obtain ⟨i, hi⟩ := List.getElem?_of_mem hk
    have hlt : i < keys.length := by
      rcases Nat.lt_or_ge i keys.length with h | h
      · exact h
      · rw [List.getElem?_eq_none h] at hi; cases hi
    exact legacyLoop_none hs k _ _ _ (by omega) (Nat.le_refl _) h i (by omega) hlt hi

end WanaKana
