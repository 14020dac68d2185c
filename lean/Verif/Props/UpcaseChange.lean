import Verif.Props.Casing
import Verif.Spec.UpcaseChange
/-! # C135: exactly where `upcase_katakana` changes the romaji -/

namespace WanaKana
open Spec (Table Marked LongestKey HasCapitals Romanized)

theorem romanized_unmarked {t : Table} {up : Bool} {z : Marked} {r : Str} (h : Romanized t up z r) : up = false →
    HasCapitals t z ∨ Romanized t true z r := by
  intro hup
  induction h with
  | nil => exact Or.inr .nil
  | @hit s q out r hk hl hr ih =>
    rcases ih with ih | ih
    · exact Or.inl (.later hk ih)
    · by_cases hm : (∀ x ∈ s.take q.length, x.2 = true) ∧ ∃ c ∈ out, Spec.asciiUpper c ≠ c
      · exact Or.inl (.here hk hl hm.2 hm.1)
      · right
        have h := Romanized.hit hk hl ih
        rw [if_neg (by rw [hup]; simp)]
        by_cases hf : ∀ x ∈ s.take q.length, x.2 = true
        · rw [if_pos ⟨rfl, hf⟩, List.map_congr_left (g := id), List.map_id] at h
          · exact h
          · intro c hc
            exact Classical.byContradiction fun hne => hm ⟨hf, c, hc, hne⟩
        · rwa [if_neg (fun h => hf h.2)] at h
  | miss hn _ ih =>
    rcases ih with ih | ih
    · exact Or.inl (.skip hn ih)
    · exact Or.inr (.miss hn ih)

theorem romanized_changed {t : Table} (h0 : t.lookup [] = none) {z : Marked} (h : HasCapitals t z) :
    ∀ {r r' : Str}, Romanized t true z r → Romanized t false z r' → r ≠ r' := by
  induction h with
  | @here z q out hk hl hc hm =>
    intro r r' h1 h2 e
    cases h1 with
    | nil =>
      have := List.prefix_nil.1 hk.isPrefix
      rw [this, h0] at hl; cases hl
    | @hit _ q1 out1 r1 hk1 hl1 hr1 =>
      have e1 : q1 = q := longestKey_unique hk1 hk
      subst e1
      rw [hl] at hl1; cases hl1
      generalize hz : z = z' at h2
      cases h2 with
      | nil =>
        subst hz
        have := List.prefix_nil.1 hk.isPrefix
        rw [this, h0] at hl; cases hl
      | @hit _ q2 out2 r2 hk2 hl2 hr2 =>
        subst hz
        have e1 : q2 = q1 := longestKey_unique hk2 hk
        subst e1
        rw [hl] at hl2; cases hl2
        rw [if_pos ⟨rfl, hm⟩, if_neg (by simp)] at e
        have := (List.append_inj e (by simp)).1
        obtain ⟨c, hc, hne⟩ := hc
        have hi : ∀ (l : Str), l.map Spec.asciiUpper = l → ∀ c ∈ l, Spec.asciiUpper c = c := by
          intro l
          induction l with
          | nil => intro _ c hc; cases hc
          | cons a l ih =>
            intro h c hc
            rw [List.map_cons, List.cons.injEq] at h
            rcases List.mem_cons.1 hc with rfl | hc
            · exact h.1
            · exact ih h.2 c hc
        exact hne (hi _ this c hc)
      | miss hn _ =>
        subst hz
        have := hn _ hk.isPrefix
        rw [hl] at this; cases this
    | miss hn _ =>
      have := hn _ hk.isPrefix
      rw [hl] at this; cases this
  | @later z q hk _ ih =>
    intro r r' h1 h2 e
    have hq := hk.key
    cases h1 with
    | nil =>
      have := List.prefix_nil.1 hk.isPrefix
      rw [this, h0] at hq; cases hq
    | @hit _ q1 out1 r1 hk1 hl1 hr1 =>
      have e1 : q1 = q := longestKey_unique hk1 hk
      subst e1
      generalize hz : z = z' at h2
      cases h2 with
      | nil =>
        subst hz
        have := List.prefix_nil.1 hk.isPrefix
        rw [this, h0] at hq; cases hq
      | @hit _ q2 out2 r2 hk2 hl2 hr2 =>
        subst hz
        have e1 : q2 = q1 := longestKey_unique hk2 hk
        subst e1
        rw [hl1] at hl2; cases hl2
        exact ih hr1 hr2 (List.append_inj e (by split <;> split <;> simp)).2
      | miss hn _ =>
        subst hz
        have := hn _ hk.isPrefix
        rw [this] at hq; cases hq
    | miss hn _ =>
      have := hn _ hk.isPrefix
      rw [this] at hq; cases hq
  | @skip x z hn _ ih =>
    intro r r' h1 h2 e
    cases h1 with
    | hit hk hl _ =>
      have := hn _ hk.isPrefix
      rw [hl] at this; cases this
    | miss _ hr1 =>
      generalize hz : x :: z = z' at h2
      cases h2 with
      | nil => cases hz
      | hit hk hl _ =>
        subst hz
        have := hn _ hk.isPrefix
        rw [hl] at this; cases this
      | miss _ hr2 =>
        cases hz
        injection e with _ e
        exact ih hr1 hr2 e

/-- **C135** `upcase_katakana` changes the result of `to_romaji` exactly if the text has a syllable that is written with
letters and entirely katakana (the script of each hiragana being that of the character at the same position). -/
theorem C135_exact {std : Std} (hstd : std.Lawful) :
    ∃ x ∈ ['a', 'i', 'u', 'e', 'o'], ∃ y ∈ ['a', 'i', 'u', 'e', 'o'], ∀ (s : Str) (o o' : Options),
      o.upcase_katakana = true → o'.upcase_katakana = false →
      (to_romaji_with_opt std s o ≠ to_romaji_with_opt std s o' ↔
        HasCapitals (Spec.kanaTableV x y) (Spec.markedV x s)) := by
  refine ⟨vuOf std, vuOf_mem hstd, vuOf2 std, vuOf2_mem hstd, fun s o o' ho ho' => ?_⟩
  have h1 := rom_romanizedV hstd true _ (flagged_no_va hstd s)
  have h2 := rom_romanizedV hstd false _ (flagged_no_va hstd s)
  rw [to_romaji_eq hstd, to_romaji_eq hstd, ho, ho', ne_eq, Except.ok.injEq]
  rw [flagged_markedV hstd s] at h1 h2 ⊢
  constructor
  · intro hne
    rcases romanized_unmarked h2 rfl with h | h
    · exact h
    · exact absurd (romanized_unique (kanaTableV_nil _ _) h1 h) hne
  · intro h
    exact romanized_changed (kanaTableV_nil _ _) h h1 h2

/-- カ and キャ are such syllables, きャ and っカ are not, nor are ー and ・ alone -/
example : (∀ s ∈ ["あカ".toList, "きキャ".toList, "かーア".toList],
      to_romaji_with_opt modernStd s { upcase_katakana := true } ≠ to_romaji_with_opt modernStd s {}) ∧
    ∀ s ∈ ["きャっカ".toList, "かー・".toList, "んア".toList],
      to_romaji_with_opt modernStd s { upcase_katakana := true } = to_romaji_with_opt modernStd s {} := by
  decide +kernel

end WanaKana
