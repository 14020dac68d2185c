import Verif.Props.ToRomaji2
import Verif.Props.RomajiDet
import Verif.Spec.Casing
/-! # C99: exactly when upcase_katakana puts the right syllables in capitals -/

namespace WanaKana

theorem map_upper_eq {l : Str} : l.map Spec.asciiUpper = l ↔ ∀ c ∈ l, Spec.asciiUpper c = c := by
  induction l with
  | nil => simp
  | cons a l ih => simp [ih]

theorem longestKey_unique {t : Spec.Table} {l q q' : Str} (h : Spec.LongestKey t l q) (h' : Spec.LongestKey t l q') : q = q' := by
  have hq := List.prefix_of_prefix_length_le h.isPrefix h'.isPrefix (h'.longest _ h.isPrefix h.key)
  exact hq.eq_of_length_le (h.longest _ h'.isPrefix h'.key)

/-- two markings of the same text give the same romaji exactly if no syllable is cased differently -/
theorem romanized_case {t : Spec.Table} (ht : t.lookup [] = none) {z : Spec.Marked} {r : Str}
    (h : Spec.Romanized t true z r) : ∀ {w : Spec.Marked} {r' : Str}, w.map Prod.fst = z.map Prod.fst →
    Spec.Romanized t true w r' → (r = r' ↔ ¬ Spec.Miscased t z w) := by
  induction h with
  | nil =>
    intro w r' hw h'
    have hw : w = [] := by simpa using hw
    subst hw
    have hr : r' = [] := romanized_unique ht h' .nil
    subst hr
    simp only [true_iff]
    intro hm
    cases hm with
    | here hk hl _ _ =>
      have hp := hk.isPrefix
      simp at hp
      rw [hp, ht] at hl; cases hl
    | later hk _ =>
      have hp := hk.isPrefix
      simp at hp
      have := hk.key
      rw [hp, ht] at this; cases this
  | @hit z q out r hk hl hr ih =>
    intro w r' hw h'
    cases h' with
    | nil =>
      have hz : z = [] := by simpa using hw.symm
      subst hz
      have hp := hk.isPrefix
      simp at hp
      rw [hp, ht] at hl; cases hl
    | @hit _ q' out' r1 hk' hl' hr' =>
      rw [hw] at hk'
      have e := longestKey_unique hk hk'
      subst e
      rw [hl] at hl'
      cases hl'
      have ih := ih (w := w.drop q.length) (r' := r1) (by rw [List.map_drop, List.map_drop, hw]) hr'
      have hsplit : ∀ f g : Prop, [Decidable f] → [Decidable g] →
          ((if true = true ∧ f then out.map Spec.asciiUpper else out) ++ r =
            (if true = true ∧ g then out.map Spec.asciiUpper else out) ++ r1 ↔
            ((f ↔ g) ∨ ∀ c ∈ out, Spec.asciiUpper c = c) ∧ r = r1) := by
        intro f g _ _
        have hlen : ∀ f : Prop, [Decidable f] → (if true = true ∧ f then out.map Spec.asciiUpper else out).length = out.length := by
          intro f _
          split <;> simp
        constructor
        · intro e
          obtain ⟨e1, e2⟩ := List.append_inj e (by rw [hlen, hlen])
          refine ⟨?_, e2⟩
          by_cases hf : f <;> by_cases hg : g <;> simp only [hf, hg, and_true, and_false, if_true, if_false, true_and] at e1 ⊢
          · simp
          · exact Or.inr (map_upper_eq.1 e1)
          · exact Or.inr (map_upper_eq.1 e1.symm)
          · simp
        · rintro ⟨h | h, rfl⟩
          · simp only [h]
          · rw [map_upper_eq.2 h]
            simp
      rw [hsplit, ih]
      constructor
      · rintro ⟨h1, h2⟩ hm
        cases hm with
        | @here _ _ q2 out2 hk2 hl2 hc hne =>
          have e := longestKey_unique hk hk2
          subst e
          rw [hl] at hl2
          cases hl2
          rcases h1 with h1 | h1
          · exact hne h1
          · obtain ⟨c, hc, hne⟩ := hc
            exact hne (h1 c hc)
        | later hk2 hm =>
          have e := longestKey_unique hk hk2
          subst e
          exact h2 hm
        | skip hn _ =>
          have := hn _ hk.isPrefix
          rw [hl] at this; cases this
      · intro hm
        refine ⟨?_, fun h => hm (.later hk h)⟩
        apply Classical.byContradiction
        intro hno
        rw [not_or] at hno
        refine hm (.here hk hl ?_ hno.1)
        apply Classical.byContradiction
        intro h
        exact hno.2 fun c hc => Classical.byContradiction fun hne => h ⟨c, hc, hne⟩
    | miss hn _ =>
      rw [hw] at hn
      have := hn _ hk.isPrefix
      rw [hl] at this; cases this
  | @miss x z r hn hr ih =>
    intro w r' hw h'
    cases h' with
    | nil => cases hw
    | hit hk' hl' _ =>
      rw [hw] at hk'
      have := hn _ hk'.isPrefix
      rw [hl'] at this; cases this
    | @miss y w r1 hn' hr' =>
      simp only [List.map_cons, List.cons.injEq] at hw
      have ih := ih hw.2 hr'
      rw [hw.1, List.cons.injEq]
      simp only [true_and]
      rw [ih]
      constructor
      · intro h hm
        cases hm with
        | here hk hl _ _ =>
          have := hn _ hk.isPrefix
          rw [hl] at this; cases this
        | later hk _ =>
          have := hn _ hk.isPrefix
          have hk := hk.key
          rw [this] at hk; cases hk
        | skip _ hm => exact h hm
      · intro h hm
        exact h (.skip hn hm)

theorem ownFrom_fst (x : Char) (s : Str) : ∀ pre, (Spec.ownFrom x pre s).map Prod.fst = Spec.hiraFromV x true pre s := by
  induction s with
  | nil => intro _; rfl
  | cons c s ih =>
    intro pre
    rw [Spec.ownFrom, Spec.hiraFromV, List.map_append, ih, List.map_map]
    congr 1
    exact List.map_id _

theorem kanaTableV_nil (x y : Char) : (Spec.kanaTableV x y).lookup [] = none := by
  cases hl : (Spec.kanaTableV x y).lookup [] with
  | none => rfl
  | some out =>
    exfalso
    unfold Spec.kanaTableV at hl
    rw [lookup_append_right kanaTable_nil] at hl
    have h1 : (Spec.vuRows x).lookup [] = none := by
      cases h : (Spec.vuRows x).lookup [] with
      | none => rfl
      | some o => obtain ⟨_, e⟩ := vuRows_vu h; cases e
    rw [lookup_append_right h1] at hl
    obtain ⟨r, _, hr⟩ := List.mem_map.1 (mem_of_lookup hl)
    simp at hr

theorem hiraFromV_le {std : Std} (hstd : std.Lawful) (s : Str) :
    (Spec.hiraFromV (vuOf std) true [] s).length + Spec.swallowed [] s = s.length := by
  rw [← k2hP_hiraFromV hstd true s []]
  exact k2hP_length hstd true s []

theorem markedV_fst {std : Std} (hstd : std.Lawful) (s : Str) :
    (Spec.markedV (vuOf std) s).map Prod.fst = Spec.hiraFromV (vuOf std) true [] s := by
  unfold Spec.markedV
  rw [List.map_fst_zip]
  have := hiraFromV_le hstd s
  simp
  omega

/-- **C99** Let every hiragana have the script of the character it comes from.  There is a romanization in that sense, and
`to_romaji` with `upcase_katakana` gives it exactly if no syllable with letters is miscased by reading the script off the
character at the same position. -/
theorem C99_case_iff {std : Std} (hstd : std.Lawful) :
    ∃ x ∈ ['a', 'i', 'u', 'e', 'o'], ∃ y ∈ ['a', 'i', 'u', 'e', 'o'], ∀ (s : Str),
      ∃ right, Spec.Romanized (Spec.kanaTableV x y) true (Spec.ownFrom x [] s) right ∧
      ∀ (r : Str) (o : Options), o.upcase_katakana = true → to_romaji_with_opt std s o = .ok r →
        (r = right ↔ ¬ Spec.Miscased (Spec.kanaTableV x y) (Spec.markedV x s) (Spec.ownFrom x [] s)) := by
  refine ⟨vuOf std, vuOf_mem hstd, vuOf2 std, vuOf2_mem hstd, fun s => ?_⟩
  have hfst : (Spec.ownFrom (vuOf std) [] s).map Prod.fst = (Spec.markedV (vuOf std) s).map Prod.fst := by
    rw [markedV_fst hstd, ownFrom_fst]
  have hown := rom_romanizedV hstd true (Spec.ownFrom (vuOf std) [] s) (by
    intro x hx
    have hm : x.1 ∈ (flagged std s).map Prod.fst := by
      rw [flagged_markedV hstd, ← hfst]; exact List.mem_map_of_mem hx
    obtain ⟨x', hx', e⟩ := List.mem_map.1 hm
    rw [← e]
    exact flagged_no_va hstd s x' hx')
  refine ⟨_, hown, fun r o ho h => ?_⟩
  rw [to_romaji_eq hstd] at h
  cases h
  have hr := rom_romanizedV hstd o.upcase_katakana _ (flagged_no_va hstd s)
  rw [ho, flagged_markedV hstd s] at hr
  rw [ho, flagged_markedV hstd s]
  exact romanized_case (kanaTableV_nil _ _) hr hfst hown

theorem ownFrom_append (x : Char) (a b : Str) : ∀ pre,
    Spec.ownFrom x pre (a ++ b) = Spec.ownFrom x pre a ++ Spec.ownFrom x (pre ++ a) b := by
  induction a with
  | nil => intro pre; simp [Spec.ownFrom]
  | cons c a ih => intro pre; simp [Spec.ownFrom, ih]

theorem ownFrom_snd {std : Std} (hstd : std.Lawful) (s : Str) : ∀ pre, Spec.swallowed pre s = 0 →
    (Spec.ownFrom (vuOf std) pre s).map Prod.snd = s.map fun c => decide (Spec.Katakana c) := by
  induction s with
  | nil => intro _ _; rfl
  | cons c s ih =>
    intro pre h
    rw [Spec.swallowed] at h
    have h1 : Spec.swallowed (pre ++ [c]) s = 0 := by omega
    have hl := k2hP_length hstd true [c] pre
    rw [k2hP_hiraFromV hstd] at hl
    simp only [Spec.hiraFromV, Spec.swallowed, List.length_append, List.length_nil, List.length_singleton, Nat.add_zero] at hl
    obtain ⟨d, hd⟩ := List.length_eq_one_iff.1 (show (if c = 'ー' then Spec.markAfterV (vuOf std) true pre else [Spec.toHira c]).length = 1 by omega)
    rw [Spec.ownFrom, hd, List.map_append, ih _ h1]
    rfl

theorem ownFrom_katakana (x : Char) (s : Str) : ∀ pre, (∀ c ∈ s, Spec.Katakana c) →
    ∀ p ∈ Spec.ownFrom x pre s, p.2 = true := by
  induction s with
  | nil => intro _ _ p hp; cases hp
  | cons c s ih =>
    intro pre h p hp
    rw [Spec.ownFrom] at hp
    rcases List.mem_append.1 hp with hp | hp
    · obtain ⟨d, _, rfl⟩ := List.mem_map.1 hp
      exact decide_eq_true (h c List.mem_cons_self)
    · exact ih _ (fun c hc => h c (List.mem_cons_of_mem _ hc)) p hp

theorem eq_zip_parts (l : Spec.Marked) : l = (l.map Prod.fst).zip (l.map Prod.snd) := by
  induction l with
  | nil => rfl
  | cons x l ih => rw [List.map_cons, List.map_cons, List.zip_cons_cons, ← ih]

theorem zip_true (l : Str) : ∀ f : List Bool, (∀ b ∈ f, b = true) → l.length ≤ f.length → l.zip f = l.map fun c => (c, true) := by
  induction l with
  | nil => intro f _ _; rfl
  | cons c l ih =>
    intro f hf hl
    cases f with
    | nil => simp at hl
    | cons b f =>
      rw [List.zip_cons_cons, List.map_cons, ih f (fun b hb => hf b (List.mem_cons_of_mem _ hb)) (by simpa using hl),
        hf b List.mem_cons_self]

/-- the marks agree if ー is lost only in a final stretch of katakana -/
theorem marked_own {std : Std} (hstd : std.Lawful) (a b : Str) (ha : Spec.swallowed [] a = 0)
    (hb : ∀ c ∈ b, Spec.Katakana c) : Spec.markedV (vuOf std) (a ++ b) = Spec.ownFrom (vuOf std) [] (a ++ b) := by
  have hla := hiraFromV_le hstd a
  have hlen := hiraFromV_le hstd (a ++ b)
  have hA := eq_zip_parts (Spec.ownFrom (vuOf std) [] a)
  rw [ownFrom_fst, ownFrom_snd hstd a [] ha] at hA
  have hB := eq_zip_parts (Spec.ownFrom (vuOf std) ([] ++ a) b)
  rw [ownFrom_fst] at hB
  rw [ownFrom_append, hA, hB]
  unfold Spec.markedV
  rw [hiraFromV_append, List.map_append, List.zip_append (by simp; omega)]
  rw [hiraFromV_append, List.length_append, List.length_append] at hlen
  congr 1
  rw [zip_true, zip_true]
  · intro f hf
    obtain ⟨p, hp, rfl⟩ := List.mem_map.1 hf
    exact ownFrom_katakana _ b _ hb p hp
  · rw [← ownFrom_fst]; simp
  · intro f hf
    obtain ⟨c, hc, rfl⟩ := List.mem_map.1 hf
    exact decide_eq_true (hb c hc)
  · rw [List.length_map]; omega

/-- **C99** In particular the case is right if a ー is lost only in a stretch of katakana that ends the text. -/
theorem C99_last {std : Std} (hstd : std.Lawful) :
    ∃ x ∈ ['a', 'i', 'u', 'e', 'o'], ∃ y ∈ ['a', 'i', 'u', 'e', 'o'], ∀ (a b r : Str) (o : Options),
      Spec.swallowed [] a = 0 → (∀ c ∈ b, Spec.Katakana c) → o.upcase_katakana = true →
      to_romaji_with_opt std (a ++ b) o = .ok r →
      Spec.Romanized (Spec.kanaTableV x y) true (Spec.ownFrom x [] (a ++ b)) r := by
  refine ⟨vuOf std, vuOf_mem hstd, vuOf2 std, vuOf2_mem hstd, fun a b r o ha hb ho h => ?_⟩
  rw [to_romaji_eq hstd] at h
  cases h
  have hr := rom_romanizedV hstd o.upcase_katakana _ (flagged_no_va hstd (a ++ b))
  rw [flagged_markedV hstd, marked_own hstd a b ha hb, ho] at hr
  rw [flagged_markedV hstd, marked_own hstd a b ha hb, ho]
  exact hr

/-- ンー at the end does no harm, before hiragana it does: さ should not be in capitals -/
example : to_romaji_with_opt modernStd "さパンーダ".toList { upcase_katakana := true } = .ok "saPANDA".toList ∧
    to_romaji_with_opt modernStd "パンーさ".toList { upcase_katakana := true } = .ok "PANSA".toList ∧
    Spec.markedV 'o' "パンーさ".toList = [('ぱ', true), ('ん', true), ('さ', true)] ∧
    Spec.ownFrom 'o' [] "パンーさ".toList = [('ぱ', true), ('ん', true), ('さ', false)] := by decide +kernel

/-- … and the specification sees it -/
example : Spec.Miscased Spec.kanaTable [('さ', true)] [('さ', false)] := by
  refine .here (q := ['さ']) (out := "sa".toList) ⟨List.prefix_refl _, by decide +kernel, fun q' h _ => h.length_le⟩
    (by decide +kernel) ⟨'s', by decide, by decide⟩ (by simp)

end WanaKana
