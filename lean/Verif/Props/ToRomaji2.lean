import Verif.Props.ToRomaji
/-! # C32–C34, C56: `to_romaji`: case, determinism, chunks, greedy transliteration -/

namespace WanaKana
open RNode

/-! ## C56 -/

/-- The scan is greedy transliteration for every table `t` that agrees with the search on the
characters satisfying `P`. -/
theorem rom_romanized_of {std : Std} (up : Bool) (t : Spec.Table) (P : Char → Prop)
    (ht1 : ∀ c q n, (∀ d ∈ c :: q, P d) → TO_ROMAJI_NODE_TREE.rwalk std (c :: q) = some n →
      t.lookup (c :: q) = some n.output)
    (ht2 : ∀ q out, t.lookup q = some out → (TO_ROMAJI_NODE_TREE.rwalk std q).isSome ∧ q ≠ []) :
    ∀ z : List (Char × Bool), (∀ x ∈ z, P x.1) → Spec.Romanized t up z (rom std up z) := by
  intro z
  induction z using rom_ind (std := std) with
  | nil => intro _; rw [rom_nil]; exact .nil
  | miss c b z h ih =>
    intro hz
    rw [rom_miss h]
    refine .miss (x := (c, b)) ?_ (ih fun x hx => hz x (List.mem_cons_of_mem _ hx))
    intro q hq
    cases hl : t.lookup q with
    | none => rfl
    | some out =>
      obtain ⟨h1, h2⟩ := ht2 _ _ hl
      cases q with
      | nil => exact absurd rfl h2
      | cons d q =>
        have hd : d = c := by
          obtain ⟨w, ht⟩ := hq
          simp at ht
          exact ht.1
        subst hd
        rw [rwalk, h] at h1
        cases h1
  | hit z n k hk h ih =>
    intro hz
    have hmem : ∀ c ∈ z.map Prod.fst, P c := by
      intro c hc
      obtain ⟨x, hx, rfl⟩ := List.mem_map.1 hc
      exact hz x hx
    rw [rom_hit h hk]
    have hle := h.le
    rw [List.length_map] at hle
    have hlen : ((z.map Prod.fst).take k).length = k := by
      rw [List.length_take, List.length_map]; omega
    have hlook : t.lookup ((z.map Prod.fst).take k) = some n.output := by
      cases hq : (z.map Prod.fst).take k with
      | nil => rw [hq] at hlen; simp at hlen; omega
      | cons c q =>
        have hsub : ∀ d ∈ c :: q, P d := by
          intro d hd; rw [← hq] at hd; exact hmem d (List.mem_of_mem_take hd)
        apply ht1 _ _ _ hsub
        rw [← hq]; exact h.walk
    have hr := ih fun x hx => hz x (List.mem_of_mem_drop hx)
    have key : Spec.Romanized t up z ((if up = true ∧ ∀ x ∈ z.take ((z.map Prod.fst).take k).length, x.2 = true
        then n.output.map Spec.asciiUpper else n.output) ++ rom std up (z.drop k)) := by
      refine .hit (q := (z.map Prod.fst).take k) ⟨List.take_prefix _ _, by rw [hlook]; rfl, ?_⟩ hlook
        (by rw [hlen]; exact hr)
      intro q' hq' hs'
      rw [hlen]
      rcases Nat.lt_or_ge k q'.length with hlt | hge
      · exfalso
        obtain ⟨out, hout⟩ := Option.isSome_iff_exists.1 hs'
        obtain ⟨h1, h2⟩ := ht2 _ _ hout
        obtain ⟨w, ht⟩ := hq'
        have e1 : (z.map Prod.fst).take k = q'.take k := by
          rw [← ht, List.take_append_of_le_length (by omega)]
        obtain ⟨d, r, hdr⟩ : ∃ d r, q'.drop k = d :: r := by
          cases hd : q'.drop k with
          | nil => have := congrArg List.length hd; simp at this; omega
          | cons d r => exact ⟨d, r, rfl⟩
        have e2 : q' = (z.map Prod.fst).take k ++ d :: r := by
          rw [e1, ← hdr, List.take_append_drop]
        rw [e2, rwalk_append, h.walk] at h1
        have hstop := h.stop d (by
          rw [← ht, List.drop_append_of_le_length (by omega), hdr]; rfl)
        simp [rwalk, hstop] at h1
      · exact hge
    have e : (if ((z.take k).all Prod.snd && up) = true then n.output.map aUp else n.output)
        = (if up = true ∧ ∀ x ∈ z.take ((z.map Prod.fst).take k).length, x.2 = true
        then n.output.map Spec.asciiUpper else n.output) := by
      rw [hlen, asciiUpper_eq]
      by_cases hc : ((z.take k).all Prod.snd && up) = true
      · have hc' := hc
        simp only [Bool.and_eq_true, List.all_eq_true] at hc'
        rw [if_pos hc, if_pos ⟨hc'.2, hc'.1⟩]
      · rw [if_neg hc, if_neg]
        rintro ⟨h1, h2⟩
        apply hc
        simp only [Bool.and_eq_true, List.all_eq_true]
        exact ⟨h2, h1⟩
    rw [e]
    exact key

theorem rom_romanized {std : Std} (hstd : std.Lawful) (up : Bool) (z : List (Char × Bool))
    (hz : ∀ x ∈ z, x.1 ≠ 'ゔ' ∧ x.1 ≠ 'ヷ') : Spec.Romanized Spec.kanaTable up z (rom std up z) := by
  refine rom_romanized_of up _ (fun c => c ≠ 'ゔ' ∧ c ≠ 'ヷ') ?_ ?_ z hz
  · intro c q n hsub h
    exact table_of_mwalk (fun hm => (hsub _ hm).1 rfl) (fun hm => (hsub _ hm).2 rfl) hstd h
  · intro q out hl
    obtain ⟨h1, h2, h3, h4⟩ := mwalk_of_table hl
    rw [← rwalk_eq_mwalk hstd _ h3] at h1
    exact ⟨h1, h2⟩

theorem rom_romanizedV {std : Std} (hstd : std.Lawful) (up : Bool) (z : List (Char × Bool))
    (hz : ∀ x ∈ z, x.1 ≠ 'ヷ') :
    Spec.Romanized (Spec.kanaTableV (vuOf std) (vuOf2 std)) up z (rom std up z) := by
  refine rom_romanized_of up _ (fun c => c ≠ 'ヷ') ?_ ?_ z hz
  · intro c q n hsub h
    exact tableV_of_rwalk (fun hm => hsub _ hm rfl) hstd h
  · intro q out hl
    exact rwalk_of_tableV hstd hl

theorem k2hP_vu {std : Std} (hstd : std.Lawful) (dest : Bool) (s : Str) (h1 : 'ゔ' ∉ s) (h2 : 'ヴ' ∉ s) :
    ∀ {prev}, PrevOk prev → 'ゔ' ∉ k2hP std dest prev s := by
  induction s with
  | nil => intro prev _ hd; cases prev <;> simp [k2hP] at hd
  | cons c s ih =>
    intro prev hok hd
    have ih := @ih (by simp at h1; exact h1.2) (by simp at h2; exact h2.2)
    have hc1 : c ≠ 'ゔ' := by intro e; simp [e] at h1
    have hc2 : c ≠ 'ヴ' := by intro e; simp [e] at h2
    rw [k2hP_cons] at hd
    by_cases hk : keeps c = true
    · rw [if_pos hk] at hd
      rcases List.mem_cons.1 hd with e | hd
      · exact hc1 e.symm
      · exact ih hok hd
    · rw [if_neg hk] at hd
      by_cases hd' : isDash c = true
      · rw [if_pos hd'] at hd
        cases prev with
        | none =>
          rcases List.mem_cons.1 hd with e | hd
          · exact hc1 e.symm
          · exact ih hok hd
        | some p =>
          rcases List.mem_append.1 hd with hd | hd
          · have := longOut_mem hstd (hok p rfl).1 (hok p rfl).2 dest c _ hd
            revert this; decide
          · exact ih hok hd
      · rw [if_neg hd'] at hd
        by_cases ha : is_char_katakana c = true
        · rw [if_pos ha] at hd
          have hp := k2hChar_prevOk (by simpa using hk) (by simpa using hd') ha
          rcases List.mem_cons.1 hd with e | hd
          · apply hc2
            apply char_ext
            have h3 := is_char_katakana_iff.1 ha
            have h4 := k2hChar_toNat h3.1 h3.2
            rw [← e] at h4
            simp only [Char.reduceToNat] at h4 ⊢
            repeat' split at h4
            all_goals omega
          · exact ih hp hd
        · rw [if_neg ha] at hd
          rcases List.mem_cons.1 hd with e | hd
          · exact hc1 e.symm
          · exact ih prevOk_none hd

theorem flagged_markedV {std : Std} (hstd : std.Lawful) (s : Str) :
    flagged std s = Spec.markedV (vuOf std) s := by
  unfold flagged Spec.markedV
  congr 1
  · exact k2hP_hiraFromV hstd true s []
  · apply List.map_congr_left
    intro c _
    rw [Bool.eq_iff_iff, is_char_katakana_iff, decide_eq_true_iff, specKatakana_iff]

theorem flagged_marked {std : Std} (hstd : std.Lawful) (s : Str) (h2 : 'ヴ' ∉ s) :
    flagged std s = Spec.marked s := by
  rw [flagged_markedV hstd, Spec.markedV, Spec.marked, hiraFromV_of_not_mem _ _ _ _ (by simpa using h2)]

theorem flagged_no_va {std : Std} (hstd : std.Lawful) (s : Str) : ∀ x ∈ flagged std s, x.1 ≠ 'ヷ' := by
  intro x hx
  have hm : x.1 ∈ k2hP std true none s := by
    rw [← flagged_fst hstd]; exact List.mem_map_of_mem hx
  intro e
  have := k2hP_out hstd true s prevOk_none _ hm
  rw [e] at this
  revert this; decide

theorem flagged_no_vu {std : Std} (hstd : std.Lawful) (s : Str) (h1 : 'ゔ' ∉ s) (h2 : 'ヴ' ∉ s) :
    ∀ x ∈ flagged std s, x.1 ≠ 'ゔ' ∧ x.1 ≠ 'ヷ' := by
  intro x hx
  have hm : x.1 ∈ k2hP std true none s := by
    rw [← flagged_fst hstd]; exact List.mem_map_of_mem hx
  refine ⟨?_, flagged_no_va hstd s x hx⟩
  intro e; rw [e] at hm; exact k2hP_vu hstd true s h1 h2 prevOk_none hm

/-- **C56** `to_romaji` is greedy transliteration of the hiragana form with the Hepburn table.  Which
romaji ゔ and っゔ have is the same for all texts: `v` or `vv` and some vowel. -/
theorem C56_greedy {std : Std} (hstd : std.Lawful) :
    ∃ x ∈ ['a', 'i', 'u', 'e', 'o'], ∃ y ∈ ['a', 'i', 'u', 'e', 'o'], ∀ (s r : Str) (o : Options),
      to_romaji_with_opt std s o = .ok r →
      Spec.Romanized (Spec.kanaTableV x y) o.upcase_katakana (Spec.markedV x s) r := by
  refine ⟨vuOf std, vuOf_mem hstd, vuOf2 std, vuOf2_mem hstd, fun s r o h => ?_⟩
  rw [to_romaji_eq hstd] at h
  cases h
  rw [← flagged_markedV hstd s]
  exact rom_romanizedV hstd _ _ (flagged_no_va hstd s)

/-- **C56** with the binary search of current Rust ゔ is vo, and so is っゔ with two v -/
theorem C56_greedy_modern (s r : Str) (o : Options) (h : to_romaji_with_opt modernStd s o = .ok r) :
    Spec.Romanized (Spec.kanaTableV 'o' 'o') o.upcase_katakana (Spec.markedV 'o' s) r := by
  have h1 : vuOf modernStd = 'o' := by decide +kernel
  have h2 : vuOf2 modernStd = 'o' := by decide +kernel
  rw [to_romaji_eq modernStd_lawful] at h
  cases h
  rw [← h1, ← flagged_markedV modernStd_lawful s]
  have := rom_romanizedV modernStd_lawful o.upcase_katakana _ (flagged_no_va modernStd_lawful s)
  rwa [h1, h2] at this

example : (Spec.kanaTableV 'o' 'o').lookup "っゔ".toList = some "vvo".toList
    ∧ (Spec.kanaTableV 'u' 'o').lookup "ゔゃ".toList = some "vya".toList := by decide +kernel

/-- **C56** without ゔ and ヴ the table is fixed -/
theorem C56_greedy_no_vu {std : Std} (hstd : std.Lawful) (s r : Str) (o : Options) (h1 : 'ゔ' ∉ s) (h2 : 'ヴ' ∉ s)
    (h : to_romaji_with_opt std s o = .ok r) :
    Spec.Romanized Spec.kanaTable o.upcase_katakana (Spec.marked s) r := by
  rw [to_romaji_eq hstd] at h
  cases h
  rw [← flagged_marked hstd s h2]
  exact rom_romanized hstd _ _ (flagged_no_vu hstd s h1 h2)

example : Spec.marked "キャっーー".toList =
    [('き', true), ('ゃ', true), ('っ', false), ('ー', true), ('ー', true)] := by decide +kernel

/-- a table without an entry for the empty text determines the transliteration -/
theorem romanized_unique {t : Spec.Table} (ht : t.lookup [] = none) {up : Bool} {z : Spec.Marked} {r₁ r₂ : Str}
    (h₁ : Spec.Romanized t up z r₁) (h₂ : Spec.Romanized t up z r₂) : r₁ = r₂ := by
  induction h₁ generalizing r₂ with
  | nil =>
    cases h₂ with
    | nil => rfl
    | hit hk hl _ =>
      have hp := hk.isPrefix
      simp at hp
      rw [hp, ht] at hl; cases hl
  | hit hk hl hr ih =>
    cases h₂ with
    | nil =>
      have hp := hk.isPrefix
      simp at hp
      rw [hp, ht] at hl; cases hl
    | hit hk' hl' hr' =>
      have hq := List.prefix_of_prefix_length_le hk.isPrefix hk'.isPrefix
        (hk'.longest _ hk.isPrefix hk.key)
      have hle := hk.longest _ hk'.isPrefix hk'.key
      have heq := hq.eq_of_length_le hle
      subst heq
      rw [hl] at hl'
      cases hl'
      rw [ih hr']
    | miss hn hr' =>
      have := hn _ hk.isPrefix
      rw [hl] at this; cases this
  | miss hn hr ih =>
    cases h₂ with
    | hit hk' hl' _ =>
      have := hn _ hk'.isPrefix
      rw [hl'] at this; cases this
    | miss _ hr' => rw [ih hr']

theorem kanaTable_nil : Spec.kanaTable.lookup [] = none := by
  cases h : Spec.kanaTable.lookup [] with
  | none => rfl
  | some o => exact absurd rfl (mwalk_of_table h).2.1

/-- **C56** the specification determines the result -/
theorem C56_unique (x y : Char) (up : Bool) (z : Spec.Marked) (r₁ r₂ : Str)
    (h₁ : Spec.Romanized (Spec.kanaTableV x y) up z r₁) (h₂ : Spec.Romanized (Spec.kanaTableV x y) up z r₂) :
    r₁ = r₂ := by
  refine romanized_unique ?_ h₁ h₂
  cases hl : (Spec.kanaTableV x y).lookup [] with
  | none => rfl
  | some out =>
    exfalso
    unfold Spec.kanaTableV at hl
    rw [lookup_append_right kanaTable_nil] at hl
    have h1 : (Spec.vuRows x).lookup [] = none := by
      cases h : (Spec.vuRows x).lookup [] with
      | none => rfl
      | some o => obtain ⟨_, e⟩ := vuRows_vu h; cases e
    rw [lookup_append_right h1] at hl
    obtain ⟨r, _, hr⟩ := List.mem_map.1 (mem_of_lookup hl)
    simp at hr

/-! ## C32 -/

theorem romanized_segments {t : Spec.Table} {z : Spec.Marked} {r : Str} (h : Spec.Romanized t true z r) :
    ∀ orig : Str, z.map Prod.snd = orig.map (fun c => decide (Spec.Katakana c)) →
      (∀ x ∈ z, (t.lookup [x.1]).isNone → ¬ Spec.Convertible x.1) →
      ∃ gs : List Spec.Segment, (∀ g ∈ gs, g.Valid t) ∧ orig = gs.flatMap (·.orig) ∧
        z.map Prod.fst = gs.flatMap (·.hira) ∧ r = gs.flatMap (·.cased t) := by
  induction h with
  | nil =>
    intro orig ho _
    have : orig = [] := by simpa using ho.symm
    exact ⟨[], by simp, by simp [this], rfl, rfl⟩
  | @hit s q out r hk hl hr ih =>
    intro orig ho hn
    have hlen : orig.length = s.length := by have := congrArg List.length ho; simpa using this.symm
    obtain ⟨gs, h1, h2, h3, h4⟩ := ih (orig.drop q.length) (by rw [List.map_drop, ho, List.map_drop])
      (fun x hx => hn x (List.mem_of_mem_drop hx))
    have hql : q.length ≤ s.length := by have := hk.isPrefix.length_le; simpa using this
    have hq : (s.map Prod.fst).take q.length = q := (List.prefix_iff_eq_take.1 hk.isPrefix).symm
    refine ⟨⟨orig.take q.length, q, out⟩ :: gs, ?_, ?_, ?_, ?_⟩
    · intro g hg
      rcases List.mem_cons.1 hg with rfl | hg
      · exact ⟨by simp; omega, Or.inl hl⟩
      · exact h1 g hg
    · rw [List.flatMap_cons, ← h2, List.take_append_drop]
    · rw [List.flatMap_cons, ← h3, List.map_drop]
      conv => lhs; rw [← List.take_append_drop q.length (s.map Prod.fst), hq]
    · rw [List.flatMap_cons, ← h4]
      congr 1
      unfold Spec.Segment.cased
      have hiff : (∀ x ∈ s.take q.length, x.2 = true) ↔ ∀ c ∈ orig.take q.length, Spec.Katakana c := by
        have he : (s.take q.length).map Prod.snd = (orig.take q.length).map fun c => decide (Spec.Katakana c) := by
          rw [List.map_take, ho, List.map_take]
        constructor
        · intro hx c hc
          have : decide (Spec.Katakana c) ∈ (s.take q.length).map Prod.snd := by
            rw [he]; exact List.mem_map_of_mem hc
          obtain ⟨x, hx1, hx2⟩ := List.mem_map.1 this
          rw [hx x hx1] at hx2
          exact of_decide_eq_true hx2.symm
        · intro hc x hx
          have : x.2 ∈ (orig.take q.length).map fun c => decide (Spec.Katakana c) := by
            rw [← he]; exact List.mem_map_of_mem hx
          obtain ⟨c, hc1, hc2⟩ := List.mem_map.1 this
          rw [← hc2]; exact decide_eq_true (hc c hc1)
      by_cases hc : ∀ c ∈ orig.take q.length, Spec.Katakana c
      · rw [if_pos ⟨rfl, hiff.2 hc⟩, if_pos ⟨hl, hc⟩]
      · rw [if_neg fun h => hc (hiff.1 h.2), if_neg fun h => hc h.2]
  | @miss x s r hn hr ih =>
    intro orig ho hnn
    cases orig with
    | nil => cases ho
    | cons c orig =>
      simp only [List.map_cons, List.cons.injEq] at ho
      obtain ⟨gs, h1, h2, h3, h4⟩ := ih orig ho.2 (fun y hy => hnn y (List.mem_cons_of_mem _ hy))
      have hconv : ¬ Spec.Convertible x.1 := by
        apply hnn x List.mem_cons_self
        rw [hn [x.1] ⟨s.map Prod.fst, by simp⟩]; rfl
      refine ⟨⟨[c], [x.1], [x.1]⟩ :: gs, ?_, ?_, ?_, ?_⟩
      · intro g hg
        rcases List.mem_cons.1 hg with rfl | hg
        · exact ⟨rfl, Or.inr ⟨x.1, rfl, rfl, hconv⟩⟩
        · exact h1 g hg
      · rw [List.flatMap_cons, ← h2]; rfl
      · rw [List.flatMap_cons, ← h3]; rfl
      · rw [List.flatMap_cons, ← h4]
        have : Spec.Segment.cased t ⟨[c], [x.1], [x.1]⟩ = [x.1] := by
          unfold Spec.Segment.cased
          rw [if_neg]
          rintro ⟨h, _⟩
          rw [hn [x.1] ⟨s.map Prod.fst, by simp⟩] at h
          cases h
        rw [this]; rfl

theorem copied_not_convertible {std : Std} (hstd : std.Lawful) (s : Str) :
    ∀ x ∈ flagged std s, ((Spec.kanaTableV (vuOf std) (vuOf2 std)).lookup [x.1]).isNone →
      ¬ Spec.Convertible x.1 := by
  intro x hx hn hc
  have hw := flagged_no_va hstd s x hx
  have hk : romajiKey x.1 = true := by
    rcases convertible_iff.1 hc with hk | ⟨hk, hk'⟩
    · exact hk
    · have hm : x.1 ∈ k2hP std true none s := by
        rw [← flagged_fst hstd]; exact List.mem_map_of_mem hx
      rcases k2hP_out hstd true s prevOk_none _ hm with h | h | h
      · rw [hk'] at h; cases h
      · have : x.1 = 'ー' := char_ext (isDash_iff.1 h)
        rw [this]; decide
      · rw [hk] at h; cases h
  obtain ⟨n, hf⟩ := root_some hstd hk
  have := tableV_of_rwalk (c := x.1) (q := []) (n := n) (by simpa using hw.symm) hstd
    (by simp [rwalk, hf])
  rw [this] at hn; cases hn

/-- **C32** (partial: no ー is swallowed after ン or ッ) with upper-case katakana the text is cut
into pieces; the romaji of a piece is in capitals exactly if the piece is entirely katakana. -/
theorem C32_segments_partial {std : Std} (hstd : std.Lawful) :
    ∃ x ∈ ['a', 'i', 'u', 'e', 'o'], ∃ y ∈ ['a', 'i', 'u', 'e', 'o'], ∀ (s r : Str) (o : Options),
      o.upcase_katakana = true → Spec.swallowed [] s = 0 → to_romaji_with_opt std s o = .ok r →
    ∃ gs : List Spec.Segment, (∀ g ∈ gs, g.Valid (Spec.kanaTableV x y)) ∧ s = gs.flatMap (·.orig) ∧
      Spec.hiraFromV x true [] s = gs.flatMap (·.hira) ∧ r = gs.flatMap (·.cased (Spec.kanaTableV x y)) := by
  refine ⟨vuOf std, vuOf_mem hstd, vuOf2 std, vuOf2_mem hstd, fun s r o ho hs h => ?_⟩
  rw [to_romaji_eq hstd] at h
  cases h
  have hr := rom_romanizedV hstd o.upcase_katakana _ (flagged_no_va hstd s)
  rw [ho, flagged_markedV hstd s] at hr
  have hlen := k2hP_length hstd true s []
  rw [hs] at hlen
  have e : k2hP std true none s = Spec.hiraFromV (vuOf std) true [] s := k2hP_hiraFromV hstd true s []
  have hlen' : (Spec.hiraFromV (vuOf std) true [] s).length = s.length := by
    rw [← e]; simpa [k2hPrev] using hlen
  obtain ⟨gs, g1, g2, g3, g4⟩ := romanized_segments hr s
    (by unfold Spec.markedV; rw [List.map_snd_zip]; simp [hlen'])
    (by rw [← flagged_markedV hstd s]; exact copied_not_convertible hstd s)
  refine ⟨gs, g1, g2, ?_, by rw [ho, flagged_markedV hstd s]; exact g4⟩
  rw [← g3]
  unfold Spec.markedV
  rw [List.map_fst_zip]
  simp [hlen']

example : Spec.swallowed [] "ワニカニ、すごいコーヒー".toList = 0
    ∧ to_romaji_with_opt modernStd "ワニカニ、すごいコーヒー".toList { upcase_katakana := true }
      = .ok "WANIKANI,sugoiKOOHII".toList := by decide +kernel

/-- **C32** is false in general: after a swallowed ー the flags are read one place too early, so a
hiragana さ at the end is put in capitals. -/
theorem C32_false : ¬ ∀ s r : Str, to_romaji_with_opt modernStd (s ++ ['さ']) { upcase_katakana := true } = .ok r →
    r.getLast? = some 'a' := by
  intro h
  have := h "ンーア".toList "N'ASA".toList (by decide +kernel)
  revert this; decide

/-! ## C33 -/

/-- **C33** is false in general: two correct binary searches disagree on っゔ, because ゔ is listed
five times. -/
theorem C33_false : modernStd.Lawful ∧ legacyStd.Lawful ∧
    to_romaji_with_opt modernStd "っゔ".toList {} ≠ to_romaji_with_opt legacyStd "っゔ".toList {} :=
  ⟨modernStd_lawful, legacyStd_lawful, by decide +kernel⟩

theorem rstops_std {std std' : Std} (hstd : std.Lawful) (hstd' : std'.Lawful) {s : Str} {n : RNode} {k : Nat}
    (hv : 'ゔ' ∉ s) (h : RStops std TO_ROMAJI_NODE_TREE s n k) : RStops std' TO_ROMAJI_NODE_TREE s n k := by
  have hw : 'ゔ' ∉ s.take k := fun hm => hv (List.mem_of_mem_take hm)
  have hp := rwalk_mem_paths hstd _ romaji_sorted h.walk
  refine ⟨h.le, ?_, ?_⟩
  · rw [rwalk_eq_mwalk hstd' _ hw, ← rwalk_eq_mwalk hstd _ hw]; exact h.walk
  · intro c hc
    have hne : c ≠ 'ゔ' := by
      rintro rfl
      exact hv (List.mem_of_mem_drop (List.mem_of_mem_head? hc))
    rw [rfind_eq_mfind hstd' hp hne, ← rfind_eq_mfind hstd hp hne]
    exact h.stop c hc

theorem rom_std {std std' : Std} (hstd : std.Lawful) (hstd' : std'.Lawful) (up : Bool) :
    ∀ z : List (Char × Bool), (∀ x ∈ z, x.1 ≠ 'ゔ') → rom std up z = rom std' up z := by
  intro z
  induction z using rom_ind (std := std) with
  | nil => intro _; rw [rom_nil, rom_nil]
  | miss c b z h ih =>
    intro hz
    have hne : c ≠ 'ゔ' := hz (c, b) List.mem_cons_self
    have h' : TO_ROMAJI_NODE_TREE.rfind std' c = none := by
      have hp : ([], TO_ROMAJI_NODE_TREE) ∈ TO_ROMAJI_NODE_TREE.paths := rwalk_mem_paths hstd [] romaji_sorted rfl
      rw [rfind_eq_mfind hstd' hp hne, ← rfind_eq_mfind hstd hp hne, h]
    rw [rom_miss h, rom_miss h', ih fun x hx => hz x (List.mem_cons_of_mem _ hx)]
  | hit z n k hk h ih =>
    intro hz
    have h' := rstops_std hstd hstd' (s := z.map Prod.fst) (by
      intro hm
      obtain ⟨x, hx, e⟩ := List.mem_map.1 hm
      exact hz x hx e) h
    rw [rom_hit h hk, rom_hit h' hk, ih fun x hx => hz x (List.mem_of_mem_drop hx)]

/-- **C33** (partial: without ゔ and ヴ) the result does not depend on which of several equal
elements the standard library's binary search finds, nor on its other unspecified choices. -/
theorem C33_deterministic_partial {std std' : Std} (hstd : std.Lawful) (hstd' : std'.Lawful) (s : Str)
    (o : Options) (h1 : 'ゔ' ∉ s) (h2 : 'ヴ' ∉ s) :
    to_romaji_with_opt std s o = to_romaji_with_opt std' s o := by
  rw [to_romaji_eq hstd, to_romaji_eq hstd', flagged_marked hstd s h2, flagged_marked hstd' s h2]
  rw [rom_std hstd hstd']
  intro x hx
  rw [← flagged_marked hstd s h2] at hx
  exact (flagged_no_vu hstd s h1 h2 x hx).1

theorem rom_single {std : Std} (hstd : std.Lawful) {q : Str} {n : RNode} (hq : q ≠ [])
    (hk : ∀ c ∈ q, is_char_katakana c = false)
    (h : TO_ROMAJI_NODE_TREE.rwalk std q = some n) : to_romaji_with_opt std q {} = .ok n.output := by
  rw [to_romaji_eq hstd]
  congr 1
  have hid : k2hP std true none q = q := k2hP_id std true q fun d hd => Or.inr (Or.inr (hk d hd))
  have hf : (flagged std q).map Prod.fst = q := by rw [flagged_fst hstd, hid]
  have hl : (flagged std q).length = q.length := by have := congrArg List.length hf; simpa using this
  have hpos := List.length_pos_iff.2 hq
  rw [rom_hit (n := n) (k := q.length)]
  · rw [← hl, List.drop_length, rom_nil]
    simp
  · rw [hf]
    exact ⟨Nat.le_refl _, by rw [List.take_length]; exact h, by simp⟩
  · omega

/-- **C33** the two kana ゔ and っゔ are the only source of freedom: implementations of the binary search
that agree on these agree on every text under every option. -/
theorem C33_only_vu {std std' : Std} (hstd : std.Lawful) (hstd' : std'.Lawful)
    (h1 : to_romaji_with_opt std ['ゔ'] {} = to_romaji_with_opt std' ['ゔ'] {})
    (h2 : to_romaji_with_opt std ['っ', 'ゔ'] {} = to_romaji_with_opt std' ['っ', 'ゔ'] {})
    (s : Str) (o : Options) : to_romaji_with_opt std s o = to_romaji_with_opt std' s o := by
  have e1 : vuOf std = vuOf std' := by
    obtain ⟨n, hn, _, hx⟩ := vu_node hstd
    obtain ⟨n', hn', _, hx'⟩ := vu_node hstd'
    rw [rom_single hstd (by simp) (by decide) hn, rom_single hstd' (by simp) (by decide) hn'] at h1
    rw [← hx, ← hx', Except.ok.inj h1]
  have e2 : vuOf2 std = vuOf2 std' := by
    obtain ⟨_, n, _, _, hn, _, hx⟩ := vu_node2 hstd
    obtain ⟨_, n', _, _, hn', _, hx'⟩ := vu_node2 hstd'
    rw [rom_single hstd (by simp) (by decide) hn, rom_single hstd' (by simp) (by decide) hn'] at h2
    rw [← hx, ← hx', Except.ok.inj h2]
  have r1 := rom_romanizedV hstd o.upcase_katakana _ (flagged_no_va hstd s)
  have r2 := rom_romanizedV hstd' o.upcase_katakana _ (flagged_no_va hstd' s)
  rw [to_romaji_eq hstd, to_romaji_eq hstd']
  rw [flagged_markedV hstd] at r1
  rw [flagged_markedV hstd', ← e1, ← e2] at r2
  rw [flagged_markedV hstd, flagged_markedV hstd', ← e1]
  rw [C56_unique _ _ _ _ _ _ r1 r2]

example : to_romaji_with_opt modernStd ['ゔ'] {} = .ok "vo".toList
    ∧ to_romaji_with_opt modernStd ['っ', 'ゔ'] {} = .ok "vvo".toList := by decide +kernel

/-! ## C34 -/

theorem rom_append {std : Std} (hstd : std.Lawful) (up : Bool) (w : List (Char × Bool))
    (hw : ∀ x, w.head? = some x → romajiKey x.1 = false) :
    ∀ z : List (Char × Bool), rom std up (z ++ w) = rom std up z ++ rom std up w := by
  intro z
  induction z using rom_ind (std := std) with
  | nil => rw [rom_nil]; rfl
  | miss c b z h ih => rw [List.cons_append, rom_miss h, rom_miss h, ih]; rfl
  | hit z n k hk h ih =>
    have hle := h.le
    rw [List.length_map] at hle
    have h' : RStops std TO_ROMAJI_NODE_TREE ((z ++ w).map Prod.fst) n k := by
      rw [List.map_append]
      apply h.append
      intro _ c hc
      rw [List.head?_map] at hc
      obtain ⟨x, hx, rfl⟩ := Option.map_eq_some_iff.1 hc
      cases hf : n.rfind std x.1 with
      | none => rfl
      | some y =>
        have := rfind_key hstd h.walk hf
        rw [hw x hx] at this; cases this
    rw [rom_hit h' hk, rom_hit h hk, List.take_append_of_le_length hle, List.drop_append_of_le_length hle, ih,
      List.append_assoc]

theorem plain_head {c : Char} (n1 : ¬ Spec.Convertible c) (n2 : ¬ Spec.Katakana c) :
    romajiKey c = false ∧ keeps c = false ∧ isDash c = false ∧ is_char_katakana c = false := by
  have n0 : romajiKey c = false := by
    cases hc : romajiKey c with
    | false => rfl
    | true => exact absurd (convertible_iff.2 (Or.inl hc)) n1
  have m1 : keeps c = false := by
    cases hc : keeps c with
    | false => rfl
    | true =>
      exfalso
      rcases keeps_iff.1 hc with h | h | h
      · rw [show c = '・' from char_ext h] at n0; revert n0; decide
      · rw [show c = 'ヵ' from char_ext h] at n2; revert n2; decide
      · rw [show c = 'ヶ' from char_ext h] at n2; revert n2; decide
  have m2 : isDash c = false := by
    cases hc : isDash c with
    | false => rfl
    | true => rw [show c = 'ー' from char_ext (isDash_iff.1 hc)] at n0; revert n0; decide
  have m3 : is_char_katakana c = false := by
    cases hc : is_char_katakana c with
    | false => rfl
    | true => exact absurd (Or.inr ⟨hc, m1⟩) (fun h => n1 (convertible_iff.2 h))
  exact ⟨n0, m1, m2, m3⟩

theorem k2hP_plain {c : Char} (n1 : ¬ Spec.Convertible c) (n2 : ¬ Spec.Katakana c) (std : Std) (prev : Option Char)
    (b : Str) : k2hP std true prev (c :: b) = c :: k2hP std true none b := by
  obtain ⟨_, m1, m2, m3⟩ := plain_head n1 n2
  rw [k2hP_cons]
  simp [m1, m2, m3]

/-- **C34** text can be converted chunk by chunk if chunks are cut in front of a character that is
neither converted nor katakana. -/
theorem C34_chunks {std : Std} (hstd : std.Lawful) (a b : Str) (o : Options)
    (hb : ∀ c, b.head? = some c → ¬ Spec.Convertible c ∧ ¬ Spec.Katakana c)
    (ha : o.upcase_katakana = false ∨ Spec.swallowed [] a = 0) {ra rb : Str}
    (h1 : to_romaji_with_opt std a o = .ok ra) (h2 : to_romaji_with_opt std b o = .ok rb) :
    to_romaji_with_opt std (a ++ b) o = .ok (ra ++ rb) := by
  rw [to_romaji_eq hstd] at h1 h2 ⊢
  cases h1
  cases h2
  congr 1
  have hk : k2hP std true none (a ++ b) = k2hP std true none a ++ k2hP std true none b := by
    rw [k2hP_append]
    congr 1
    cases b with
    | nil => cases k2hPrev none a <;> rfl
    | cons c b =>
      obtain ⟨n1, n2⟩ := hb c rfl
      rw [k2hP_plain n1 n2, k2hP_plain n1 n2]
  have hw : ∀ x, (flagged std b).head? = some x → romajiKey x.1 = false := by
    intro x hx
    cases b with
    | nil => simp [flagged] at hx
    | cons c b =>
      obtain ⟨n1, n2⟩ := hb c rfl
      unfold flagged at hx
      rw [k2hP_plain n1 n2] at hx
      cases hx
      exact (plain_head n1 n2).1
  rw [← rom_append hstd _ _ hw]
  rcases ha with hu | hs
  · rw [hu]
    apply rom_flag
    rw [List.map_append, flagged_fst hstd, flagged_fst hstd, flagged_fst hstd, hk]
  · have hlen := k2hP_length hstd true a []
    rw [hs] at hlen
    congr 1
    unfold flagged
    rw [hk, List.map_append, List.zip_append]
    simpa [k2hPrev] using hlen

example : ¬ Spec.Convertible '漢' ∧ ¬ Spec.Katakana '漢' ∧ ¬ Spec.Convertible ' ' ∧ ¬ Spec.Katakana ' ' := by
  decide +kernel
example : to_romaji_with_opt modernStd "サッカー したい".toList { upcase_katakana := true }
    = .ok "SAKKAA shitai".toList := by decide +kernel

/-- **C34** the condition on `a` is needed: a swallowed ー in the first chunk shifts the case of the
second chunk. -/
theorem C34_upcase_false : to_romaji_with_opt modernStd "ンー".toList { upcase_katakana := true } = .ok "N".toList
    ∧ to_romaji_with_opt modernStd "xサ".toList { upcase_katakana := true } = .ok "xSA".toList
    ∧ to_romaji_with_opt modernStd "ンーxサ".toList { upcase_katakana := true } = .ok "Nxsa".toList := by
  decide +kernel

end WanaKana
