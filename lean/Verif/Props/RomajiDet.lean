import Verif.Props.RomajiCut
/-! # C33: exactly which texts have a determined romanization -/

namespace WanaKana
open RNode

/-- a search that returns the second match if there is one, else the only one -/
def secondSearch (keys : List Char) (k : Char) : Option Nat :=
  (keys.findIdx? (· == k)).map fun i => if keys[i + 1]? = some k then i + 1 else i

/-- a standard library with this search -/
def secondStd : Std := stdWith secondSearch

theorem secondStd_lawful : secondStd.Lawful := by
  apply stdWith_lawful
  · intro keys k i _ h
    unfold secondSearch at h
    obtain ⟨j, hj, e⟩ := Option.map_eq_some_iff.1 h
    split at e
    · next h' => rw [← e, h']
    · obtain ⟨hlt, h1, _⟩ := List.findIdx?_eq_some_iff_getElem.1 hj
      rw [← e, List.getElem?_eq_getElem hlt, beq_iff_eq.1 h1]
  · intro keys k _ h hk
    unfold secondSearch at h
    rw [Option.map_eq_none_iff, List.findIdx?_eq_none_iff] at h
    have := h k hk
    simp at this

theorem vu_second : vuOf secondStd = 'a' ∧ vuOf2 secondStd = 'a' := by decide +kernel
theorem vu_modern : vuOf modernStd = 'o' ∧ vuOf2 modernStd = 'o' := by decide +kernel

/-- the two tables have the same keys; only the rows of ゔ differ, and ゔ ends its keys -/
theorem vu_rows : ((Spec.kanaTableV 'a' 'a').map fun x => x.1) = ((Spec.kanaTableV 'o' 'o').map fun x => x.1) ∧
    ((Spec.kanaTableV 'a' 'a').all fun x => !x.1.dropLast.contains 'ゔ' && x.1 != [] &&
    match (Spec.kanaTableV 'a' 'a').lookup x.1, (Spec.kanaTableV 'o' 'o').lookup x.1 with
      | some r1, some r2 => if x.1.contains 'ゔ' then r1 != r2 && r1.length == r2.length else r1 == r2
      | _, _ => false) = true ∧ ((Spec.kanaTableV 'a' 'a').lookup ['ゔ']).isSome := by decide +kernel

theorem lookup_isSome_iff {t : Spec.Table} {q : Str} : (t.lookup q).isSome ↔ q ∈ t.map fun x => x.1 := by
  induction t with
  | nil => simp
  | cons x t ih =>
    obtain ⟨a, b⟩ := x
    rw [List.lookup_cons]
    by_cases h : q = a
    · subst h; simp
    · have : (q == a) = false := by simpa using h
      simp only [this, ih, List.map_cons, List.mem_cons, h, false_or]

/-- what is read at the beginning is the same for both tables, up to the first ゔ -/
theorem vu_differ : ∀ (p t1 t2 : Spec.Marked) (r1 r2 : Str), (∀ x ∈ p, x.1 ≠ 'ゔ') →
    ∀ b1 b2, Spec.Romanized (Spec.kanaTableV 'a' 'a') false (p ++ ('ゔ', b1) :: t1) r1 →
    Spec.Romanized (Spec.kanaTableV 'o' 'o') false (p ++ ('ゔ', b2) :: t2) r2 → r1 ≠ r2 := by
  have hkeys : ∀ q, ((Spec.kanaTableV 'a' 'a').lookup q).isSome ↔ ((Spec.kanaTableV 'o' 'o').lookup q).isSome := by
    intro q; rw [lookup_isSome_iff, lookup_isSome_iff, vu_rows.1]
  have hrow : ∀ q out, (Spec.kanaTableV 'a' 'a').lookup q = some out → 'ゔ' ∉ q.dropLast ∧ q ≠ [] ∧
      ∃ out2, (Spec.kanaTableV 'o' 'o').lookup q = some out2 ∧
        (('ゔ' ∈ q ∧ out ≠ out2 ∧ out.length = out2.length) ∨ ('ゔ' ∉ q ∧ out = out2)) := by
    intro q out h
    have := List.all_eq_true.1 vu_rows.2.1 _ (mem_of_lookup h)
    simp only [h] at this
    cases h2 : (Spec.kanaTableV 'o' 'o').lookup q with
    | none => simp [h2] at this
    | some out2 =>
      simp only [h2, Bool.and_eq_true, Bool.not_eq_true', List.contains_eq_mem, decide_eq_false_iff_not, bne_iff_ne,
        decide_eq_true_iff] at this
      refine ⟨this.1.1, this.1.2, out2, rfl, ?_⟩
      have h3 := this.2
      split at h3
      · left
        simp only [Bool.and_eq_true, bne_iff_ne, beq_iff_eq] at h3
        exact ⟨by assumption, h3.1, h3.2⟩
      · right
        exact ⟨by assumption, beq_iff_eq.1 h3⟩
  -- a key never reads past the first ゔ
  have hread : ∀ (p : Str) (t : Str) q, (∀ x ∈ p, x ≠ 'ゔ') → ((Spec.kanaTableV 'a' 'a').lookup q).isSome →
      q <+: p ++ 'ゔ' :: t → q <+: p ++ ['ゔ'] := by
    intro p t q hp hs hq
    obtain ⟨out, ho⟩ := Option.isSome_iff_exists.1 hs
    obtain ⟨h1, h2, _⟩ := hrow q out ho
    rcases Nat.lt_or_ge (p.length + 1) q.length with hlt | hge
    · exfalso
      apply h1
      have hpre : p ++ ['ゔ'] <+: q := by
        apply List.prefix_of_prefix_length_le (l₃ := p ++ 'ゔ' :: t) _ hq (by simp; omega)
        exact ⟨t, by simp⟩
      obtain ⟨w, hw⟩ := hpre
      have hwne : w ≠ [] := by
        rintro rfl
        have := congrArg List.length hw
        simp at this; omega
      rw [← hw, List.dropLast_append_of_ne_nil hwne]
      simp
    · apply List.prefix_of_prefix_length_le hq ⟨t, by simp⟩
      simp; omega
  intro p
  induction p using list_strong with
  | _ p ih =>
    intro t1 t2 r1 r2 hp b1 b2 h1 h2
    have hp' : ∀ x ∈ p.map Prod.fst, x ≠ 'ゔ' := by
      intro x hx
      obtain ⟨y, hy, rfl⟩ := List.mem_map.1 hx
      exact hp y hy
    have e1 : (p ++ ('ゔ', b1) :: t1).map Prod.fst = p.map Prod.fst ++ 'ゔ' :: t1.map Prod.fst := by simp
    have e2 : (p ++ ('ゔ', b2) :: t2).map Prod.fst = p.map Prod.fst ++ 'ゔ' :: t2.map Prod.fst := by simp
    have tr12 : ∀ q, ((Spec.kanaTableV 'a' 'a').lookup q).isSome → q <+: (p ++ ('ゔ', b1) :: t1).map Prod.fst →
        q <+: (p ++ ('ゔ', b2) :: t2).map Prod.fst := by
      intro q hs hq
      rw [e1] at hq; rw [e2]
      exact (hread _ _ _ hp' hs hq).trans ⟨t2.map Prod.fst, by simp⟩
    have tr21 : ∀ q, ((Spec.kanaTableV 'a' 'a').lookup q).isSome → q <+: (p ++ ('ゔ', b2) :: t2).map Prod.fst →
        q <+: (p ++ ('ゔ', b1) :: t1).map Prod.fst := by
      intro q hs hq
      rw [e2] at hq; rw [e1]
      exact (hread _ _ _ hp' hs hq).trans ⟨t1.map Prod.fst, by simp⟩
    generalize hz1 : p ++ ('ゔ', b1) :: t1 = z1 at h1 tr12 tr21
    generalize hz2 : p ++ ('ゔ', b2) :: t2 = z2 at h2 tr12 tr21
    cases h1 with
    | nil => cases p <;> cases hz1
    | @hit _ q out r hk hl hr =>
      obtain ⟨n1, n2, out2, ho2, hcase⟩ := hrow q out hl
      cases h2 with
      | nil => cases p <;> cases hz2
      | @miss x z2' r' hno _ =>
        have := hno q (tr12 q (by rw [hl]; rfl) hk.isPrefix)
        rw [ho2] at this; cases this
      | @hit _ q2 out2' r' hk2 hl2 hr2 =>
        have hqq : q2 = q := by
          have hs2 : ((Spec.kanaTableV 'a' 'a').lookup q2).isSome := by rw [hkeys, hl2]; rfl
          have l1 := hk.longest q2 (tr21 q2 hs2 hk2.isPrefix) hs2
          have l2 := hk2.longest q (tr12 q (by rw [hl]; rfl) hk.isPrefix) (by rw [ho2]; rfl)
          exact (List.prefix_of_prefix_length_le hk2.isPrefix (tr12 q (by rw [hl]; rfl) hk.isPrefix) l1).eq_of_length
            (by omega)
        subst hqq
        rw [ho2] at hl2; cases hl2
        simp only [Bool.false_eq_true, false_and, if_false]
        rcases hcase with ⟨_, hne, hlen⟩ | ⟨hnv, rfl⟩
        · intro e
          exact hne (List.append_inj_left e hlen)
        · have hlen : q2.length ≤ p.length := by
            rcases Nat.lt_or_ge p.length q2.length with hlt | hge
            · exfalso
              apply hnv
              have hp1 := hk.isPrefix
              rw [← hz1, e1] at hp1
              have : p.map Prod.fst ++ ['ゔ'] <+: q2 :=
                List.prefix_of_prefix_length_le ⟨t1.map Prod.fst, by simp⟩ hp1 (by simp; omega)
              exact this.subset (by simp)
            · exact hge
          rw [← hz1, List.drop_append_of_le_length hlen] at hr
          rw [← hz2, List.drop_append_of_le_length hlen] at hr2
          have hpos : 0 < q2.length := List.length_pos_iff.2 n2
          have := ih (p.drop q2.length) (by simp; omega) t1 t2 r r' (fun x hx => hp x (List.mem_of_mem_drop hx)) b1 b2 hr hr2
          intro e
          exact this (List.append_cancel_left e)
    | @miss x z1' r hno hr =>
      cases p with
      | nil =>
        exfalso
        have := hno ['ゔ'] (by rw [← hz1]; simp)
        have h3 := vu_rows.2.2
        rw [this] at h3; cases h3
      | cons y p =>
        cases h2 with
        | nil => cases hz2
        | @hit _ q2 out2' r' hk2 hl2 hr2 =>
          exfalso
          have hs2 : ((Spec.kanaTableV 'a' 'a').lookup q2).isSome := by rw [hkeys, hl2]; rfl
          have := hno q2 (tr21 q2 hs2 hk2.isPrefix)
          rw [this] at hs2; cases hs2
        | @miss x2 z2' r' hno2 hr2 =>
          rw [List.cons_append] at hz1 hz2
          cases hz1
          cases hz2
          have := ih p (by simp) t1 t2 r r' (fun x hx => hp x (List.mem_cons_of_mem _ hx)) b1 b2 hr hr2
          intro e
          exact this (List.cons.inj e).2

theorem hiraFromV_append (x : Char) (dest : Bool) (a b : Str) : ∀ pre,
    Spec.hiraFromV x dest pre (a ++ b) = Spec.hiraFromV x dest pre a ++ Spec.hiraFromV x dest (pre ++ a) b := by
  induction a with
  | nil => intro pre; simp [Spec.hiraFromV]
  | cons c a ih =>
    intro pre
    rw [List.cons_append, Spec.hiraFromV, Spec.hiraFromV, ih]
    simp

/-- the marked text up to the first ゔ -/
theorem flagged_first {std : Std} (hstd : std.Lawful) {u t : Str} {g : Char} (h1 : 'ゔ' ∉ u) (h2 : 'ヴ' ∉ u)
    (hg : g = 'ゔ' ∨ g = 'ヴ') : ∃ w, (flagged std (u ++ g :: t)).map Prod.fst = Spec.hiraFrom true [] u ++ 'ゔ' :: w ∧
      'ゔ' ∉ Spec.hiraFrom true [] u := by
  have hm : ∀ s, k2hP std true none s = Spec.hiraFromV (vuOf std) true [] s := k2hP_hiraFromV hstd true (pre := [])
  have hu : Spec.hiraFromV (vuOf std) true [] u = Spec.hiraFrom true [] u :=
    hiraFromV_of_not_mem _ _ _ _ (by simpa using h2)
  refine ⟨Spec.hiraFromV (vuOf std) true (u ++ [g]) t, ?_, ?_⟩
  · rw [flagged_fst hstd, hm, hiraFromV_append, hu]
    congr 1
    rw [List.nil_append, Spec.hiraFromV]
    rcases hg with rfl | rfl
    · rw [if_neg (by decide)]
      rfl
    · rw [if_neg (by decide)]
      rfl
  · rw [← hu, ← hm]
    exact k2hP_vu hstd true u h1 h2 prevOk_none

theorem split_marked {z : Spec.Marked} {a w : Str} {c : Char} (h : z.map Prod.fst = a ++ c :: w) :
    ∃ p b t, z = p ++ (c, b) :: t ∧ p.map Prod.fst = a := by
  rw [List.map_eq_append_iff] at h
  obtain ⟨p, q, rfl, hp, hq⟩ := h
  rw [List.map_eq_cons_iff] at hq
  obtain ⟨x, t, rfl, hx, _⟩ := hq
  exact ⟨p, x.2, t, by rw [← hx], hp⟩

/-- **C33** A text has the same romaji for every conforming binary search exactly if it contains neither ゔ
nor ヴ. -/
theorem C33_exact (s : Str) : (∀ std std' : Std, std.Lawful → std'.Lawful →
    to_romaji std s = to_romaji std' s) ↔ 'ゔ' ∉ s ∧ 'ヴ' ∉ s := by
  constructor
  · intro h
    by_cases hs : ∃ c ∈ s, c = 'ゔ' ∨ c = 'ヴ'
    · exfalso
      obtain ⟨u, g, t, rfl, hg, hu⟩ : ∃ u g t, s = u ++ g :: t ∧ (g = 'ゔ' ∨ g = 'ヴ') ∧
          ∀ c ∈ u, ¬ (c = 'ゔ' ∨ c = 'ヴ') := by
        clear h
        induction s with
        | nil => obtain ⟨c, hc, _⟩ := hs; cases hc
        | cons c s ih =>
          by_cases hc : c = 'ゔ' ∨ c = 'ヴ'
          · exact ⟨[], c, s, rfl, hc, by simp⟩
          · obtain ⟨u, g, t, e, h1, h2⟩ := ih (by
              obtain ⟨d, hd, h⟩ := hs
              rcases List.mem_cons.1 hd with rfl | hd
              · exact absurd h hc
              · exact ⟨d, hd, h⟩)
            refine ⟨c :: u, g, t, by rw [e]; rfl, h1, ?_⟩
            intro d hd
            rcases List.mem_cons.1 hd with rfl | hd
            · exact hc
            · exact h2 d hd
      have h1 : 'ゔ' ∉ u := fun h => hu _ h (Or.inl rfl)
      have h2 : 'ヴ' ∉ u := fun h => hu _ h (Or.inr rfl)
      obtain ⟨w1, m1, n1⟩ := flagged_first secondStd_lawful (t := t) h1 h2 hg
      obtain ⟨w2, m2, _⟩ := flagged_first modernStd_lawful (t := t) h1 h2 hg
      obtain ⟨p1, b1, t1, z1, q1⟩ := split_marked m1
      obtain ⟨p2, b2, t2, z2, q2⟩ := split_marked m2
      have r1 := rom_romanizedV secondStd_lawful false _ (flagged_no_va secondStd_lawful (u ++ g :: t))
      have r2 := rom_romanizedV modernStd_lawful false _ (flagged_no_va modernStd_lawful (u ++ g :: t))
      have heq := h secondStd modernStd secondStd_lawful modernStd_lawful
      unfold to_romaji at heq
      rw [to_romaji_eq secondStd_lawful, to_romaji_eq modernStd_lawful] at heq
      rw [vu_second.1, vu_second.2] at r1
      rw [vu_modern.1, vu_modern.2] at r2
      -- the flags do not matter without `upcase_katakana`: give both prefixes the same flags
      have f1 : rom secondStd false (flagged secondStd (u ++ g :: t)) = rom secondStd false (p2 ++ ('ゔ', b1) :: t1) := by
        apply rom_flag
        rw [z1]; simp [q1, q2]
      have r1' := rom_romanizedV secondStd_lawful false (p2 ++ ('ゔ', b1) :: t1) (by
        have hva := flagged_no_va secondStd_lawful (u ++ g :: t)
        have hva' : 'ヷ' ∉ (flagged secondStd (u ++ g :: t)).map Prod.fst := by
          intro hm
          obtain ⟨x, hx, e⟩ := List.mem_map.1 hm
          exact hva x hx e
        intro x hx e
        apply hva'
        rw [z1]
        have : x.1 ∈ (p2 ++ ('ゔ', b1) :: t1).map Prod.fst := List.mem_map_of_mem hx
        rw [e] at this
        simpa [q1, q2] using this)
      rw [vu_second.1, vu_second.2, ← f1] at r1'
      rw [z2] at r2
      have hne := vu_differ p2 t1 t2 _ _ (by
        intro x hx e
        apply n1
        rw [← q2, ← e]
        exact List.mem_map_of_mem hx) b1 b2 r1' r2
      apply hne
      rw [← z2]
      exact Except.ok.inj heq
    · exact ⟨fun h' => hs ⟨_, h', Or.inl rfl⟩, fun h' => hs ⟨_, h', Or.inr rfl⟩⟩
  · rintro ⟨h1, h2⟩ std std' hstd hstd'
    exact C33_deterministic_partial hstd hstd' s {} h1 h2

end WanaKana
