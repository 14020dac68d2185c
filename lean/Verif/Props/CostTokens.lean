import Verif.Model.CostTrim
import Verif.Props.GroupBy
/-! # C109: the tokenizer takes linear time -/

namespace WanaKana.Itertools

section
variable {κ : Type} [DecidableEq κ] (key : Char → κ)

omit [DecidableEq κ] in
theorem stepCost_base {i : Nat} {st : GroupInner κ} (hb : Base i st) (h : st.done = true ∨ st.top_group = i ∨ st.top_group = i + 1) :
    stepCost i st ≤ 3 := by
  obtain ⟨h1, h2, h3⟩ := hb
  unfold stepCost
  rw [h1, if_neg (by omega)]
  simp only [List.length_nil]
  split
  · omega
  · rename_i hn
    split
    · omega
    · rename_i hd
      have : st.top_group = i := by
        rcases h with h | h | h
        · exact absurd h hd
        · exact h
        · exact absurd (.inl (by omega)) hn
      rw [if_pos this]; omega

theorem span_split (k : κ) : ∀ (s g : Str), (spanKey key k g s).1.length + (spanKey key k g s).2.length = g.length + s.length
  | [], _ => rfl
  | c :: s, g => by
    unfold spanKey
    split
    · rw [span_split k s]; simp only [List.length_append, List.length_cons, List.length_nil]; omega
    · rfl

theorem collect_inC (i : Nat) (k : κ) : ∀ (s acc : Str) (st : GroupInner κ) (fuel steps : Nat), InGroup i k s st →
    s.length < fuel → ∃ st' t, collectGroupC key i fuel acc st steps = .ok (((spanKey key k acc s).1, st'), t) ∧
      Before key (i + 1) (spanKey key k acc s).2 st' ∧ t + 5 * acc.length ≤ steps + 5 * (spanKey key k acc s).1.length + 4
  | _, _, _, 0, _, _, h => absurd h (Nat.not_lt_zero _)
  | [], acc, st, fuel + 1, steps, h, _ => by
    obtain ⟨st', h1, h2⟩ := stepCurrent_end key h
    have hc := stepCost_base h.1 (.inr (.inl h.2.2.1))
    refine ⟨st', steps + 1 + stepCost i st, ?_, h2, ?_⟩
    · unfold collectGroupC
      rw [step_top key h.1 h.2.2.1, h.2.1, if_neg Bool.false_ne_true, h1]; rfl
    · show _ ≤ steps + 5 * acc.length + 4
      omega
  | c :: s, acc, st, fuel + 1, steps, h, hf => by
    have hcost := stepCost_base h.1 (.inr (.inl h.2.2.1))
    unfold collectGroupC spanKey
    rw [step_top key h.1 h.2.2.1, h.2.1, if_neg Bool.false_ne_true]
    by_cases hc : key c = k
    · obtain ⟨st', h1, h2⟩ := stepCurrent_same key h hc
      rw [h1, if_pos hc]
      obtain ⟨st₂, t, h3, h4, h5⟩ :=
        collect_inC i k s (acc ++ [c]) st' fuel (steps + 2 + stepCost i st) h2 (by simpa using hf)
      refine ⟨st₂, t, h3, h4, ?_⟩
      simp only [List.length_append, List.length_cons, List.length_nil] at h5
      omega
    · obtain ⟨st', h1, h2⟩ := stepCurrent_other key h hc
      rw [h1, if_neg hc]
      refine ⟨st', steps + 1 + stepCost i st, rfl, h2, ?_⟩
      show _ ≤ steps + 5 * acc.length + 4
      omega

theorem one_groupC {i : Nat} {c : Char} {s : Str} {st : GroupInner κ} {n : Nat} (steps : Nat) (h : InGroup i (key c) s st)
    (hn : s.length < n) : ∃ st₁ st₂ t, groupKey key st = .ok (key c, st₁) ∧
      collectGroupC key i n [c] st₁ steps = .ok (((spanKey key (key c) [c] s).1, st₂), t) ∧
      Before key (i + 1) (spanKey key (key c) [c] s).2 st₂ ∧ t + 5 ≤ steps + 5 * (spanKey key (key c) [c] s).1.length + 4 := by
  obtain ⟨⟨b1, b2, b3⟩, hd, ht, he, hk, hi⟩ := h
  obtain ⟨n, rfl⟩ : ∃ m, n = m + 1 := ⟨n - 1, by omega⟩
  cases s with
  | nil =>
    have hb : Base i ({ st with current_key := none, done := true } : GroupInner κ) := ⟨b1, b2, b3⟩
    have hcost := stepCost_base hb (.inl rfl)
    refine ⟨{ st with current_key := none, done := true }, { st with current_key := none, done := true },
      steps + 1 + stepCost i ({ st with current_key := none, done := true } : GroupInner κ), ?_, ?_, ?_, ?_⟩
    · simp only [groupKey, hk, unwrap, ok_bind', nextElement, hi]
    · unfold collectGroupC
      rw [step_top key hb ht, if_pos rfl]; rfl
    · exact ⟨⟨b1, b2, Nat.le_succ_of_le b3⟩, rfl, by show st.top_group < _; omega⟩
    · show _ ≤ steps + 5 * 1 + 4
      omega
  | cons d s =>
    have hg : groupKey key st = .ok (key c, { st with
        iter := s, current_key := some (key d), current_elt := some d,
        top_group := if key c ≠ key d then st.top_group + 1 else st.top_group }) := by
      simp only [groupKey, hk, unwrap, ok_bind', nextElement, hi]
    by_cases hc : key d = key c
    · have hin : InGroup i (key c) s { st with iter := s, current_key := some (key d), current_elt := none } :=
        ⟨⟨b1, b2, b3⟩, hd, ht, rfl, by rw [hc], rfl⟩
      have hb : Base i { st with iter := s, current_key := some (key d), current_elt := some d } := ⟨b1, b2, b3⟩
      have hcost := stepCost_base hb (.inr (.inl ht))
      obtain ⟨st', t, h1, h2, h3⟩ := collect_inC key i (key c) s [c, d] _ n (steps + 2 +
        stepCost i { st with iter := s, current_key := some (key d), current_elt := some d }) hin (by simpa using hn)
      refine ⟨_, st', t, hg, ?_, ?_, ?_⟩
      · rw [if_neg (by simp [hc])]
        unfold collectGroupC spanKey
        rw [step_top key hb ht, if_neg (by simp [hd]), if_pos hc]
        exact h1
      · unfold spanKey; rw [if_pos hc]; exact h2
      · unfold spanKey; rw [if_pos hc]
        simp only [List.length_cons, List.length_nil, List.cons_append, List.nil_append] at h3 ⊢
        omega
    · obtain ⟨o, b, h1, h2, h3⟩ := lookup_none (st := { st with
        iter := s, current_key := some (key d), current_elt := some d, top_group := st.top_group + 1 }) ⟨b1, b2, b3⟩
      have hb : Base i { st with
          iter := s, current_key := some (key d), current_elt := some d, top_group := st.top_group + 1 } := ⟨b1, b2, b3⟩
      have hcost := stepCost_base hb (.inr (.inr (by show st.top_group + 1 = _; omega)))
      refine ⟨_, { st with
        iter := s, current_key := some (key d), current_elt := some d, top_group := st.top_group + 1,
        oldest_buffered_group := o, bottom_group := b }, steps + 1 + stepCost i { st with
        iter := s, current_key := some (key d), current_elt := some d, top_group := st.top_group + 1 }, hg, ?_, ?_, ?_⟩
      · rw [if_pos (Ne.symm hc)]
        unfold collectGroupC spanKey
        rw [step_lookup key hb (by show st.top_group + 1 = _; omega), h1, if_neg hc]
        rfl
      · unfold spanKey; rw [if_neg hc]
        exact ⟨⟨b1, h2, h3⟩, hd, by show st.top_group + 1 = _; omega, rfl, rfl, rfl⟩
      · unfold spanKey; rw [if_neg hc]
        show _ ≤ steps + 5 * 1 + 4
        omega

theorem groups_loopC (n : Nat) : ∀ (fuel i : Nat) (r : Str) (st : GroupInner κ) (result : List (κ × Str)) (steps : Nat),
    Before key i r st → r.length < fuel → r.length < n → ∃ t, groupsLoopC key n fuel i st result steps =
      .ok (result ++ group_by key r, t) ∧ t ≤ steps + 13 * r.length + 4
  | 0, _, _, _, _, _, _, h, _ => absurd h (Nat.not_lt_zero _)
  | fuel + 1, i, [], st, result, steps, h, _, _ => by
    obtain ⟨hb, hd, ht⟩ := h
    have hcost := stepCost_base hb (.inl hd)
    obtain ⟨b1, b2, b3⟩ := hb
    have : step key i st = .ok (none, st) := by
      unfold step
      rw [if_neg (by omega), if_neg (by omega), if_neg (by omega)]
      simp only [ok_bind', Bool.false_eq_true, if_false, hd, if_true]
    unfold groupsLoopC
    rw [this]
    refine ⟨steps + 1 + stepCost i st, by simp [ok_bind', group_by], ?_⟩
    simp only [List.length_nil]
    omega
  | fuel + 1, i, c :: cs, st, result, steps, h, hf, hn => by
    obtain ⟨hb, hd, ht, he, hk, hi⟩ := h
    have hcost := stepCost_base hb (.inr (.inl ht))
    have h1 : step key i st = .ok (some c, { st with current_elt := none }) := by
      rw [step_top key hb ht, if_neg (by simp [hd])]
      simp only [stepCurrent, he]
    have hin : InGroup i (key c) cs { st with current_elt := none } := ⟨hb, hd, ht, rfl, hk, hi⟩
    obtain ⟨st₁, st₂, t, h2, h3, h4, h5⟩ := one_groupC key (n := n) (steps + 4 + stepCost i st) hin
      (by simp only [List.length_cons] at hn; omega)
    unfold groupsLoopC
    rw [h1]
    simp only [ok_bind', h2, h3]
    have hl := span_length key (key c) cs [c]
    have hs := span_split key (key c) cs [c]
    simp only [List.length_cons, List.length_nil] at hf hn hs
    obtain ⟨t', h6, h7⟩ := groups_loopC n fuel (i + 1) _ _ (result ++ [(key c, (spanKey key (key c) [c] cs).1)]) (t + 2)
      (before_drop key (j := i) h4) (by omega) (by omega)
    refine ⟨t', ?_, ?_⟩
    · rw [h6]
      show _ = Except.ok (result ++ groupLoop key (key c) [c] cs, t')
      rw [groupLoop_span]; simp
    · simp only [List.length_cons]
      omega

theorem group_byC (s : Str) (steps : Nat) : ∃ t, groupByC key s steps = .ok (group_by key s, t) ∧
    t ≤ steps + 13 * s.length + 4 := by
  unfold groupByC
  cases s with
  | nil => exact ⟨_, rfl, by simp [stepCost, GroupInner.new]⟩
  | cons c cs =>
    have h1 : step key 0 (.new (c :: cs)) =
        .ok (some c, ⟨cs, some (key c), none, false, 0, 0, 0, [], none⟩) := rfl
    have hcost : stepCost 0 (GroupInner.new (c :: cs) : GroupInner κ) ≤ 3 :=
      stepCost_base ⟨rfl, Nat.le_refl _, Nat.le_refl _⟩ (.inr (.inl rfl))
    have hin : InGroup 0 (key c) cs ⟨cs, some (key c), none, false, 0, 0, 0, [], none⟩ :=
      ⟨⟨rfl, Nat.le_refl _, Nat.le_refl _⟩, rfl, rfl, rfl, rfl, rfl⟩
    obtain ⟨st₁, st₂, t, h2, h3, h4, h5⟩ := one_groupC key (n := (c :: cs).length + 1)
      (steps + 4 + stepCost 0 (GroupInner.new (c :: cs) : GroupInner κ)) hin (by simp only [List.length_cons]; omega)
    have hl := span_length key (key c) cs [c]
    have hs := span_split key (key c) cs [c]
    simp only [List.length_cons, List.length_nil] at hs
    obtain ⟨t', h6, h7⟩ := groups_loopC key ((c :: cs).length + 1) (c :: cs).length 1 _ _
      ([] ++ [(key c, (spanKey key (key c) [c] cs).1)]) (t + 2) (before_drop key (j := 0) h4)
      (by simp only [List.length_cons]; omega) (by simp only [List.length_cons]; omega)
    refine ⟨t', ?_, ?_⟩
    · unfold groupsLoopC
      rw [h1]
      simp only [ok_bind', h2, h3]
      rw [h6]
      show _ = Except.ok (groupLoop key (key c) [c] cs, t')
      rw [groupLoop_span]; rfl
    · simp only [List.length_cons]
      omega

end

/-- **C109** the tokenizer takes at most 13 steps per character, and 4 more -/
theorem C109_tokenize (s : Str) (compact : Bool) :
    (∃ r t, tokenize_with_optC s compact 0 = .ok (r, t) ∧ t ≤ 13 * s.length + 4) ∧
    (∃ r t, tokenize_detailedC s compact 0 = .ok (r, t) ∧ t ≤ 13 * s.length + 4) := by
  obtain ⟨t, h1, h2⟩ := group_byC (fun elt => get_type elt compact) s 0
  have h3 : tokenize_with_optC s compact 0 = .ok ((group_by (fun elt => get_type elt compact) s).map fun p => p.2, t) := by
    unfold tokenize_with_optC
    rw [h1]; rfl
  exact ⟨⟨_, t, h3, by omega⟩, ⟨_, t, h1, by omega⟩⟩

/-- **C109** the counter changes no result -/
theorem C109_tokenize_same (s : Str) (compact : Bool) (steps : Nat) :
    (tokenize_with_optC s compact steps).map Prod.fst = tokenize_with_opt s compact ∧
    (tokenize_detailedC s compact steps).map Prod.fst = tokenize_detailed s compact := by
  obtain ⟨t, h1, h2⟩ := group_byC (fun elt => get_type elt compact) s steps
  constructor
  · unfold tokenize_with_optC tokenize_with_opt
    rw [h1, C107_group_by]; rfl
  · unfold tokenize_detailedC tokenize_detailed
    rw [h1, C107_group_by]; rfl

/-- eight characters, four tokens -/
example : (tokenize_with_optC "感じabc。。。".toList false 0).map Prod.snd = .ok 74 := by decide +kernel

end WanaKana.Itertools
