import Verif.Model.GroupBy
/-! # C107: `itertools::group_by`, as it is implemented, finds the maximal runs -/

namespace WanaKana.Itertools

theorem ok_bind' {α β : Type} (a : α) (f : α → Res β) : ((Except.ok a : Res α) >>= f) = f a := rfl

section
variable {κ : Type} [DecidableEq κ] (key : Char → κ)

/-- the rest of the group with key `k`, and what comes after it -/
def spanKey (k : κ) : Str → Str → Str × Str
  | g, [] => (g, [])
  | g, c :: cs => if key c = k then spanKey k (g ++ [c]) cs else (g, c :: cs)

theorem groupLoop_span (k : κ) : ∀ (s g : Str),
    groupLoop key k g s = (k, (spanKey key k g s).1) :: group_by key (spanKey key k g s).2
  | [], _ => rfl
  | c :: s, g => by
    unfold groupLoop spanKey
    split
    · exact groupLoop_span k s _
    · rfl

theorem span_length (k : κ) : ∀ (s g : Str), (spanKey key k g s).2.length ≤ s.length
  | [], _ => Nat.le_refl _
  | c :: s, g => by
    unfold spanKey
    split
    · exact Nat.le_succ_of_le (span_length k s _)
    · exact Nat.le_refl _

/-- the buffer is not used, and the indices of groups in it are behind group `i` -/
def Base (i : Nat) (st : GroupInner κ) : Prop :=
  st.buffer = [] ∧ st.bottom_group ≤ st.oldest_buffered_group ∧ st.oldest_buffered_group ≤ i

/-- inside of group `i`, which has key `k`; `s` is still to be read -/
def InGroup (i : Nat) (k : κ) (s : Str) (st : GroupInner κ) : Prop :=
  Base i st ∧ st.done = false ∧ st.top_group = i ∧ st.current_elt = none ∧ st.current_key = some k ∧ st.iter = s

/-- before group `i`; the groups of `r` are still to come -/
def Before (i : Nat) (r : Str) (st : GroupInner κ) : Prop :=
  Base i st ∧ match r with
    | [] => st.done = true ∧ st.top_group < i
    | c :: cs => st.done = false ∧ st.top_group = i ∧ st.current_elt = some c ∧ st.current_key = some (key c) ∧
      st.iter = cs

theorem step_top {i : Nat} {st : GroupInner κ} (hb : Base i st) (ht : st.top_group = i) :
    step key i st = if st.done = true then .ok (none, st) else .ok (stepCurrent key st) := by
  obtain ⟨h1, h2, h3⟩ := hb
  unfold step
  rw [if_neg (by omega), if_neg (by omega), if_pos ht.symm]
  simp only [usizeSub, h1, List.length_nil]
  rw [if_pos (by omega)]
  simp only [ok_bind']
  rw [if_neg (by simp), if_pos ht]

theorem stepCurrent_end {i : Nat} {k : κ} {st : GroupInner κ} (h : InGroup i k [] st) :
    ∃ st', stepCurrent key st = (none, st') ∧ Before key (i + 1) [] st' := by
  obtain ⟨⟨b1, b2, b3⟩, hd, ht, he, hk, hi⟩ := h
  refine ⟨{ st with done := true }, ?_, ⟨b1, b2, Nat.le_succ_of_le b3⟩, rfl, by show st.top_group < _; omega⟩
  simp only [stepCurrent, he, nextElement, hi]

theorem stepCurrent_same {i : Nat} {k : κ} {c : Char} {s : Str} {st : GroupInner κ} (h : InGroup i k (c :: s) st)
    (hc : key c = k) : ∃ st', stepCurrent key st = (some c, st') ∧ InGroup i k s st' := by
  obtain ⟨⟨b1, b2, b3⟩, hd, ht, he, hk, hi⟩ := h
  refine ⟨{ st with iter := s, current_key := some (key c) }, ?_, ⟨b1, b2, b3⟩, hd, ht, he, by rw [hc], rfl⟩
  simp only [stepCurrent, he, nextElement, hi, hk]
  rw [if_neg (by simp [hc])]

theorem stepCurrent_other {i : Nat} {k : κ} {c : Char} {s : Str} {st : GroupInner κ} (h : InGroup i k (c :: s) st)
    (hc : key c ≠ k) : ∃ st', stepCurrent key st = (none, st') ∧ Before key (i + 1) (c :: s) st' := by
  obtain ⟨⟨b1, b2, b3⟩, hd, ht, he, hk, hi⟩ := h
  refine ⟨{ st with iter := s, current_key := some (key c), current_elt := some c, top_group := st.top_group + 1 }, ?_,
    ⟨b1, b2, Nat.le_succ_of_le b3⟩, hd, by show st.top_group + 1 = _; omega, rfl, rfl, rfl⟩
  simp only [stepCurrent, he, nextElement, hi, hk]
  rw [if_pos (Ne.symm hc)]

/-- the rest of a group -/
theorem collect_in (i : Nat) (k : κ) : ∀ (s acc : Str) (st : GroupInner κ) (fuel : Nat), InGroup i k s st →
    s.length < fuel → ∃ st', collectGroup key i fuel acc st = .ok ((spanKey key k acc s).1, st') ∧
      Before key (i + 1) (spanKey key k acc s).2 st'
  | _, _, _, 0, _, h => absurd h (Nat.not_lt_zero _)
  | [], acc, st, fuel + 1, h, _ => by
    obtain ⟨st', h1, h2⟩ := stepCurrent_end key h
    refine ⟨st', ?_, h2⟩
    unfold collectGroup
    rw [step_top key h.1 h.2.2.1, h.2.1, if_neg Bool.false_ne_true, h1]; rfl
  | c :: s, acc, st, fuel + 1, h, hf => by
    unfold collectGroup spanKey
    rw [step_top key h.1 h.2.2.1, h.2.1, if_neg Bool.false_ne_true]
    by_cases hc : key c = k
    · obtain ⟨st', h1, h2⟩ := stepCurrent_same key h hc
      rw [h1, if_pos hc]
      exact collect_in i k s (acc ++ [c]) st' fuel h2 (by simpa using hf)
    · obtain ⟨st', h1, h2⟩ := stepCurrent_other key h hc
      rw [h1, if_neg hc]
      exact ⟨st', rfl, h2⟩

omit [DecidableEq κ] in
/-- a group that is asked for an element after the next group has been found -/
theorem lookup_none {i : Nat} {st : GroupInner κ} (hb : Base i st) :
    ∃ o b, lookupBuffer i st = .ok (none, { st with oldest_buffered_group := o, bottom_group := b }) ∧ b ≤ o ∧ o ≤ i + 1 := by
  obtain ⟨h1, h2, h3⟩ := hb
  unfold lookupBuffer
  simp only [usizeSub]
  rw [if_pos (by omega)]
  simp only [ok_bind', h1, List.getElem?_nil, Option.bind_none, List.modify_nil, Option.isNone_none, Bool.true_and]
  rw [if_neg (by omega)]
  by_cases hi : i = st.oldest_buffered_group
  · rw [if_pos (by simp [hi])]
    refine ⟨i + 1, i + 1, ?_, Nat.le_refl _, Nat.le_refl _⟩
    simp only [skipEmpty, List.length_nil, usizeSub]
    rw [if_pos (by omega)]
    simp only [ok_bind', List.getElem?_nil]
    rw [if_pos (by omega)]
    simp only [ok_bind']
    rw [if_pos (by simp; omega)]
    simp [← hi]
  · rw [if_neg (by simp [hi])]
    refine ⟨st.oldest_buffered_group, st.bottom_group, ?_, h2, by omega⟩
    cases st; simp_all

theorem step_lookup {i : Nat} {st : GroupInner κ} (hb : Base i st) (ht : st.top_group = i + 1) :
    step key i st = lookupBuffer i st := by
  obtain ⟨h1, h2, h3⟩ := hb
  unfold step
  rw [if_neg (by omega), if_pos (by omega)]
  rfl

/-- a whole group, its first element already read -/
theorem one_group {i : Nat} {c : Char} {s : Str} {st : GroupInner κ} {n : Nat} (h : InGroup i (key c) s st)
    (hn : s.length < n) : ∃ st₁ st₂, groupKey key st = .ok (key c, st₁) ∧
      collectGroup key i n [c] st₁ = .ok ((spanKey key (key c) [c] s).1, st₂) ∧
      Before key (i + 1) (spanKey key (key c) [c] s).2 st₂ := by
  obtain ⟨⟨b1, b2, b3⟩, hd, ht, he, hk, hi⟩ := h
  obtain ⟨n, rfl⟩ : ∃ m, n = m + 1 := ⟨n - 1, by omega⟩
  cases s with
  | nil =>
    refine ⟨{ st with current_key := none, done := true }, { st with current_key := none, done := true }, ?_, ?_,
      ⟨b1, b2, Nat.le_succ_of_le b3⟩, rfl, by show st.top_group < _; omega⟩
    · simp only [groupKey, hk, unwrap, ok_bind', nextElement, hi]
    · unfold collectGroup
      have hb : Base i ({ st with current_key := none, done := true } : GroupInner κ) := ⟨b1, b2, b3⟩
      rw [step_top key hb ht, if_pos rfl]; rfl
  | cons d s =>
    have hg : groupKey key st = .ok (key c, { st with
        iter := s, current_key := some (key d), current_elt := some d,
        top_group := if key c ≠ key d then st.top_group + 1 else st.top_group }) := by
      simp only [groupKey, hk, unwrap, ok_bind', nextElement, hi]
    by_cases hc : key d = key c
    · have hin : InGroup i (key c) s { st with iter := s, current_key := some (key d), current_elt := none } :=
        ⟨⟨b1, b2, b3⟩, hd, ht, rfl, by rw [hc], rfl⟩
      obtain ⟨st', h1, h2⟩ := collect_in key i (key c) s [c, d] _ n hin (by simpa using hn)
      refine ⟨_, st', hg, ?_, ?_⟩
      · rw [if_neg (by simp [hc])]
        unfold collectGroup spanKey
        have hb : Base i { st with iter := s, current_key := some (key d), current_elt := some d } := ⟨b1, b2, b3⟩
        rw [step_top key hb ht, if_neg (by simp [hd]), if_pos hc]
        exact h1
      · unfold spanKey; rw [if_pos hc]; exact h2
    · obtain ⟨o, b, h1, h2, h3⟩ := lookup_none (st := { st with
        iter := s, current_key := some (key d), current_elt := some d, top_group := st.top_group + 1 }) ⟨b1, b2, b3⟩
      refine ⟨_, { st with
        iter := s, current_key := some (key d), current_elt := some d, top_group := st.top_group + 1,
        oldest_buffered_group := o, bottom_group := b }, hg, ?_, ?_⟩
      · rw [if_pos (Ne.symm hc)]
        unfold collectGroup spanKey
        have hb : Base i { st with
          iter := s, current_key := some (key d), current_elt := some d, top_group := st.top_group + 1 } := ⟨b1, b2, b3⟩
        rw [step_lookup key hb (by show st.top_group + 1 = _; omega), h1, if_neg hc]
        rfl
      · unfold spanKey; rw [if_neg hc]
        exact ⟨⟨b1, h2, h3⟩, hd, by show st.top_group + 1 = _; omega, rfl, rfl, rfl⟩

omit [DecidableEq κ] in
theorem before_drop {i j : Nat} {r : Str} {st : GroupInner κ} (h : Before key i r st) : Before key i r (dropGroup j st) := by
  unfold dropGroup
  split
  · exact h
  · split
    · exact h
    · exact h

/-- all groups from some place on -/
theorem groups_loop (n : Nat) : ∀ (fuel i : Nat) (r : Str) (st : GroupInner κ) (result : List (κ × Str)),
    Before key i r st → r.length < fuel → r.length < n → groupsLoop key n fuel i st result = .ok (result ++ group_by key r)
  | 0, _, _, _, _, _, h, _ => absurd h (Nat.not_lt_zero _)
  | fuel + 1, i, [], st, result, h, _, _ => by
    obtain ⟨⟨b1, b2, b3⟩, hd, ht⟩ := h
    have : step key i st = .ok (none, st) := by
      unfold step
      rw [if_neg (by omega), if_neg (by omega), if_neg (by omega)]
      simp only [ok_bind', Bool.false_eq_true, if_false, hd, if_true]
    unfold groupsLoop
    rw [this]
    simp [ok_bind', group_by]
  | fuel + 1, i, c :: cs, st, result, h, hf, hn => by
    obtain ⟨hb, hd, ht, he, hk, hi⟩ := h
    have h1 : step key i st = .ok (some c, { st with current_elt := none }) := by
      rw [step_top key hb ht, if_neg (by simp [hd])]
      simp only [stepCurrent, he]
    have hin : InGroup i (key c) cs { st with current_elt := none } := ⟨hb, hd, ht, rfl, hk, hi⟩
    obtain ⟨st₁, st₂, h2, h3, h4⟩ := one_group key (n := n) hin (by simp only [List.length_cons] at hn; omega)
    unfold groupsLoop
    rw [h1]
    simp only [ok_bind', h2, h3]
    have hl := span_length key (key c) cs [c]
    simp only [List.length_cons] at hf hn
    rw [groups_loop n fuel (i + 1) _ _ _ (before_drop key h4) (by omega) (by omega)]
    show _ = Except.ok (result ++ groupLoop key (key c) [c] cs)
    rw [groupLoop_span]; simp

/-- The loop over the groups collects the maximal runs of characters with equal keys, for every key function. -/
theorem C107_group_by (s : Str) : groupBy key s = .ok (group_by key s) := by
  unfold groupBy
  cases s with
  | nil => rfl
  | cons c cs =>
    have h1 : step key 0 (.new (c :: cs)) =
        .ok (some c, ⟨cs, some (key c), none, false, 0, 0, 0, [], none⟩) := rfl
    have hin : InGroup 0 (key c) cs ⟨cs, some (key c), none, false, 0, 0, 0, [], none⟩ :=
      ⟨⟨rfl, Nat.le_refl _, Nat.le_refl _⟩, rfl, rfl, rfl, rfl, rfl⟩
    obtain ⟨st₁, st₂, h2, h3, h4⟩ := one_group key (n := (c :: cs).length + 1) hin (by simp only [List.length_cons]; omega)
    unfold groupsLoop
    rw [h1]
    simp only [ok_bind', h2, h3]
    have hl := span_length key (key c) cs [c]
    rw [groups_loop key _ _ 1 _ _ _ (before_drop key h4) (by simp only [List.length_cons]; omega)
      (by simp only [List.length_cons]; omega)]
    show _ = Except.ok (groupLoop key (key c) [c] cs)
    rw [groupLoop_span]; rfl

end

/-- The tokenizer on the implementation of `group_by` never fails and has the results of the model on runs. -/
theorem C107_tokenize (s : Str) (compact : Bool) :
    tokenize_detailed s compact = .ok (WanaKana.tokenize_detailed s compact) ∧
    tokenize_with_opt s compact = .ok (WanaKana.tokenize_with_opt s compact) := by
  refine ⟨C107_group_by _ s, ?_⟩
  unfold tokenize_with_opt
  rw [C107_group_by]; rfl

example : tokenize_detailed "ふふフフ".toList false =
    .ok [(.Hiragana, "ふふ".toList), (.Katakana, "フフ".toList)] := by decide +kernel
example : groupBy (fun c => c.isUpper) "aBcDDe".toList = .ok [(false, ['a']), (true, ['B']), (false, ['c']),
    (true, ['D', 'D']), (false, ['e'])] := by decide +kernel

end WanaKana.Itertools
