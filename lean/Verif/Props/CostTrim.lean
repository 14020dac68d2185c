import Verif.Props.CostTokens
import Verif.Props.StrSearcher
/-! # C109: `trim_okurigana` takes linear time -/

namespace WanaKana.StrSearcher

/-! ## The counter changes no result -/

theorem map_bind {α β γ : Type} (x : Res α) (f : α → Res β) (g : β → γ) : (x >>= f).map g = x >>= fun a => (f a).map g := by
  cases x <;> rfl

theorem bind_map {α β γ : Type} (x : Res α) (f : β → Res γ) (g : α → β) : (x.map g >>= f) = x >>= fun a => f (g a) := by
  cases x <;> rfl

theorem of_map_fst {α : Type} {x : Res (α × Nat)} {r : α} (h : x.map Prod.fst = .ok r) : ∃ t, x = .ok (r, t) := by
  cases x with
  | error e => cases h
  | ok p => exact ⟨p.2, by cases p; cases h; rfl⟩

theorem maximalSuffixLoopC_same (arr : List UInt8) (ord : Bool) : ∀ (fuel left right offset period steps : Nat),
    (maximalSuffixLoopC arr ord fuel left right offset period steps).map Prod.fst =
      maximalSuffixLoop arr ord fuel left right offset period
  | 0, _, _, _, _, _ => rfl
  | fuel + 1, left, right, offset, period, steps => by
    unfold maximalSuffixLoopC maximalSuffixLoop
    cases arr[right + offset]? with
    | none => rfl
    | some a =>
      simp only [map_bind]
      congr 1
      funext b
      split
      · rw [map_bind]
        congr 1
        funext p
        exact maximalSuffixLoopC_same arr ord fuel _ _ _ _ _
      · split
        · split
          · exact maximalSuffixLoopC_same arr ord fuel _ _ _ _ _
          · exact maximalSuffixLoopC_same arr ord fuel _ _ _ _ _
        · exact maximalSuffixLoopC_same arr ord fuel _ _ _ _ _

theorem reverseMaximalSuffixLoopC_same (arr : List UInt8) (known : Nat) (ord : Bool) :
    ∀ (fuel left right offset period steps : Nat),
    (reverseMaximalSuffixLoopC arr known ord fuel left right offset period steps).map Prod.fst =
      reverseMaximalSuffixLoop arr known ord fuel left right offset period
  | 0, _, _, _, _, _ => rfl
  | fuel + 1, left, right, offset, period, steps => by
    unfold reverseMaximalSuffixLoopC reverseMaximalSuffixLoop
    split
    · simp only [map_bind]
      congr 1; funext i
      congr 1; funext a
      congr 1; funext j
      congr 1; funext b
      have fin : ∀ l r o p, Except.map Prod.fst (if p = known then (.ok (l, steps + 1) : Res (Nat × Nat))
            else reverseMaximalSuffixLoopC arr known ord fuel l r o p (steps + 1)) =
          (if p = known then (.ok l : Res Nat) else reverseMaximalSuffixLoop arr known ord fuel l r o p) :=
        fun l r o p => by
          split
          · rfl
          · exact reverseMaximalSuffixLoopC_same arr known ord fuel _ _ _ _ _
      split
      · rw [map_bind]
        congr 1; funext p
        exact fin _ _ _ _
      · split
        · split
          · exact fin _ _ _ _
          · exact fin _ _ _ _
        · exact fin _ _ _ _
    · rfl

theorem nextC_same (haystack needle : List UInt8) (old_end : Nat) : ∀ (fuel : Nat) (st : TwoWay) (steps : Nat),
    (TwoWay.nextC haystack needle old_end fuel st steps).map Prod.fst = TwoWay.next haystack needle old_end fuel st
  | 0, _, _ => rfl
  | fuel + 1, st, steps => by
    have ih := nextC_same haystack needle old_end fuel
    unfold TwoWay.nextC TwoWay.next
    rw [map_bind]
    congr 1; funext last
    cases haystack[st.position + last]? with
    | none => rfl
    | some b =>
      dsimp only
      split
      · rfl
      · split
        · exact ih _ _
        · rw [map_bind]
          congr 1; funext right
          cases right with
          | some i =>
            dsimp only
            rw [map_bind]
            congr 1; funext d
            exact ih _ _
          | none =>
            dsimp only
            rw [map_bind]
            congr 1; funext left
            cases left with
            | some i =>
              cases hm : st.memory with
              | none => exact ih _ _
              | some x =>
                dsimp only
                rw [map_bind]
                congr 1; funext m
                exact ih _ _
            | none => rfl

theorem nextBackC_same (haystack needle : List UInt8) (old_end : Nat) : ∀ (fuel : Nat) (st : TwoWay) (steps : Nat),
    (TwoWay.nextBackC haystack needle old_end fuel st steps).map Prod.fst = TwoWay.nextBack haystack needle old_end fuel st
  | 0, _, _ => rfl
  | fuel + 1, st, steps => by
    have ih := nextBackC_same haystack needle old_end fuel
    unfold TwoWay.nextBackC TwoWay.nextBack
    cases (if st.end < needle.length then none else haystack[st.end - needle.length]?) with
    | none => rfl
    | some b =>
      dsimp only
      split
      · rfl
      · split
        · rw [map_bind]
          congr 1; funext e
          exact ih _ _
        · simp only [map_bind]
          congr 1; funext start
          congr 1; funext left
          cases left with
          | some i =>
            dsimp only
            simp only [map_bind]
            congr 1; funext d
            congr 1; funext e
            exact ih _ _
          | none =>
            dsimp only
            rw [map_bind]
            congr 1; funext right
            cases right with
            | some i =>
              dsimp only
              rw [map_bind]
              congr 1; funext m
              exact ih _ _
            | none => rfl

theorem boundaryUpC_same (haystack : List UInt8) : ∀ (fuel b steps : Nat),
    (boundaryUpC haystack fuel b steps).map Prod.fst = boundaryUp haystack fuel b
  | 0, _, _ => rfl
  | fuel + 1, b, steps => by
    unfold boundaryUpC boundaryUp
    split
    · rfl
    · exact boundaryUpC_same haystack fuel _ _

theorem boundaryDownC_same (haystack : List UInt8) : ∀ (fuel b steps : Nat),
    (boundaryDownC haystack fuel b steps).map Prod.fst = boundaryDown haystack fuel b
  | 0, _, _ => rfl
  | fuel + 1, b, steps => by
    unfold boundaryDownC boundaryDown
    split
    · rfl
    · rw [map_bind]
      congr 1; funext a
      exact boundaryDownC_same haystack fuel _ _

theorem stepForwardC_same (haystack needle : List UInt8) (st : TwoWay) (steps : Nat) :
    (stepForwardC haystack needle st steps).map Prod.fst = stepForward haystack needle st := by
  unfold stepForwardC stepForward
  split
  · rfl
  · rw [map_bind, ← nextC_same haystack needle st.position (haystack.length + 2) st (steps + 1), bind_map]
    congr 1; funext r
    obtain ⟨⟨s, st'⟩, t⟩ := r
    cases s with
    | reject a b =>
      dsimp only
      rw [map_bind, ← boundaryUpC_same haystack _ b t, bind_map]
      rfl
    | «match» a b => rfl
    | done => rfl

theorem stepBackC_same (haystack needle : List UInt8) (st : TwoWay) (steps : Nat) :
    (stepBackC haystack needle st steps).map Prod.fst = stepBack haystack needle st := by
  unfold stepBackC stepBack
  split
  · rfl
  · rw [map_bind, ← nextBackC_same haystack needle st.end (haystack.length + 2) st (steps + 1), bind_map]
    congr 1; funext r
    obtain ⟨⟨s, st'⟩, t⟩ := r
    cases s with
    | reject a b =>
      dsimp only
      rw [map_bind, ← boundaryDownC_same haystack _ a t, bind_map]
      rfl
    | «match» a b => rfl
    | done => rfl

theorem nextRejectC_same {σ : Type} (next : σ → Res (SearchStep × σ)) (nextC : σ → Nat → Res ((SearchStep × σ) × Nat))
    (h : ∀ st steps, (nextC st steps).map Prod.fst = next st) : ∀ (fuel : Nat) (st : σ) (steps : Nat),
    (nextRejectC nextC fuel st steps).map Prod.fst = nextReject next fuel st
  | 0, _, _ => rfl
  | fuel + 1, st, steps => by
    unfold nextRejectC nextReject
    rw [map_bind, ← h st (steps + 1), bind_map]
    congr 1; funext r
    obtain ⟨⟨s, st'⟩, t⟩ := r
    cases s with
    | reject a b => rfl
    | done => rfl
    | «match» a b => exact nextRejectC_same next nextC h fuel _ _

theorem newC_same (needle : List UInt8) (n steps : Nat) : (TwoWay.newC needle n steps).map Prod.fst = TwoWay.new needle n := by
  unfold TwoWay.newC TwoWay.new maximalSuffixC maximalSuffix reverseMaximalSuffixC reverseMaximalSuffix
  rw [map_bind, ← maximalSuffixLoopC_same needle false _ _ _ _ _ steps, bind_map]
  congr 1; funext f
  rw [map_bind, ← maximalSuffixLoopC_same needle true _ _ _ _ _ f.2, bind_map]
  congr 1; funext t
  simp only [map_bind]
  congr 1; funext u
  congr 1; funext v
  split
  · rw [map_bind, ← reverseMaximalSuffixLoopC_same needle _ false _ _ _ _ _ (t.2 + u.length), bind_map]
    congr 1; funext rf
    rw [map_bind, ← reverseMaximalSuffixLoopC_same needle _ true _ _ _ _ _ rf.2, bind_map]
    congr 1; funext rt
    simp only [map_bind]
    rfl
  · rw [map_bind]; rfl

theorem searchStartC_same (haystack needle : List UInt8) (steps : Nat) :
    (trim_start_matchesC haystack needle steps).map Prod.fst = trim_start_matches haystack needle := by
  unfold trim_start_matchesC trim_start_matches searchStartC
  have h : ∀ st steps, (emptyForwardC haystack st steps).map Prod.fst = emptyForward haystack st := fun st steps => by
    unfold emptyForwardC; rw [map_bind]; cases emptyForward haystack st <;> rfl
  rw [map_bind]
  split
  · rw [← nextRejectC_same _ _ h _ _ steps, bind_map]
    congr 1; funext r
    rw [map_bind]
    dsimp only
    cases strSlice haystack (rejectStart haystack.length r.1) haystack.length <;> rfl
  · rw [← newC_same needle haystack.length steps, bind_map]
    cases TwoWay.newC needle haystack.length steps with
    | error e => rfl
    | ok st =>
      simp only [bind_ok]
      rw [← nextRejectC_same _ _ (stepForwardC_same haystack needle) _ _ st.2, bind_map]
      congr 1; funext r
      rw [map_bind]
      cases strSlice haystack (rejectStart haystack.length r.1) haystack.length <;> rfl

theorem searchEndC_same (haystack needle : List UInt8) (steps : Nat) :
    (trim_end_matchesC haystack needle steps).map Prod.fst = trim_end_matches haystack needle := by
  unfold trim_end_matchesC trim_end_matches searchEndC
  have h : ∀ st steps, (emptyBackC haystack st steps).map Prod.fst = emptyBack haystack st := fun st steps => by
    unfold emptyBackC; rw [map_bind]; cases emptyBack haystack st <;> rfl
  rw [map_bind]
  split
  · rw [← nextRejectC_same _ _ h _ _ steps, bind_map]
    congr 1; funext r
    rw [map_bind]
    dsimp only
    cases strSlice haystack 0 (rejectEnd r.1) <;> rfl
  · rw [← newC_same needle haystack.length steps, bind_map]
    cases TwoWay.newC needle haystack.length steps with
    | error e => rfl
    | ok st =>
      simp only [bind_ok]
      rw [← nextRejectC_same _ _ (stepBackC_same haystack needle) _ _ st.2, bind_map]
      congr 1; funext r
      rw [map_bind]
      cases strSlice haystack 0 (rejectEnd r.1) <;> rfl

/-! ## Preparing the matcher -/

/-- `left + right + offset` grows in every round -/
theorem maximalSuffixLoopC_bound (arr : List UInt8) (ord : Bool) : ∀ (fuel left right offset period steps : Nat)
    (r : Nat × Nat) (t : Nat), left + period ≤ right → right + offset ≤ arr.length → offset < period →
    maximalSuffixLoopC arr ord fuel left right offset period steps = .ok (r, t) →
    t + left + right + offset ≤ steps + 2 * arr.length + 1
  | 0, _, _, _, _, _, _, _, _, _, _, h => by cases h
  | fuel + 1, left, right, offset, period, steps, r, t, h1, h2, h3, h => by
    have ih := maximalSuffixLoopC_bound arr ord fuel
    unfold maximalSuffixLoopC at h
    by_cases hlt : right + offset < arr.length
    · rw [List.getElem?_eq_getElem hlt] at h
      dsimp only at h
      rw [index_ok (by omega : left + offset < arr.length), bind_ok] at h
      split at h
      · rw [usizeSub_ok (by omega), bind_ok] at h
        have := ih _ _ _ _ _ _ _ (by omega) (by omega) (by omega) h
        omega
      · split at h
        · split at h
          · have := ih _ _ _ _ _ _ _ (by omega) (by omega) (by omega) h
            omega
          · have := ih _ _ _ _ _ _ _ (by omega) (by omega) (by omega) h
            omega
        · have := ih _ _ _ _ _ _ _ (by omega) (by omega) (by omega) h
          omega
    · rw [List.getElem?_eq_none (by omega)] at h
      cases h
      omega

theorem maximalSuffixC_spec (arr : List UInt8) (ord : Bool) (h : arr ≠ []) (steps : Nat) :
    ∃ l p t, maximalSuffixC arr ord steps = .ok ((l, p), t) ∧ 1 ≤ p ∧ l + p ≤ arr.length ∧ t ≤ steps + 2 * arr.length := by
  have hl : 1 ≤ arr.length := List.length_pos_iff.2 h
  obtain ⟨l, p, h1, h2, h3, _⟩ := maximal_suffix arr ord h
  obtain ⟨t, h4⟩ := of_map_fst ((maximalSuffixLoopC_same arr ord _ 0 1 0 1 steps).trans h1)
  have := maximalSuffixLoopC_bound arr ord _ _ _ _ _ _ _ _ (by omega) (by omega) (by omega) h4
  exact ⟨l, p, t, h4, h2, h3, by omega⟩

theorem reverseMaximalSuffixLoopC_bound (arr : List UInt8) (known : Nat) (ord : Bool) :
    ∀ (fuel left right offset period steps : Nat) (r t : Nat), left + period ≤ right → right + offset ≤ arr.length →
    offset < period → reverseMaximalSuffixLoopC arr known ord fuel left right offset period steps = .ok (r, t) →
    t + left + right + offset ≤ steps + 2 * arr.length + 1
  | 0, _, _, _, _, _, _, _, _, _, _, h => by cases h
  | fuel + 1, left, right, offset, period, steps, r, t, h1, h2, h3, h => by
    unfold reverseMaximalSuffixLoopC at h
    by_cases hlt : right + offset < arr.length
    · rw [if_pos hlt, usizeSub_ok (by omega), bind_ok, index_ok (by omega), bind_ok, usizeSub_ok (by omega), bind_ok,
        index_ok (by omega), bind_ok] at h
      have fin : ∀ l r' o p, l + p ≤ r' → r' + o ≤ arr.length → o < p → left + right + offset + 1 ≤ l + r' + o →
          (if p = known then (.ok (l, steps + 1) : Res (Nat × Nat))
            else reverseMaximalSuffixLoopC arr known ord fuel l r' o p (steps + 1)) = .ok (r, t) →
          t + left + right + offset ≤ steps + 2 * arr.length + 1 := fun l r' o p a1 a2 a3 a4 hh => by
        split at hh
        · cases hh; omega
        · have := reverseMaximalSuffixLoopC_bound arr known ord fuel _ _ _ _ _ _ _ a1 a2 a3 hh
          omega
      split at h
      · rw [usizeSub_ok (by omega)] at h
        exact fin _ _ _ _ (by omega) (by omega) (by omega) (by omega) h
      · split at h
        · split at h
          · exact fin _ _ _ _ (by omega) (by omega) (by omega) (by omega) h
          · exact fin _ _ _ _ (by omega) (by omega) (by omega) (by omega) h
        · exact fin _ _ _ _ (by omega) (by omega) (by omega) (by omega) h
    · rw [if_neg hlt] at h
      cases h
      omega

theorem reverseMaximalSuffixC_spec (arr : List UInt8) (known : Nat) (ord : Bool) (h : arr ≠ []) (steps : Nat) :
    ∃ l t, reverseMaximalSuffixC arr known ord steps = .ok (l, t) ∧ t ≤ steps + 2 * arr.length := by
  have hl : 1 ≤ arr.length := List.length_pos_iff.2 h
  obtain ⟨l, h1, h2⟩ := reverse_maximal_suffix arr known ord h
  obtain ⟨t, h4⟩ := of_map_fst ((reverseMaximalSuffixLoopC_same arr known ord _ 0 1 0 1 steps).trans h1)
  have := reverseMaximalSuffixLoopC_bound arr known ord _ _ _ _ _ _ _ _ (by omega) (by omega) (by omega) h4
  exact ⟨l, t, h4, by omega⟩

theorem newC_bound (needle : List UInt8) (n steps : Nat) (h : needle ≠ []) (st : TwoWay) (t : Nat)
    (hn : TwoWay.newC needle n steps = .ok (st, t)) : t ≤ steps + 10 * needle.length := by
  unfold TwoWay.newC at hn
  obtain ⟨lf, pf, tf, ef, hf1, hf2, hf3⟩ := maximalSuffixC_spec needle false h steps
  obtain ⟨lt, pt, tt, et, ht1, ht2, ht3⟩ := maximalSuffixC_spec needle true h tf
  rw [ef, bind_ok] at hn
  dsimp only at hn
  rw [et, bind_ok] at hn
  dsimp only at hn
  have hcp : ∃ c p, (if lf > lt then lf else lt) = c ∧ (if lf > lt then pf else pt) = p ∧ 1 ≤ p ∧ c + p ≤ needle.length := by
    by_cases hc : lf > lt
    · rw [if_pos hc, if_pos hc]; exact ⟨lf, pf, rfl, rfl, hf1, hf2⟩
    · rw [if_neg hc, if_neg hc]; exact ⟨lt, pt, rfl, rfl, ht1, ht2⟩
  obtain ⟨c, p, e1, e2, hp1, hp2⟩ := hcp
  rw [e1, e2, slice_ok (by omega), bind_ok, slice_ok (by omega), bind_ok] at hn
  have hu : (List.take (c - 0) (List.drop 0 needle)).length ≤ c := by rw [List.length_take]; omega
  split at hn
  · obtain ⟨rf, tr, er, hr⟩ := reverseMaximalSuffixC_spec needle p false h
      (tt + (List.take (c - 0) (List.drop 0 needle)).length)
    obtain ⟨rt, ts, es, hs⟩ := reverseMaximalSuffixC_spec needle p true h tr
    rw [er, bind_ok] at hn
    dsimp only at hn
    rw [es, bind_ok] at hn
    cases hsub : usizeSub needle.length (max rf rt) with
    | error e => rw [hsub] at hn; cases hn
    | ok x =>
      rw [hsub, bind_ok, slice_ok (by omega), bind_ok] at hn
      have hb : (List.take (p - 0) (List.drop 0 needle)).length ≤ p := by rw [List.length_take]; omega
      cases hn
      omega
  · rw [usizeSub_ok (by omega), bind_ok] at hn
    cases hn
    omega

/-! ## Searching -/

theorem range_length (a b : Nat) : (range a b).length = b - a := by unfold range; rw [List.length_range']

theorem nextC_moved {haystack needle : List UInt8} {old_end fuel : Nat} {st : TwoWay} {steps : Nat}
    {r : SearchStep × TwoWay} {t : Nat} (h : old_end ≠ st.position)
    (hn : TwoWay.nextC haystack needle old_end (fuel + 1) st steps = .ok (r, t)) : t = steps + 1 := by
  unfold TwoWay.nextC at hn
  cases hs : usizeSub needle.length 1 with
  | error e => rw [hs] at hn; cases hn
  | ok x =>
    rw [hs, bind_ok] at hn
    cases hh : haystack[st.position + x]? with
    | none => rw [hh] at hn; cases hn; rfl
    | some b =>
      rw [hh] at hn
      dsimp only at hn
      rw [if_pos h] at hn
      cases hn; rfl

theorem nextC_bound {haystack needle : List UInt8} {fuel : Nat} {st : TwoWay} {steps : Nat} {r : SearchStep × TwoWay}
    {t : Nat} (hn : needle ≠ []) (hst : Fresh needle st)
    (h : TwoWay.nextC haystack needle st.position (fuel + 2) st steps = .ok (r, t)) : t ≤ steps + needle.length + 2 := by
  have hl : 1 ≤ needle.length := List.length_pos_iff.2 hn
  obtain ⟨hr, hmem, hback⟩ := hst
  have hcrit := hr.crit
  have hper := hr.period
  have hmem0 : st.memory.getD 0 = 0 := by rcases hmem with h | h <;> rw [h] <;> rfl
  rw [TwoWay.nextC, usizeSub_ok hl, bind_ok] at h
  cases hh : haystack[st.position + (needle.length - 1)]? with
  | none => rw [hh] at h; cases h; omega
  | some b =>
    rw [hh] at h
    dsimp only at h
    rw [if_neg (fun h => h rfl)] at h
    split at h
    · have := nextC_moved (by show st.position ≠ st.position + needle.length; omega) h
      omega
    · rw [hmem0] at h
      simp only [range_length] at h
      cases hf : firstMismatch haystack needle st.position (range (max st.crit_pos 0) needle.length) with
      | error e => rw [hf] at h; cases h
      | ok o =>
        rw [hf, bind_ok] at h
        cases o with
        | some i =>
          dsimp only at h
          cases hs : usizeSub i st.crit_pos with
          | error e => rw [hs] at h; cases h
          | ok d =>
            rw [hs, bind_ok] at h
            have := nextC_moved (by show st.position ≠ st.position + (d + 1); omega) h
            omega
        | none =>
          dsimp only at h
          cases hf2 : firstMismatch haystack needle st.position (range 0 st.crit_pos).reverse with
          | error e => rw [hf2] at h; cases h
          | ok o =>
            rw [hf2, bind_ok] at h
            cases o with
            | some i =>
              have hm : st.position ≠ st.position + st.period := by omega
              rcases hmem with hm' | hm'
              · rw [hm'] at h
                dsimp only at h
                rw [bind_ok] at h
                have := nextC_moved (by show st.position ≠ st.position + st.period; omega) h
                omega
              · rw [hm'] at h
                dsimp only at h
                rw [usizeSub_ok hper.2, bind_ok, bind_ok] at h
                have := nextC_moved (by show st.position ≠ st.position + st.period; omega) h
                omega
            | none => cases h; omega

theorem nextBackC_moved {haystack needle : List UInt8} {old_end fuel : Nat} {st : TwoWay} {steps : Nat}
    {r : SearchStep × TwoWay} {t : Nat} (h : old_end ≠ st.end)
    (hn : TwoWay.nextBackC haystack needle old_end (fuel + 1) st steps = .ok (r, t)) : t = steps + 1 := by
  unfold TwoWay.nextBackC at hn
  split at hn
  · cases hn; rfl
  · rw [if_pos h] at hn
    cases hn; rfl

theorem firstMismatch_spec' (haystack needle : List UInt8) (start : Nat) : ∀ l : List Nat,
    (∃ e, firstMismatch haystack needle start l = .error e) ∨ firstMismatch haystack needle start l = .ok none ∨
    ∃ i, firstMismatch haystack needle start l = .ok (some i) ∧ i ∈ l
  | [] => .inr (.inl rfl)
  | i :: l => by
    unfold firstMismatch
    cases index needle i with
    | error e => exact .inl ⟨e, rfl⟩
    | ok a =>
      cases index haystack (start + i) with
      | error e => exact .inl ⟨e, rfl⟩
      | ok b =>
        simp only [bind_ok]
        split
        · exact .inr (.inr ⟨i, rfl, List.mem_cons_self⟩)
        · rcases firstMismatch_spec' haystack needle start l with h | h | ⟨j, h, hj⟩
          · exact .inl h
          · exact .inr (.inl h)
          · exact .inr (.inr ⟨j, h, List.mem_cons_of_mem _ hj⟩)

theorem nextBackC_bound {haystack needle : List UInt8} {fuel : Nat} {st : TwoWay} {steps : Nat} {r : SearchStep × TwoWay}
    {t : Nat} (hn : needle ≠ []) (hst : Fresh needle st)
    (h : TwoWay.nextBackC haystack needle st.end (fuel + 2) st steps = .ok (r, t)) : t ≤ steps + needle.length + 2 := by
  have hl : 1 ≤ needle.length := List.length_pos_iff.2 hn
  obtain ⟨hr, hmem, hback⟩ := hst
  have hcb := hr.critBack
  have hper := hr.period
  have hm1 : min st.crit_pos_back (st.memory_back.getD st.crit_pos_back) = st.crit_pos_back := by
    rcases hback with h | h <;> rw [h]
    · exact Nat.min_self _
    · exact Nat.min_eq_left hcb
  have hm2 : st.memory_back.getD needle.length = needle.length := by rcases hback with h | h <;> rw [h] <;> rfl
  rw [TwoWay.nextBackC] at h
  by_cases hlt : st.end < needle.length
  · rw [if_pos hlt] at h
    cases h; omega
  · rw [if_neg hlt] at h
    cases hh : haystack[st.end - needle.length]? with
    | none => rw [hh] at h; cases h; omega
    | some b =>
      rw [hh] at h
      dsimp only at h
      rw [if_neg (fun h => h rfl)] at h
      split at h
      · rw [usizeSub_ok (by omega), bind_ok] at h
        have := nextBackC_moved (by show st.end ≠ st.end - needle.length; omega) h
        omega
      · rw [hm1, hm2, usizeSub_ok (by omega), bind_ok] at h
        simp only [range_length] at h
        rcases firstMismatch_spec' haystack needle (st.end - needle.length) (range 0 st.crit_pos_back).reverse with ⟨e, he⟩ | he | ⟨i, he, hi⟩
        · rw [he] at h; cases h
        · rw [he, bind_ok] at h
          dsimp only at h
          rcases firstMismatch_spec' haystack needle (st.end - needle.length) (range st.crit_pos_back needle.length) with ⟨e, he⟩ | he | ⟨i, he, hi⟩
          · rw [he] at h; cases h
          · rw [he, bind_ok] at h
            cases h; omega
          · rw [he, bind_ok] at h
            dsimp only at h
            rw [usizeSub_ok (by omega), bind_ok] at h
            have := nextBackC_moved (by show st.end ≠ st.end - st.period; omega) h
            omega
        · rw [he, bind_ok] at h
          have hi' := mem_range.1 (List.mem_reverse.1 hi)
          dsimp only at h
          rw [usizeSub_ok (by omega), bind_ok, usizeSub_ok (by omega), bind_ok] at h
          have := nextBackC_moved (by show st.end ≠ st.end - (st.crit_pos_back - i); omega) h
          omega

theorem boundaryUpC_bound (haystack : List UInt8) : ∀ (fuel b steps r t : Nat),
    boundaryUpC haystack fuel b steps = .ok (r, t) → t ≤ steps + fuel
  | 0, _, _, _, _, h => by cases h
  | fuel + 1, b, steps, r, t, h => by
    unfold boundaryUpC at h
    split at h
    · cases h; omega
    · have := boundaryUpC_bound haystack fuel _ _ _ _ h
      omega

theorem boundaryDownC_bound (haystack : List UInt8) : ∀ (fuel b steps r t : Nat),
    boundaryDownC haystack fuel b steps = .ok (r, t) → t ≤ steps + fuel
  | 0, _, _, _, _, h => by cases h
  | fuel + 1, b, steps, r, t, h => by
    unfold boundaryDownC at h
    split at h
    · cases h; omega
    · cases hs : usizeSub b 1 with
      | error e => rw [hs] at h; cases h
      | ok x =>
        rw [hs, bind_ok] at h
        have := boundaryDownC_bound haystack fuel _ _ _ _ h
        omega

theorem nextRejectC_forward (haystack needle : List UInt8) (hn : needle ≠ []) : ∀ (fuel : Nat) (st : TwoWay) (steps : Nat)
    (r : Option (Nat × Nat)) (t : Nat), Fresh needle st → st.position ≤ haystack.length →
    nextRejectC (stepForwardC haystack needle) fuel st steps = .ok (r, t) →
    t ≤ steps + 5 * (haystack.length - st.position) + haystack.length + needle.length + 5
  | 0, _, _, _, _, _, _, h => by cases h
  | fuel + 1, st, steps, r, t, hst, hpos, h => by
    have hl : 1 ≤ needle.length := List.length_pos_iff.2 hn
    unfold nextRejectC stepForwardC at h
    by_cases he : st.position = haystack.length
    · rw [if_pos he, bind_ok] at h
      cases h; omega
    · rw [if_neg he] at h
      rcases next_fresh haystack needle hn haystack.length st hst with ⟨ha, st', e, hst', hp'⟩ | ⟨ha, b, st', e, hb⟩
      · have hend := not_at_end hn ha
        obtain ⟨t1, e1⟩ := of_map_fst ((nextC_same haystack needle st.position (haystack.length + 2) st (steps + 1 + 1)).trans e)
        have hb1 := nextC_bound hn hst e1
        rw [e1, bind_ok] at h
        dsimp only at h
        rw [bind_ok] at h
        dsimp only at h
        have := nextRejectC_forward haystack needle hn fuel st' _ _ _ hst' (by omega) h
        omega
      · obtain ⟨t1, e1⟩ := of_map_fst ((nextC_same haystack needle st.position (haystack.length + 2) st (steps + 1 + 1)).trans e)
        have hb1 := nextC_bound hn hst e1
        rw [e1, bind_ok] at h
        dsimp only at h
        cases hu : boundaryUpC haystack (haystack.length + 1) b t1 with
        | error e => rw [hu] at h; cases h
        | ok x =>
          have hb2 := boundaryUpC_bound haystack _ _ _ _ _ hu
          rw [hu, bind_ok, bind_ok] at h
          cases h
          omega

theorem nextRejectC_back (haystack needle : List UInt8) (hn : needle ≠ []) : ∀ (fuel : Nat) (st : TwoWay) (steps : Nat)
    (r : Option (Nat × Nat)) (t : Nat), Fresh needle st → st.end ≤ haystack.length →
    nextRejectC (stepBackC haystack needle) fuel st steps = .ok (r, t) →
    t ≤ steps + 5 * st.end + haystack.length + needle.length + 5
  | 0, _, _, _, _, _, _, h => by cases h
  | fuel + 1, st, steps, r, t, hst, hpos, h => by
    have hl : 1 ≤ needle.length := List.length_pos_iff.2 hn
    unfold nextRejectC stepBackC at h
    by_cases he : st.end = 0
    · rw [if_pos he, bind_ok] at h
      cases h; omega
    · rw [if_neg he] at h
      rcases next_back_fresh haystack needle hn haystack.length st hst hpos with
        ⟨hle, ha, st', e, hst', hp'⟩ | ⟨ha, b, st', e, hb⟩
      · obtain ⟨t1, e1⟩ := of_map_fst ((nextBackC_same haystack needle st.end (haystack.length + 2) st (steps + 1 + 1)).trans e)
        have hb1 := nextBackC_bound hn hst e1
        rw [e1, bind_ok] at h
        dsimp only at h
        rw [bind_ok] at h
        dsimp only at h
        have := nextRejectC_back haystack needle hn fuel st' _ _ _ hst' (by omega) h
        omega
      · obtain ⟨t1, e1⟩ := of_map_fst ((nextBackC_same haystack needle st.end (haystack.length + 2) st (steps + 1 + 1)).trans e)
        have hb1 := nextBackC_bound hn hst e1
        rw [e1, bind_ok] at h
        dsimp only at h
        cases hu : boundaryDownC haystack (haystack.length + 1) b t1 with
        | error e => rw [hu] at h; cases h
        | ok x =>
          have hb2 := boundaryDownC_bound haystack _ _ _ _ _ hu
          rw [hu, bind_ok, bind_ok] at h
          cases h
          omega

theorem emptyC_bound (haystack : List UInt8) (steps : Nat) :
    (∀ r t, nextRejectC (emptyForwardC haystack) (haystack.length + 2) ⟨0, true⟩ steps = .ok (r, t) → t ≤ steps + 6) ∧
    (∀ r t, nextRejectC (emptyBackC haystack) (haystack.length + 2) ⟨haystack.length, true⟩ steps = .ok (r, t) →
      t ≤ steps + 6) := by
  constructor
  · intro r t h
    rw [nextRejectC, emptyForwardC, emptyForward, if_pos rfl, bind_ok, bind_ok] at h
    dsimp only at h
    rw [nextRejectC, emptyForwardC, emptyForward, if_neg Bool.false_ne_true] at h
    dsimp only at h
    cases hc : nextCodePoint (haystack.drop 0) with
    | none => rw [hc] at h; cases h; omega
    | some x => rw [hc] at h; cases h; omega
  · intro r t h
    rw [nextRejectC, emptyBackC, emptyBack, if_pos rfl, bind_ok, bind_ok] at h
    dsimp only at h
    rw [nextRejectC, emptyBackC, emptyBack, if_neg Bool.false_ne_true] at h
    dsimp only at h
    cases hc : (strCharIndices (haystack.take haystack.length)).getLast? with
    | none => rw [hc] at h; cases h; omega
    | some x => rw [hc] at h; cases h; omega

theorem trim_start_bound (haystack needle : List UInt8) (steps : Nat) (r : List UInt8) (t : Nat)
    (h : trim_start_matchesC haystack needle steps = .ok (r, t)) :
    t ≤ steps + 6 * haystack.length + 11 * needle.length + 7 := by
  unfold trim_start_matchesC searchStartC at h
  have fin : ∀ (x : Option (Nat × Nat) × Nat), ((do
      let s ← strSlice haystack (rejectStart haystack.length x.1) haystack.length
      .ok (s, x.2 + 1)) : Res (List UInt8 × Nat)) = .ok (r, t) → t = x.2 + 1 := fun x hx => by
    cases hs : strSlice haystack (rejectStart haystack.length x.1) haystack.length with
    | error e => rw [hs] at hx; cases hx
    | ok y => rw [hs] at hx; cases hx; rfl
  by_cases hn : needle = []
  · rw [if_pos (by rw [hn]; rfl)] at h
    cases hr : nextRejectC (emptyForwardC haystack) (haystack.length + 2) ⟨0, true⟩ steps with
    | error e => rw [hr] at h; cases h
    | ok x =>
      rw [hr, bind_ok] at h
      have h1 := (emptyC_bound haystack steps).1 _ _ hr
      have h2 := fin x h
      omega
  · rw [if_neg (by rw [List.isEmpty_iff]; exact hn)] at h
    obtain ⟨st, e1, e2, e3, e4⟩ := new_fresh needle haystack.length hn
    obtain ⟨t1, h1⟩ := of_map_fst ((newC_same needle haystack.length steps).trans e1)
    have b1 := newC_bound needle _ _ hn _ _ h1
    rw [h1, bind_ok] at h
    dsimp only at h
    cases hr : nextRejectC (stepForwardC haystack needle) (haystack.length + 2) st t1 with
    | error e => rw [hr] at h; cases h
    | ok x =>
      rw [hr, bind_ok] at h
      have b2 := nextRejectC_forward haystack needle hn _ st _ _ _ e2 (by omega) hr
      have h2 := fin x h
      omega

theorem trim_end_bound (haystack needle : List UInt8) (steps : Nat) (r : List UInt8) (t : Nat)
    (h : trim_end_matchesC haystack needle steps = .ok (r, t)) :
    t ≤ steps + 6 * haystack.length + 11 * needle.length + 7 := by
  unfold trim_end_matchesC searchEndC at h
  have fin : ∀ (x : Option (Nat × Nat) × Nat), ((do
      let s ← strSlice haystack 0 (rejectEnd x.1)
      .ok (s, x.2 + 1)) : Res (List UInt8 × Nat)) = .ok (r, t) → t = x.2 + 1 := fun x hx => by
    cases hs : strSlice haystack 0 (rejectEnd x.1) with
    | error e => rw [hs] at hx; cases hx
    | ok y => rw [hs] at hx; cases hx; rfl
  by_cases hn : needle = []
  · rw [if_pos (by rw [hn]; rfl)] at h
    cases hr : nextRejectC (emptyBackC haystack) (haystack.length + 2) ⟨haystack.length, true⟩ steps with
    | error e => rw [hr] at h; cases h
    | ok x =>
      rw [hr, bind_ok] at h
      have h1 := (emptyC_bound haystack steps).2 _ _ hr
      have h2 := fin x h
      omega
  · rw [if_neg (by rw [List.isEmpty_iff]; exact hn)] at h
    obtain ⟨st, e1, e2, e3, e4⟩ := new_fresh needle haystack.length hn
    obtain ⟨t1, h1⟩ := of_map_fst ((newC_same needle haystack.length steps).trans e1)
    have b1 := newC_bound needle _ _ hn _ _ h1
    rw [h1, bind_ok] at h
    dsimp only at h
    cases hr : nextRejectC (stepBackC haystack needle) (haystack.length + 2) st t1 with
    | error e => rw [hr] at h; cases h
    | ok x =>
      rw [hr, bind_ok] at h
      have b2 := nextRejectC_back haystack needle hn _ st _ _ _ e2 (by omega) hr
      have h2 := fin x h
      omega

/-- **C109** `trim_start_matches` and `trim_end_matches` take linear time whatever the pattern is, however often it occurs -/
theorem C109_matches (s pat : Str) :
    (∃ r t, trim_start_matchesC (utf8 s) (utf8 pat) 0 = .ok (r, t) ∧ t ≤ 6 * (utf8 s).length + 11 * (utf8 pat).length + 7) ∧
    (∃ r t, trim_end_matchesC (utf8 s) (utf8 pat) 0 = .ok (r, t) ∧ t ≤ 6 * (utf8 s).length + 11 * (utf8 pat).length + 7) := by
  obtain ⟨t1, h1⟩ := of_map_fst ((searchStartC_same (utf8 s) (utf8 pat) 0).trans (C108_start s pat))
  obtain ⟨t2, h2⟩ := of_map_fst ((searchEndC_same (utf8 s) (utf8 pat) 0).trans (C108_end s pat))
  have b1 := trim_start_bound _ _ _ _ _ h1
  have b2 := trim_end_bound _ _ _ _ _ h2
  exact ⟨⟨_, t1, h1, by omega⟩, ⟨_, t2, h2, by omega⟩⟩

/-! ## `trim_okurigana` -/

theorem trimTokens_source (input : List UInt8) (m : Option (List UInt8)) : trimTokensBytes input m =
    (group_by (fun elt => get_type elt false) (strChars (tokenSourceBytes input m))).map fun g => strCollect g.2 := by
  cases m <;> rfl

/-- **C109** the counter changes no result -/
theorem C109_same (input : List UInt8) (trim_from_start : Bool) (m : Option (List UInt8)) (steps : Nat) :
    (trim_okuriganaC input trim_from_start m steps).map Prod.fst = trim_okurigana input trim_from_start m ∧
    ∀ needle, (trim_start_matchesC input needle steps).map Prod.fst = trim_start_matches input needle ∧
      (trim_end_matchesC input needle steps).map Prod.fst = trim_end_matches input needle := by
  refine ⟨?_, fun needle => ⟨searchStartC_same _ _ _, searchEndC_same _ _ _⟩⟩
  unfold trim_okuriganaC trim_okurigana
  rw [map_bind, trimTokens_source]
  congr 1; funext u
  cases u with
  | true => rfl
  | false =>
    obtain ⟨t, ht, _⟩ := Itertools.group_byC (fun elt => get_type elt false) (strChars (tokenSourceBytes input m))
      (steps + (strChars input).length + 1 + (strChars (tokenSourceBytes input m)).length)
    simp only [Bool.false_eq_true, if_false]
    unfold Itertools.tokenize_with_optC
    rw [ht, bind_ok, bind_ok]
    simp only [List.map_map]
    have e : (strCollect ∘ fun p : TokenType × Str => p.2) = fun g => strCollect g.2 := rfl
    rw [e]
    generalize (group_by (fun elt => get_type elt false) (strChars (tokenSourceBytes input m))).map (fun g => strCollect g.2) = L
    by_cases hL : L.isEmpty = true
    · rw [if_pos hL, if_pos hL]; rfl
    · rw [if_neg hL, if_neg hL]
      cases trim_from_start with
      | true =>
        simp only [if_true]
        rw [map_bind]
        congr 1; funext t
        exact searchStartC_same _ _ _
      | false =>
        simp only [Bool.false_eq_true, if_false]
        rw [map_bind]
        congr 1; funext t
        exact searchEndC_same _ _ _

theorem length_le_utf8 (s : Str) : s.length ≤ (utf8 s).length := by
  induction s with
  | nil => exact Nat.le_refl _
  | cons c s ih =>
    rw [utf8_cons, List.length_append, encode_length, List.length_cons]
    have : 1 ≤ lenUtf8 c := by unfold lenUtf8; split <;> (try split) <;> (try split) <;> omega
    omega

theorem length_le_flatten {α : Type} : ∀ (L : List (List α)), (∀ l, l ∈ L → l ≠ []) → L.length ≤ L.flatten.length
  | [], _ => Nat.le_refl _
  | l :: L, h => by
    have h1 : 1 ≤ l.length := List.length_pos_iff.2 (h l List.mem_cons_self)
    have h2 := length_le_flatten L fun x hx => h x (List.mem_cons_of_mem _ hx)
    rw [List.flatten_cons, List.length_append, List.length_cons]
    omega

theorem mem_le_flatten {α : Type} : ∀ (L : List (List α)) (l : List α), l ∈ L → l.length ≤ L.flatten.length
  | x :: L, l, h => by
    rw [List.flatten_cons, List.length_append]
    rcases List.mem_cons.1 h with rfl | h
    · omega
    · have := mem_le_flatten L l h
      omega

theorem tokens_flatten (s : Str) :
    ((group_by (fun elt => get_type elt false) s).map fun g => strCollect g.2).flatten = utf8 s ∧
    ∀ l, l ∈ ((group_by (fun elt => get_type elt false) s).map fun g => strCollect g.2) → l ≠ [] := by
  have h := group_by_isTokenization (fun elt => get_type elt false) s
  constructor
  · have e : ∀ L : List (TokenType × Str), (L.map fun g => strCollect g.2).flatten = utf8 (L.map fun t => t.2).flatten := by
      intro L
      induction L with
      | nil => rfl
      | cons a L ih =>
        rw [List.map_cons, List.flatten_cons, ih, List.map_cons, List.flatten_cons, utf8_append, strCollect_utf8]
    rw [e, h.concat]
  · intro l hl
    obtain ⟨g, hg, rfl⟩ := List.mem_map.1 hl
    rw [strCollect_utf8]
    exact fun h0 => h.nonempty g hg (utf8_eq_nil.1 h0)

/-- **C109** `trim_okurigana` takes at most 7 steps per byte of the text and 27 per byte of the text that is tokenized -/
theorem C109_trim (s : Str) (trim_from_start : Bool) (m : Option Str) :
    ∃ r t, trim_okuriganaC (utf8 s) trim_from_start (m.map utf8) 0 = .ok (r, t) ∧
      t ≤ 7 * (utf8 s).length + 27 * (utf8 (m.getD s)).length + 12 := by
  have hs : tokenSourceBytes (utf8 s) (m.map utf8) = utf8 (m.getD s) := by cases m <;> rfl
  obtain ⟨w, hw⟩ : ∃ w, trim_okurigana_with_opt s trim_from_start m = .ok w := by
    obtain ⟨w, hw, _⟩ := C50_prefix_suffix s trim_from_start m
    exact ⟨w, hw⟩
  have hok : trim_okurigana (utf8 s) trim_from_start (m.map utf8) = .ok (utf8 w) := by rw [C108_trim, hw]; rfl
  obtain ⟨t, ht⟩ := of_map_fst ((C109_same (utf8 s) trim_from_start (m.map utf8) 0).1.trans hok)
  refine ⟨_, t, ht, ?_⟩
  unfold trim_okuriganaC at ht
  rw [hs, strChars_utf8, strChars_utf8] at ht
  have l1 := length_le_utf8 s
  have l2 := length_le_utf8 (m.getD s)
  cases hg : trimGuard s trim_from_start ((m.map utf8).map strChars) with
  | error e => rw [hg] at ht; cases ht
  | ok u =>
    rw [hg, bind_ok] at ht
    cases u with
    | true =>
      simp only [if_true] at ht
      have := (Prod.mk.inj (Except.ok.inj ht)).2
      omega
    | false =>
      simp only [Bool.false_eq_true, if_false] at ht
      obtain ⟨t1, ht1, hb1⟩ := Itertools.group_byC (fun elt => get_type elt false) (m.getD s)
        (0 + s.length + 1 + (m.getD s).length)
      unfold Itertools.tokenize_with_optC at ht
      rw [ht1, bind_ok, bind_ok] at ht
      simp only [List.map_map] at ht
      have e : (strCollect ∘ fun p : TokenType × Str => p.2) = fun g => strCollect g.2 := rfl
      rw [e] at ht
      obtain ⟨hf, hne⟩ := tokens_flatten (m.getD s)
      have hcount := length_le_flatten _ hne
      rw [hf] at hcount ht
      have hmem := fun l hl => hf ▸ mem_le_flatten ((group_by (fun elt => get_type elt false) (m.getD s)).map
        fun (g : TokenType × Str) => strCollect g.2) l hl
      generalize (group_by (fun elt => get_type elt false) (m.getD s)).map (fun g => strCollect g.2) = L at *
      by_cases hL : L.isEmpty = true
      · rw [if_pos hL] at ht
        have := (Prod.mk.inj (Except.ok.inj ht)).2
        omega
      · rw [if_neg hL] at ht
        cases trim_from_start with
        | true =>
          simp only [if_true] at ht
          cases hi : index L 0 with
          | error e => rw [hi] at ht; cases ht
          | ok x =>
            rw [hi, bind_ok] at ht
            have hx : x ∈ L := by
              unfold index at hi
              cases hx : L[0]? with
              | none => rw [hx] at hi; cases hi
              | some y => rw [hx] at hi; cases hi; exact List.mem_of_getElem? hx
            have h1 := hmem x hx
            have h2 := trim_start_bound _ _ _ _ _ ht
            omega
        | false =>
          simp only [Bool.false_eq_true, if_false] at ht
          cases hx : L.getLast? with
          | none => rw [hx] at ht; cases ht
          | some x =>
            rw [hx] at ht
            have h1 := hmem x (List.mem_of_getLast? hx)
            have h2 := trim_end_bound _ _ _ _ _ ht
            omega

/-- the numbers of steps for two texts -/
example : (trim_okuriganaC (utf8 "美しい".toList) false none 0).map Prod.snd = .ok 88 ∧
    (trim_end_matchesC (utf8 "いいいいい".toList) (utf8 "い".toList) 0).map Prod.snd = .ok 43 := by decide +kernel

end WanaKana.StrSearcher
