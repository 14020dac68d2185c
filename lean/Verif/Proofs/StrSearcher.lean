import Verif.Model.StrSearcher
/-! # Facts about the Two-Way matcher of the standard library, as far as `trim_*_matches` needs them

Only the first piece that does not match is asked for, so the matcher is always in a state without memory; what is needed is
that its preparation does not fail, that the period it computes is a period of the pattern (else the set of bytes could miss
one), and that every mismatch moves the position. -/

namespace WanaKana.StrSearcher

theorem bind_ok {α β : Type} (a : α) (f : α → Res β) : ((Except.ok a : Res α) >>= f) = f a := rfl

theorem usizeSub_ok {a b : Nat} (h : b ≤ a) : usizeSub a b = .ok (a - b) := by unfold usizeSub; rw [if_pos h]

theorem index_ok {α : Type} {l : List α} {i : Nat} (h : i < l.length) : index l i = .ok l[i] := by
  unfold index; rw [List.getElem?_eq_getElem h]; rfl

/-- `arr[lo..hi]` has the period `p` -/
def Periodic (arr : List UInt8) (p lo hi : Nat) : Prop := ∀ j, lo ≤ j → j + p < hi → arr[j]? = arr[j + p]?

theorem periodic_mul {arr : List UInt8} {p lo hi : Nat} (h : Periodic arr p lo hi) (j : Nat) (hj : lo ≤ j) :
    ∀ m, j + m * p < hi → arr[j]? = arr[j + m * p]?
  | 0, _ => by simp
  | m + 1, hm => by
    have e : (m + 1) * p = m * p + p := Nat.succ_mul m p
    rw [e] at hm ⊢
    have h1 := periodic_mul h j hj m (by omega)
    rw [h1, h (j + m * p) (by omega) (by omega)]
    congr 1
    omega

theorem maximal_suffix_loop (arr : List UInt8) (ord : Bool) : ∀ (fuel left right offset period : Nat),
    left < right → right + offset ≤ arr.length → offset < period → (∃ m, right - left = (m + 1) * period) →
    Periodic arr period left (right + offset) →
    (arr.length - right) * (arr.length + 1) + (arr.length - offset) < fuel →
    ∃ l p, maximalSuffixLoop arr ord fuel left right offset period = .ok (l, p) ∧ 1 ≤ p ∧ l + p ≤ arr.length ∧
      Periodic arr p l arr.length
  | 0, _, _, _, _, _, _, _, _, _, h => absurd h (Nat.not_lt_zero _)
  | fuel + 1, left, right, offset, period, h1, h2, h3, ⟨m, hm⟩, hp, hf => by
    unfold maximalSuffixLoop
    by_cases hlt : right + offset < arr.length
    · have key : ∀ right' offset', right < right' → right' + offset' ≤ arr.length →
          (arr.length - right') * (arr.length + 1) + (arr.length - offset') < fuel := fun r' o' hr hro => by
        have e : arr.length - right = (arr.length - r') + (r' - right) := by omega
        rw [e, Nat.add_mul] at hf
        have : (r' - right) * (arr.length + 1) ≥ 1 * (arr.length + 1) := Nat.mul_le_mul_right _ (by omega)
        omega
      rw [List.getElem?_eq_getElem hlt]
      dsimp only
      rw [index_ok (by omega : left + offset < arr.length), bind_ok]
      split
      · rw [usizeSub_ok (by omega), bind_ok]
        refine maximal_suffix_loop arr ord fuel left (right + offset + 1) 0 _ (by omega) (by omega) (by omega)
          ⟨0, by omega⟩ ?_ (key _ _ (by omega) (by omega))
        intro j hj hj'; omega
      · split
        · rename_i hab
          have hper : Periodic arr period left (right + offset + 1) := by
            intro j hj hj'
            by_cases hlast : j + period = right + offset
            · have e1 : (m + 1) * period = m * period + period := Nat.succ_mul m period
              have e2 : j = left + offset + m * period := by omega
              have h4 := periodic_mul hp (left + offset) (by omega) m (by omega)
              rw [hlast, e2, ← h4, List.getElem?_eq_getElem hlt, List.getElem?_eq_getElem (by omega : left + offset < arr.length),
                hab]
            · exact hp j hj (by omega)
          split
          · rename_i hop
            refine maximal_suffix_loop arr ord fuel left (right + offset + 1) 0 period (by omega) (by omega) (by omega)
              ⟨m + 1, ?_⟩ hper (key _ _ (by omega) (by omega))
            have e1 : (m + 1 + 1) * period = (m + 1) * period + period := Nat.succ_mul _ period
            omega
          · refine maximal_suffix_loop arr ord fuel left right (offset + 1) period h1 (by omega) (by omega)
              ⟨m, hm⟩ hper (by omega)
        · refine maximal_suffix_loop arr ord fuel right (right + 1) 0 1 (by omega) (by omega) (by omega)
            ⟨0, by omega⟩ ?_ (key _ _ (by omega) (by omega))
          intro j hj hj'; omega
    · rw [List.getElem?_eq_none (by omega)]
      refine ⟨left, period, rfl, by omega, ?_, ?_⟩
      · have e1 : (m + 1) * period = m * period + period := Nat.succ_mul m period
        omega
      · have : right + offset = arr.length := by omega
        rw [← this]; exact hp

theorem maximal_suffix (arr : List UInt8) (ord : Bool) (h : arr ≠ []) :
    ∃ l p, maximalSuffix arr ord = .ok (l, p) ∧ 1 ≤ p ∧ l + p ≤ arr.length ∧ Periodic arr p l arr.length := by
  have hl : 1 ≤ arr.length := List.length_pos_iff.2 h
  refine maximal_suffix_loop arr ord _ 0 1 0 1 (by omega) (by omega) (by omega) ⟨0, by omega⟩ ?_ ?_
  · intro j hj hj'; omega
  · have e : (arr.length + 1) * (arr.length + 1) = (arr.length - 1) * (arr.length + 1) + 2 * (arr.length + 1) := by
      rw [← Nat.add_mul]; congr 1; omega
    omega

theorem reverse_maximal_suffix_loop (arr : List UInt8) (known : Nat) (ord : Bool) :
    ∀ (fuel left right offset period : Nat), left < right → right + offset ≤ arr.length →
    (arr.length - right) * (arr.length + 1) + (arr.length - offset) < fuel →
    ∃ l, reverseMaximalSuffixLoop arr known ord fuel left right offset period = .ok l ∧ l ≤ arr.length
  | 0, _, _, _, _, _, _, h => absurd h (Nat.not_lt_zero _)
  | fuel + 1, left, right, offset, period, h1, h2, hf => by
    unfold reverseMaximalSuffixLoop
    by_cases hlt : right + offset < arr.length
    · have key : ∀ right' offset', right < right' → right' + offset' ≤ arr.length →
          (arr.length - right') * (arr.length + 1) + (arr.length - offset') < fuel := fun r' o' hr hro => by
        have e : arr.length - right = (arr.length - r') + (r' - right) := by omega
        rw [e, Nat.add_mul] at hf
        have : (r' - right) * (arr.length + 1) ≥ 1 * (arr.length + 1) := Nat.mul_le_mul_right _ (by omega)
        omega
      rw [if_pos hlt, usizeSub_ok (by omega), bind_ok, index_ok (by omega), bind_ok, usizeSub_ok (by omega), bind_ok,
        index_ok (by omega), bind_ok]
      have fin : ∀ l r o p, l < r → r + o ≤ arr.length →
          ((arr.length - r) * (arr.length + 1) + (arr.length - o) < fuel) →
          ∃ l', (if p = known then (.ok l : Res Nat) else reverseMaximalSuffixLoop arr known ord fuel l r o p) = .ok l' ∧
            l' ≤ arr.length := fun l r o p hl hr hf' => by
        split
        · exact ⟨l, rfl, by omega⟩
        · exact reverse_maximal_suffix_loop arr known ord fuel l r o p hl hr hf'
      split
      · rw [usizeSub_ok (by omega)]
        exact fin _ _ _ _ (by omega) (by omega) (key _ _ (by omega) (by omega))
      · split
        · split
          · exact fin _ _ _ _ (by omega) (by omega) (key _ _ (by omega) (by omega))
          · exact fin _ _ _ _ (by omega) (by omega) (by omega)
        · exact fin _ _ _ _ (by omega) (by omega) (key _ _ (by omega) (by omega))
    · rw [if_neg hlt]; exact ⟨left, rfl, by omega⟩

theorem reverse_maximal_suffix (arr : List UInt8) (known : Nat) (ord : Bool) (h : arr ≠ []) :
    ∃ l, reverseMaximalSuffix arr known ord = .ok l ∧ l ≤ arr.length := by
  have hl : 1 ≤ arr.length := List.length_pos_iff.2 h
  refine reverse_maximal_suffix_loop arr known ord _ 0 1 0 1 (by omega) (by omega) ?_
  have e : (arr.length + 1) * (arr.length + 1) = (arr.length - 1) * (arr.length + 1) + 2 * (arr.length + 1) := by
    rw [← Nat.add_mul]; congr 1; omega
  omega

/-! ## The set of bytes -/

theorem byteset_foldl (b : UInt8) : ∀ (l : List UInt8) (a : Nat), (a.testBit (b.toNat % 64) = true ∨ b ∈ l) →
    (l.foldl (fun a b => (1 <<< (b.toNat % 64)) ||| a) a).testBit (b.toNat % 64) = true
  | [], a, h => by rcases h with h | h; exact h; cases h
  | x :: l, a, h => by
    refine byteset_foldl b l _ ?_
    rw [Nat.testBit_or]
    rcases h with h | h
    · left; rw [h, Bool.or_true]
    · rcases List.mem_cons.1 h with h | h
      · left; subst h; simp [Nat.testBit_shiftLeft]
      · right; exact h

theorem byteset_contains {b : UInt8} {l : List UInt8} (h : b ∈ l) : bytesetContains (bytesetCreate l) b = true := by
  have := byteset_foldl b l 0 (.inr h)
  unfold bytesetContains bytesetCreate
  simpa [Nat.testBit, Nat.and_comm, Nat.and_one_is_mod, bne] using this

/-! ## Preparing the matcher -/

/-- what the steps need to know about a prepared matcher -/
structure Ready (needle : List UInt8) (st : TwoWay) : Prop where
  crit : st.crit_pos ≤ needle.length
  critBack : st.crit_pos_back ≤ needle.length
  period : 1 ≤ st.period ∧ st.period ≤ needle.length
  bytes : ∀ b, b ∈ needle → bytesetContains st.byteset b = true

theorem slice_ok {l : List UInt8} {i j : Nat} (h : i ≤ j ∧ j ≤ l.length) : slice l i j = .ok ((l.drop i).take (j - i)) := by
  unfold slice; rw [if_pos h]

/-- with a period, the bytes of the pattern are those of its first period -/
theorem mem_of_periodic {l : List UInt8} {p : Nat} (hp : 1 ≤ p) (h : Periodic l p 0 l.length) :
    ∀ (i : Nat) (hi : i < l.length), l[i] ∈ l.take p
  | i, hi => by
    by_cases hip : i < p
    · rw [List.mem_take_iff_getElem]
      exact ⟨i, by omega, rfl⟩
    · have ih := mem_of_periodic hp h (i - p) (by omega)
      have e := h (i - p) (Nat.zero_le _) (by omega)
      have e' : i - p + p = i := by omega
      rw [e', List.getElem?_eq_getElem (by omega), List.getElem?_eq_getElem hi] at e
      rw [← Option.some.inj e]; exact ih
termination_by i => i

theorem new_ready (needle : List UInt8) (n : Nat) (h : needle ≠ []) :
    ∃ st, TwoWay.new needle n = .ok st ∧ Ready needle st ∧ st.position = 0 ∧ st.end = n ∧
      ((st.memory = none ∧ st.memory_back = none) ∨ (st.memory = some 0 ∧ st.memory_back = some needle.length)) := by
  obtain ⟨lf, pf, ef, hf1, hf2, hf3⟩ := maximal_suffix needle false h
  obtain ⟨lt, pt, et, ht1, ht2, ht3⟩ := maximal_suffix needle true h
  unfold TwoWay.new
  rw [ef, bind_ok, et, bind_ok]
  dsimp only
  have hcp : ∃ c p, (if lf > lt then lf else lt) = c ∧ (if lf > lt then pf else pt) = p ∧ 1 ≤ p ∧ c + p ≤ needle.length ∧
      Periodic needle p c needle.length := by
    by_cases hc : lf > lt
    · rw [if_pos hc, if_pos hc]; exact ⟨lf, pf, rfl, rfl, hf1, hf2, hf3⟩
    · rw [if_neg hc, if_neg hc]; exact ⟨lt, pt, rfl, rfl, ht1, ht2, ht3⟩
  obtain ⟨c, p, e1, e2, hp1, hp2, hp3⟩ := hcp
  rw [e1, e2, slice_ok (by omega), bind_ok, slice_ok (by omega), bind_ok]
  split
  · rename_i huv
    obtain ⟨rf, erf, hrf⟩ := reverse_maximal_suffix needle p false h
    obtain ⟨rt, ert, hrt⟩ := reverse_maximal_suffix needle p true h
    rw [erf, bind_ok, ert, bind_ok, usizeSub_ok (by omega), bind_ok, slice_ok (by omega), bind_ok]
    refine ⟨_, rfl, ⟨by show c ≤ _; omega, Nat.sub_le _ _, ⟨hp1, by show p ≤ _; omega⟩, ?_⟩, rfl, rfl, .inr ⟨rfl, rfl⟩⟩
    intro b hb
    refine byteset_contains ?_
    have hper : Periodic needle p 0 needle.length := by
      intro j _ hj
      by_cases hjc : j < c
      · have e3 := congrArg (fun l => l[j]?) huv
        simp only [List.getElem?_take, List.getElem?_drop] at e3
        rw [if_pos (by omega), if_pos (by omega)] at e3
        rw [Nat.zero_add] at e3
        rw [e3, Nat.add_comm]
      · exact hp3 j (by omega) hj
    obtain ⟨i, hi, rfl⟩ := List.getElem_of_mem hb
    have := mem_of_periodic hp1 hper i hi
    simpa using this
  · rename_i huv
    have hc : 1 ≤ c := by
      rcases Nat.eq_zero_or_pos c with h0 | h0
      · subst h0; exact absurd (by simp) huv
      · exact h0
    rw [usizeSub_ok (by omega), bind_ok]
    refine ⟨_, rfl, ⟨by show c ≤ _; omega, by show c ≤ _; omega, ⟨Nat.le_add_left _ _, ?_⟩, ?_⟩, rfl, rfl, .inl ⟨rfl, rfl⟩⟩
    · show max c (needle.length - c) + 1 ≤ _
      omega
    · intro b hb; exact byteset_contains hb

/-! ## Comparing -/

theorem firstMismatch_spec (haystack needle : List UInt8) (start : Nat) : ∀ l : List Nat,
    (∀ i, i ∈ l → i < needle.length ∧ start + i < haystack.length) →
    (firstMismatch haystack needle start l = .ok none ∧ ∀ i, i ∈ l → needle[i]? = haystack[start + i]?) ∨
    ∃ i, firstMismatch haystack needle start l = .ok (some i) ∧ i ∈ l ∧ needle[i]? ≠ haystack[start + i]?
  | [], _ => .inl ⟨rfl, fun _ h => by cases h⟩
  | i :: l, h => by
    have h1 := h i List.mem_cons_self
    unfold firstMismatch
    rw [index_ok h1.1, bind_ok, index_ok h1.2, bind_ok]
    by_cases he : needle[i] = haystack[start + i]
    · rw [if_neg (by simp [he])]
      rcases firstMismatch_spec haystack needle start l fun j hj => h j (List.mem_cons_of_mem _ hj) with ⟨e, hall⟩ | ⟨j, e, hj, hne⟩
      · refine .inl ⟨e, fun j hj => ?_⟩
        rcases List.mem_cons.1 hj with rfl | hj
        · rw [List.getElem?_eq_getElem h1.1, List.getElem?_eq_getElem h1.2, he]
        · exact hall j hj
      · exact .inr ⟨j, e, List.mem_cons_of_mem _ hj, hne⟩
    · rw [if_pos he]
      refine .inr ⟨i, rfl, List.mem_cons_self, ?_⟩
      rw [List.getElem?_eq_getElem h1.1, List.getElem?_eq_getElem h1.2]
      exact fun e => he (Option.some.inj e)

theorem mem_range {a b i : Nat} : i ∈ range a b ↔ a ≤ i ∧ i < b := by
  unfold range; rw [List.mem_range'_1]; omega

/-- the pattern is at this place -/
def At (haystack needle : List UInt8) (pos : Nat) : Prop := (haystack.drop pos).take needle.length = needle

theorem at_iff {haystack needle : List UInt8} {pos : Nat} :
    At haystack needle pos ↔ ∀ i, i < needle.length → haystack[pos + i]? = needle[i]? := by
  unfold At
  constructor
  · intro h i hi
    have e := congrArg (fun l => l[i]?) h
    simp only [List.getElem?_take, List.getElem?_drop, if_pos hi] at e
    exact e
  · intro h
    apply List.ext_getElem?
    intro i
    rw [List.getElem?_take, List.getElem?_drop]
    by_cases hi : i < needle.length
    · rw [if_pos hi]; exact h i hi
    · rw [if_neg hi, List.getElem?_eq_none (by omega)]

/-! ## One step forward -/

theorem next_moved (haystack needle : List UInt8) (hn : needle ≠ []) (old_end fuel : Nat) (st : TwoWay)
    (h : old_end ≠ st.position) :
    ∃ b st', TwoWay.next haystack needle old_end (fuel + 1) st = .ok (.reject old_end b, st') ∧ b ≤ haystack.length := by
  have hl : 1 ≤ needle.length := List.length_pos_iff.2 hn
  unfold TwoWay.next
  rw [usizeSub_ok hl, bind_ok]
  by_cases hlt : st.position + (needle.length - 1) < haystack.length
  · rw [List.getElem?_eq_getElem hlt]
    dsimp only
    rw [if_pos h]
    exact ⟨_, _, rfl, by omega⟩
  · rw [List.getElem?_eq_none (by omega)]
    exact ⟨_, _, rfl, Nat.le_refl _⟩

theorem not_at_end {haystack needle : List UInt8} {pos : Nat} (hn : needle ≠ []) (h : At haystack needle pos) :
    pos + needle.length ≤ haystack.length := by
  have hl : 1 ≤ needle.length := List.length_pos_iff.2 hn
  have e := at_iff.1 h (needle.length - 1) (by omega)
  rw [List.getElem?_eq_getElem (by omega : needle.length - 1 < needle.length)] at e
  have := (List.getElem?_eq_some_iff.1 e).1
  omega

/-- the state before a comparison that begins anew -/
def Fresh (needle : List UInt8) (st : TwoWay) : Prop :=
  Ready needle st ∧ (st.memory = none ∨ st.memory = some 0) ∧ (st.memory_back = none ∨ st.memory_back = some needle.length)

theorem next_fresh (haystack needle : List UInt8) (hn : needle ≠ []) (fuel : Nat) (st : TwoWay) (hst : Fresh needle st) :
    (At haystack needle st.position ∧ ∃ st', TwoWay.next haystack needle st.position (fuel + 2) st =
        .ok (.match st.position (st.position + needle.length), st') ∧ Fresh needle st' ∧
        st'.position = st.position + needle.length) ∨
    (¬ At haystack needle st.position ∧ ∃ b st', TwoWay.next haystack needle st.position (fuel + 2) st =
        .ok (.reject st.position b, st') ∧ b ≤ haystack.length) := by
  have hl : 1 ≤ needle.length := List.length_pos_iff.2 hn
  obtain ⟨hr, hmem, hback⟩ := hst
  have hmem0 : st.memory.getD 0 = 0 := by rcases hmem with h | h <;> rw [h] <;> rfl
  rw [TwoWay.next]
  rw [usizeSub_ok hl, bind_ok]
  by_cases hlt : st.position + (needle.length - 1) < haystack.length
  · rw [List.getElem?_eq_getElem hlt]
    dsimp only
    rw [if_neg (fun h => h rfl)]
    by_cases hb : bytesetContains st.byteset haystack[st.position + (needle.length - 1)] = true
    · rw [if_neg (by rw [hb]; decide), hmem0]
      rcases firstMismatch_spec haystack needle st.position (range (max st.crit_pos 0) needle.length) (fun i hi => by
        have := mem_range.1 hi; omega) with ⟨e, hall⟩ | ⟨i, e, hi, hne⟩
      · rw [e, bind_ok]
        dsimp only
        rcases firstMismatch_spec haystack needle st.position (range 0 st.crit_pos).reverse (fun i hi => by
          have := mem_range.1 (List.mem_reverse.1 hi); have := hr.crit; omega) with ⟨e', hall'⟩ | ⟨i, e', hi, hne⟩
        · rw [e', bind_ok]
          refine .inl ⟨at_iff.2 fun i hi => ?_, _, rfl, ⟨⟨hr.crit, hr.critBack, hr.period, hr.bytes⟩, ?_, hback⟩, rfl⟩
          · by_cases hc : i < st.crit_pos
            · exact (hall' i (List.mem_reverse.2 (mem_range.2 ⟨Nat.zero_le _, hc⟩))).symm
            · exact (hall i (mem_range.2 ⟨by omega, hi⟩)).symm
          · rcases hmem with h | h
            · exact .inl (by simp [h])
            · exact .inr (by simp [h])
        · rw [e', bind_ok]
          dsimp only
          have hi' := mem_range.1 (List.mem_reverse.1 hi)
          have hc := hr.crit
          refine .inr ⟨fun ha => hne (at_iff.1 ha i (by omega)).symm, ?_⟩
          have hp := hr.period
          have hm : st.position ≠ st.position + st.period := by omega
          rcases hmem with h | h
          · rw [h]
            exact next_moved haystack needle hn st.position fuel _ hm
          · rw [h]
            dsimp only
            rw [usizeSub_ok hp.2, bind_ok, bind_ok]
            exact next_moved haystack needle hn st.position fuel _ hm
      · rw [e, bind_ok]
        dsimp only
        have hi' := mem_range.1 hi
        refine .inr ⟨fun ha => hne (at_iff.1 ha i hi'.2).symm, ?_⟩
        rw [usizeSub_ok (by omega), bind_ok]
        exact next_moved haystack needle hn st.position fuel _ (by
          show st.position ≠ st.position + (i - st.crit_pos + 1); omega)
    · rw [if_pos (by simpa using hb)]
      refine .inr ⟨fun ha => hb (hr.bytes _ ?_), next_moved haystack needle hn st.position fuel _ (by
        show st.position ≠ st.position + needle.length; omega)⟩
      have e := at_iff.1 ha (needle.length - 1) (by omega)
      rw [List.getElem?_eq_getElem hlt] at e
      exact List.mem_of_getElem? e.symm
  · rw [List.getElem?_eq_none (by omega)]
    refine .inr ⟨fun ha => ?_, _, _, rfl, Nat.le_refl _⟩
    have := not_at_end hn ha
    omega

/-! ## One step back -/

theorem next_back_moved (haystack needle : List UInt8) (old_end fuel : Nat) (st : TwoWay) (h : old_end ≠ st.end)
    (he : st.end ≤ haystack.length) :
    ∃ a st', TwoWay.nextBack haystack needle old_end (fuel + 1) st = .ok (.reject a old_end, st') ∧ a ≤ haystack.length := by
  unfold TwoWay.nextBack
  split
  · exact ⟨_, _, rfl, Nat.zero_le _⟩
  · rw [if_pos h]; exact ⟨_, _, rfl, he⟩

theorem next_back_fresh (haystack needle : List UInt8) (hn : needle ≠ []) (fuel : Nat) (st : TwoWay)
    (hst : Fresh needle st) (he : st.end ≤ haystack.length) :
    (needle.length ≤ st.end ∧ At haystack needle (st.end - needle.length) ∧ ∃ st',
        TwoWay.nextBack haystack needle st.end (fuel + 2) st = .ok (.match (st.end - needle.length) st.end, st') ∧
        Fresh needle st' ∧ st'.end = st.end - needle.length) ∨
    (¬ (needle.length ≤ st.end ∧ At haystack needle (st.end - needle.length)) ∧ ∃ a st',
        TwoWay.nextBack haystack needle st.end (fuel + 2) st = .ok (.reject a st.end, st') ∧ a ≤ haystack.length) := by
  have hl : 1 ≤ needle.length := List.length_pos_iff.2 hn
  obtain ⟨hr, hmem, hback⟩ := hst
  have hcb := hr.critBack
  have hm1 : min st.crit_pos_back (st.memory_back.getD st.crit_pos_back) = st.crit_pos_back := by
    rcases hback with h | h <;> rw [h]
    · exact Nat.min_self _
    · exact Nat.min_eq_left hcb
  have hm2 : st.memory_back.getD needle.length = needle.length := by rcases hback with h | h <;> rw [h] <;> rfl
  rw [TwoWay.nextBack]
  by_cases hlt : st.end < needle.length
  · rw [if_pos hlt]
    exact .inr ⟨fun h => by omega, _, _, rfl, Nat.zero_le _⟩
  · have hlt' : st.end - needle.length < haystack.length := by omega
    rw [if_neg hlt, List.getElem?_eq_getElem hlt']
    dsimp only
    rw [if_neg (fun h => h rfl)]
    by_cases hb : bytesetContains st.byteset haystack[st.end - needle.length] = true
    · rw [if_neg (by rw [hb]; decide), hm1, hm2, usizeSub_ok (by omega), bind_ok]
      rcases firstMismatch_spec haystack needle (st.end - needle.length) (range 0 st.crit_pos_back).reverse (fun i hi => by
        have := mem_range.1 (List.mem_reverse.1 hi); omega) with ⟨e, hall⟩ | ⟨i, e, hi, hne⟩
      · rw [e, bind_ok]
        dsimp only
        rcases firstMismatch_spec haystack needle (st.end - needle.length) (range st.crit_pos_back needle.length) (fun i hi => by
          have := mem_range.1 hi; omega) with ⟨e', hall'⟩ | ⟨i, e', hi, hne⟩
        · rw [e', bind_ok]
          have e3 : st.end - needle.length + needle.length = st.end := by omega
          dsimp only
          rw [e3]
          refine .inl ⟨by omega, at_iff.2 fun i hi => ?_, _, rfl, ⟨⟨hr.crit, hr.critBack, hr.period, hr.bytes⟩, hmem, ?_⟩, rfl⟩
          · by_cases hc : i < st.crit_pos_back
            · exact (hall i (List.mem_reverse.2 (mem_range.2 ⟨Nat.zero_le _, hc⟩))).symm
            · exact (hall' i (mem_range.2 ⟨by omega, hi⟩)).symm
          · rcases hback with h | h
            · exact .inl (by simp [h])
            · exact .inr (by simp [h])
        · rw [e', bind_ok]
          dsimp only
          have hi' := mem_range.1 hi
          have hp := hr.period
          refine .inr ⟨fun ha => hne (at_iff.1 ha.2 i hi'.2).symm, ?_⟩
          rw [usizeSub_ok (by omega), bind_ok]
          exact next_back_moved haystack needle st.end fuel _ (by show st.end ≠ st.end - st.period; omega)
            (by show st.end - st.period ≤ _; omega)
      · rw [e, bind_ok]
        dsimp only
        have hi' := mem_range.1 (List.mem_reverse.1 hi)
        refine .inr ⟨fun ha => hne (at_iff.1 ha.2 i (by omega)).symm, ?_⟩
        rw [usizeSub_ok (by omega), bind_ok, usizeSub_ok (by omega), bind_ok]
        exact next_back_moved haystack needle st.end fuel _ (by show st.end ≠ st.end - (st.crit_pos_back - i); omega)
          (by show st.end - (st.crit_pos_back - i) ≤ _; omega)
    · rw [if_pos (by simpa using hb)]
      refine .inr ⟨fun ha => hb (hr.bytes _ ?_), ?_⟩
      · have e := at_iff.1 ha.2 0 (by omega)
        rw [Nat.add_zero, List.getElem?_eq_getElem hlt'] at e
        exact List.mem_of_getElem? e.symm
      · rw [usizeSub_ok (by omega), bind_ok]
        exact next_back_moved haystack needle st.end fuel _ (by show st.end ≠ st.end - needle.length; omega)
          (by show st.end - needle.length ≤ _; omega)

/-! ## Whole characters -/

theorem boundary_up (haystack : List UInt8) : ∀ (fuel b : Nat), b ≤ haystack.length → haystack.length - b < fuel →
    ∃ b', boundaryUp haystack fuel b = .ok b'
  | 0, _, _, h => absurd h (Nat.not_lt_zero _)
  | fuel + 1, b, hb, hf => by
    unfold boundaryUp
    split
    · exact ⟨_, rfl⟩
    · rename_i hn
      by_cases he : b = haystack.length
      · refine absurd ?_ hn
        unfold isCharBoundary
        split
        · rfl
        · rw [he, List.getElem?_eq_none (Nat.le_refl _)]; simp
      · exact boundary_up haystack fuel (b + 1) (by omega) (by omega)

theorem boundary_down (haystack : List UInt8) : ∀ (fuel a : Nat), a < fuel → ∃ a', boundaryDown haystack fuel a = .ok a'
  | 0, _, h => absurd h (Nat.not_lt_zero _)
  | fuel + 1, a, hf => by
    unfold boundaryDown
    split
    · exact ⟨_, rfl⟩
    · rename_i hn
      have ha : a ≠ 0 := by
        rintro rfl
        exact hn (by simp [isCharBoundary])
      rw [usizeSub_ok (by omega), bind_ok]
      exact boundary_down haystack fuel (a - 1) (by omega)

/-! ## Until the first piece that does not match -/

theorem next_reject_forward (haystack needle : List UInt8) (hn : needle ≠ []) : ∀ (fuel : Nat) (st : TwoWay),
    Fresh needle st → st.position ≤ haystack.length → haystack.length - st.position + 1 < fuel →
    ∃ r i, nextReject (stepForward haystack needle) fuel st = .ok r ∧
      rejectStart haystack.length r = i ∧ i ≤ haystack.length ∧
      ∀ g, haystack.length - st.position ≤ g → trimStartBytesLoop needle g (haystack.drop st.position) = haystack.drop i
  | 0, _, _, _, h => absurd h (Nat.not_lt_zero _)
  | fuel + 1, st, hst, hpos, hf => by
    have hl : 1 ≤ needle.length := List.length_pos_iff.2 hn
    unfold nextReject
    unfold stepForward
    by_cases he : st.position = haystack.length
    · rw [if_pos he, bind_ok]
      refine ⟨_, haystack.length, rfl, rfl, Nat.le_refl _, fun g _ => ?_⟩
      rw [he, List.drop_length]
      cases g with
      | zero => rfl
      | succ g =>
        rw [trimStartBytesLoop, if_neg]
        rintro ⟨-, h⟩
        rw [List.take_nil] at h
        exact hn h.symm
    · rw [if_neg he]
      rcases next_fresh haystack needle hn haystack.length st hst with ⟨ha, st', e, hst', hp'⟩ | ⟨ha, b, st', e, hb⟩
      · have hend := not_at_end hn ha
        rw [e, bind_ok]
        dsimp only
        rw [bind_ok]
        dsimp only
        obtain ⟨r, i, h1, h2, h3, h4⟩ := next_reject_forward haystack needle hn fuel st' hst' (by omega) (by omega)
        refine ⟨r, i, h1, h2, h3, fun g hg => ?_⟩
        cases g with
        | zero => omega
        | succ g =>
          rw [trimStartBytesLoop, if_pos ⟨hn, ha⟩, List.drop_drop, ← hp']
          exact h4 g (by omega)
      · rw [e, bind_ok]
        dsimp only
        obtain ⟨b', e'⟩ := boundary_up haystack (haystack.length + 1) b hb (by omega)
        rw [e', bind_ok, bind_ok]
        refine ⟨_, st.position, rfl, rfl, hpos, fun g _ => ?_⟩
        cases g with
        | zero => rfl
        | succ g =>
          rw [trimStartBytesLoop, if_neg]
          rintro ⟨-, h⟩
          exact ha h

theorem next_reject_back (haystack needle : List UInt8) (hn : needle ≠ []) : ∀ (fuel : Nat) (st : TwoWay),
    Fresh needle st → st.end ≤ haystack.length → st.end + 1 < fuel →
    ∃ r j, nextReject (stepBack haystack needle) fuel st = .ok r ∧
      rejectEnd r = j ∧ j ≤ haystack.length ∧
      ∀ g, st.end ≤ g → trimEndBytesLoop needle g (haystack.take st.end) = haystack.take j
  | 0, _, _, _, h => absurd h (Nat.not_lt_zero _)
  | fuel + 1, st, hst, hpos, hf => by
    have hl : 1 ≤ needle.length := List.length_pos_iff.2 hn
    unfold nextReject
    unfold stepBack
    by_cases he : st.end = 0
    · rw [if_pos he, bind_ok]
      refine ⟨_, 0, rfl, rfl, Nat.zero_le _, fun g _ => ?_⟩
      rw [he, List.take_zero]
      cases g with
      | zero => rfl
      | succ g =>
        rw [trimEndBytesLoop, if_neg]
        rintro ⟨-, h, -⟩
        rw [List.length_nil] at h
        omega
    · rw [if_neg he]
      have htl : (haystack.take st.end).length = st.end := by rw [List.length_take]; omega
      have hcond : (needle.length ≤ st.end ∧ At haystack needle (st.end - needle.length)) ↔
          (needle ≠ [] ∧ needle.length ≤ (haystack.take st.end).length ∧
            (haystack.take st.end).drop ((haystack.take st.end).length - needle.length) = needle) := by
        rw [htl]
        refine ⟨fun h => ⟨hn, h.1, ?_⟩, fun h => ⟨h.2.1, ?_⟩⟩
        · rw [List.drop_take]
          have e : st.end - (st.end - needle.length) = needle.length := by omega
          rw [e]; exact h.2
        · have h2 := h.2.2
          rw [List.drop_take] at h2
          have e : st.end - (st.end - needle.length) = needle.length := by omega
          rw [e] at h2; exact h2
      rcases next_back_fresh haystack needle hn haystack.length st hst hpos with ⟨hle, ha, st', e, hst', hp'⟩ | ⟨ha, b, st', e, hb⟩
      · rw [e, bind_ok]
        dsimp only
        rw [bind_ok]
        dsimp only
        obtain ⟨r, i, h1, h2, h3, h4⟩ := next_reject_back haystack needle hn fuel st' hst' (by omega) (by omega)
        refine ⟨r, i, h1, h2, h3, fun g hg => ?_⟩
        cases g with
        | zero => omega
        | succ g =>
          rw [trimEndBytesLoop, if_pos (hcond.1 ⟨hle, ha⟩), htl, List.take_take, Nat.min_eq_left (by omega), ← hp']
          exact h4 g (by omega)
      · rw [e, bind_ok]
        dsimp only
        obtain ⟨b', e'⟩ := boundary_down haystack (haystack.length + 1) b (by omega)
        rw [e', bind_ok, bind_ok]
        refine ⟨_, st.end, rfl, rfl, hpos, fun g _ => ?_⟩
        cases g with
        | zero => rfl
        | succ g =>
          rw [trimEndBytesLoop, if_neg]
          exact fun h => ha (hcond.2 h)

end WanaKana.StrSearcher
