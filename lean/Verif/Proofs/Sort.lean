import Verif.Model.KanaNode
import Verif.Model.RomajiNode
/-! # `sort_by_key`: the model is the sorted stable permutation -/

namespace WanaKana

variable {β : Type}

/-- the elements with key `c`, in order -/
abbrev withKey (c : Char) (l : List (Char × β)) : List (Char × β) := l.filter fun t => t.1 == c

theorem insertByKey_perm (x : Char × β) (l : List (Char × β)) : (insertByKey x l).Perm (x :: l) := by
  induction l with
  | nil => exact .refl _
  | cons y ys ih =>
    simp only [insertByKey]
    split
    · exact .refl _
    · exact (ih.cons y).trans (.swap x y ys)

theorem sortByKey_perm (l : List (Char × β)) : (sortByKey l).Perm l := by
  induction l with
  | nil => exact .refl _
  | cons x xs ih => exact (insertByKey_perm x _).trans (ih.cons x)

theorem sortedKeys_insert (x : Char × β) {l : List (Char × β)}
    (h : SortedKeys (l.map fun t => t.1)) : SortedKeys ((insertByKey x l).map fun t => t.1) := by
  induction l with
  | nil => exact ⟨by simp, trivial⟩
  | cons y ys ih =>
    simp only [insertByKey]
    split
    · rename_i hle
      refine ⟨?_, h⟩
      intro z hz
      rcases List.mem_cons.1 hz with e | hz
      · rw [e]; exact hle
      · exact Nat.le_trans hle (h.1 z hz)
    · rename_i hle
      refine ⟨?_, ih h.2⟩
      intro z hz
      obtain ⟨t, ht, rfl⟩ := List.mem_map.1 hz
      rcases List.mem_cons.1 ((insertByKey_perm x ys).mem_iff.1 ht) with e | ht
      · rw [e]; show y.1.toNat ≤ x.1.toNat; omega
      · exact h.1 _ (List.mem_map.2 ⟨t, ht, rfl⟩)

theorem sortedKeys_sort (l : List (Char × β)) : SortedKeys ((sortByKey l).map fun t => t.1) := by
  induction l with
  | nil => trivial
  | cons x xs ih => exact sortedKeys_insert x ih

theorem withKey_insert (c : Char) (x : Char × β) (l : List (Char × β)) :
    withKey c (insertByKey x l) = withKey c (x :: l) := by
  induction l with
  | nil => rfl
  | cons y ys ih =>
    simp only [insertByKey]
    split
    · rfl
    · rename_i hle
      simp only [withKey] at ih ⊢
      rw [List.filter_cons, ih]
      by_cases hx : (x.1 == c) = true
      · by_cases hy : (y.1 == c) = true
        · exact absurd (by rw [eq_of_beq hx, eq_of_beq hy]; exact Nat.le_refl _) hle
        · simp [hx, hy]
      · simp [List.filter_cons, hx]

theorem withKey_sort (c : Char) (l : List (Char × β)) : withKey c (sortByKey l) = withKey c l := by
  induction l with
  | nil => rfl
  | cons x xs ih =>
    rw [sortByKey, withKey_insert]
    simp only [withKey] at ih ⊢
    rw [List.filter_cons, List.filter_cons, ih]

/-- a sorted list is left alone -/
theorem sortByKey_of_sorted {l : List (Char × β)} (h : SortedKeys (l.map fun t => t.1)) :
    sortByKey l = l := by
  induction l with
  | nil => rfl
  | cons x xs ih =>
    rw [sortByKey, ih h.2]
    cases xs with
    | nil => rfl
    | cons y ys =>
      rw [insertByKey, if_pos (h.1 y.1 (by simp))]

theorem char_le_antisymm {a b : Char} (h : a.toNat ≤ b.toNat) (h' : b.toNat ≤ a.toNat) : a = b :=
  Char.ext (UInt32.toNat_inj.1 (Nat.le_antisymm h h'))

/-- a sorted list is determined by its elements of every key, in order -/
theorem eq_of_withKey {l l' : List (Char × β)} (h : SortedKeys (l.map fun t => t.1))
    (h' : SortedKeys (l'.map fun t => t.1)) (hk : ∀ c, withKey c l = withKey c l') : l = l' := by
  induction l generalizing l' with
  | nil =>
    cases l' with
    | nil => rfl
    | cons y ys => have := hk y.1; simp [withKey] at this
  | cons x xs ih =>
    cases l' with
    | nil => have := hk x.1; simp [withKey] at this
    | cons y ys =>
      have hx : x ∈ withKey x.1 (y :: ys) := by rw [← hk]; simp [withKey]
      have hy : y ∈ withKey y.1 (x :: xs) := by rw [hk]; simp [withKey]
      have hxy : x.1 = y.1 := by
        apply char_le_antisymm
        · rcases List.mem_cons.1 (List.mem_filter.1 hy).1 with e | e
          · rw [e]; exact Nat.le_refl _
          · exact h.1 _ (List.mem_map.2 ⟨y, e, rfl⟩)
        · rcases List.mem_cons.1 (List.mem_filter.1 hx).1 with e | e
          · rw [e]; exact Nat.le_refl _
          · exact h'.1 _ (List.mem_map.2 ⟨x, e, rfl⟩)
      have hh := hk x.1
      simp only [withKey, List.filter_cons, beq_self_eq_true, if_true, ← hxy, List.cons.injEq] at hh
      obtain ⟨e, hh⟩ := hh
      subst e
      congr 1
      apply ih h.2 h'.2
      intro c
      have := hk c
      simp only [withKey, List.filter_cons] at this
      split at this
      · exact (List.cons.inj this).2
      · exact this

theorem find_eq_head_filter {α : Type} (p : α → Bool) (l : List α) : l.find? p = (l.filter p).head? := by
  rw [List.head?_filter]

/-- stable: the first match is the same -/
theorem find_sortByKey (c : Char) (l : List (Char × β)) :
    (sortByKey l).find? (fun t => t.1 == c) = l.find? fun t => t.1 == c := by
  rw [find_eq_head_filter, find_eq_head_filter]
  exact congrArg _ (withKey_sort c l)

end WanaKana
