import Verif.Model.Tokenize
import Verif.Spec.Tokens
import Mathlib.Data.List.Forall2
/-! # `group_by` computes the unique tokenization -/

namespace WanaKana
open Spec

section
variable {κ : Type} [DecidableEq κ] (ty : Char → κ)

/-- right-to-left description of grouping -/
def consToken (c : Char) : List (κ × Str) → List (κ × Str)
  | [] => [(ty c, [c])]
  | (k, g) :: rest => if ty c = k then (k, c :: g) :: rest else (ty c, [c]) :: (k, g) :: rest

theorem groupLoop_append (s : Str) : ∀ (k : κ) (g h : Str),
    groupLoop ty k (g ++ h) s = match groupLoop ty k h s with
      | [] => []
      | (k', g') :: rest => (k', g ++ g') :: rest := by
  induction s with
  | nil => intro k g h; simp [groupLoop]
  | cons c cs ih =>
    intro k g h
    simp only [groupLoop]
    split
    · rw [List.append_assoc, ih k g (h ++ [c])]
    · simp

theorem groupLoop_head (s : Str) : ∀ (k : κ) (g : Str), ∃ g' rest,
    groupLoop ty k g s = (k, g') :: rest := by
  induction s with
  | nil => intro k g; exact ⟨g, [], rfl⟩
  | cons c cs ih =>
    intro k g
    simp only [groupLoop]
    split
    · exact ih k _
    · exact ⟨g, _, rfl⟩

theorem group_by_cons (c : Char) (s : Str) : group_by ty (c :: s) = consToken ty c (group_by ty s) := by
  cases s with
  | nil => rfl
  | cons d ds =>
    obtain ⟨g', rest, h⟩ := groupLoop_head ty ds (ty d) [d]
    simp only [group_by, h, consToken, groupLoop]
    by_cases hk : ty d = ty c
    · rw [if_pos hk, if_pos hk.symm]
      have := groupLoop_append ty ds (ty c) [c] [d]
      rw [hk] at h
      simp only [h] at this
      rw [this, hk]; rfl
    · rw [if_neg hk, if_neg (Ne.symm hk)]

theorem group_by_nil : group_by ty [] = [] := rfl

theorem consToken_ne_nil (c : Char) (L : List (κ × Str)) : consToken ty c L ≠ [] := by
  cases L with
  | nil => simp [consToken]
  | cons a r => simp only [consToken]; split <;> simp

omit [DecidableEq κ] in
theorem adjacentDiffer_tail {a : κ × Str} {L : List (κ × Str)} (h : AdjacentDiffer (a :: L)) :
    AdjacentDiffer L := by
  cases L with
  | nil => trivial
  | cons b r => exact h.2

/-- consing onto a tokenization -/
theorem isTokenization_cons {s : Str} {L : List (κ × Str)} (c : Char)
    (h : IsTokenization ty s L) : IsTokenization ty (c :: s) (consToken ty c L) := by
  cases L with
  | nil =>
    have := h.concat
    simp only [List.map_nil, List.flatten_nil] at this
    subst this
    exact ⟨rfl, by simp [consToken], by simp [consToken], trivial⟩
  | cons a r =>
    obtain ⟨k, g⟩ := a
    obtain ⟨h1, h2, h3, h4⟩ := h
    simp only [List.map_cons, List.flatten_cons] at h1
    simp only [consToken]
    split
    · next hk =>
      refine ⟨by simp [h1], ?_, ?_, ?_⟩
      · intro t ht
        rcases List.mem_cons.1 ht with rfl | ht
        · simp
        · exact h2 t (List.mem_cons_of_mem _ ht)
      · intro t ht
        rcases List.mem_cons.1 ht with rfl | ht
        · intro d hd
          rcases List.mem_cons.1 hd with rfl | hd
          · exact hk
          · exact h3 (k, g) List.mem_cons_self d hd
        · exact h3 t (List.mem_cons_of_mem _ ht)
      · cases r with
        | nil => trivial
        | cons b r => exact h4
    · next hk =>
      refine ⟨by simp [h1], ?_, ?_, ⟨hk, h4⟩⟩
      · intro t ht
        rcases List.mem_cons.1 ht with rfl | ht
        · simp
        · exact h2 t ht
      · intro t ht
        rcases List.mem_cons.1 ht with rfl | ht
        · simp
        · exact h3 t ht

theorem group_by_isTokenization (s : Str) : IsTokenization ty s (group_by ty s) := by
  induction s with
  | nil => exact ⟨rfl, by simp [group_by], by simp [group_by], trivial⟩
  | cons c s ih => rw [group_by_cons]; exact isTokenization_cons ty c ih

/-- A tokenization of `c :: s` is `consToken c` of one of `s`. -/
theorem isTokenization_uncons {c : Char} {s : Str} {L : List (κ × Str)}
    (h : IsTokenization ty (c :: s) L) :
    ∃ L', IsTokenization ty s L' ∧ L = consToken ty c L' := by
  cases L with
  | nil => have := h.concat; simp at this
  | cons a r =>
    obtain ⟨k, g⟩ := a
    obtain ⟨h1, h2, h3, h4⟩ := h
    cases g with
    | nil => exact absurd rfl (h2 (k, []) List.mem_cons_self)
    | cons d g =>
      simp only [List.map_cons, List.flatten_cons, List.cons_append, List.cons.injEq] at h1
      obtain ⟨rfl, h1⟩ := h1
      have hk : ty d = k := h3 (k, d :: g) List.mem_cons_self d List.mem_cons_self
      have hr2 : ∀ t ∈ r, t.2 ≠ [] := fun t ht => h2 t (List.mem_cons_of_mem _ ht)
      have hr3 : ∀ t ∈ r, ∀ c ∈ t.2, ty c = t.1 := fun t ht => h3 t (List.mem_cons_of_mem _ ht)
      cases g with
      | nil =>
        refine ⟨r, ⟨by simpa using h1, hr2, hr3, adjacentDiffer_tail h4⟩, ?_⟩
        cases r with
        | nil => simp [consToken, hk]
        | cons b r =>
          obtain ⟨k', g'⟩ := b
          have : k ≠ k' := h4.1
          simp [consToken, hk, this]
      | cons e g =>
        refine ⟨(k, e :: g) :: r, ⟨by simpa using h1, ?_, ?_, ?_⟩, ?_⟩
        · intro t ht
          rcases List.mem_cons.1 ht with rfl | ht
          · simp
          · exact hr2 t ht
        · intro t ht
          rcases List.mem_cons.1 ht with rfl | ht
          · intro x hx
            exact h3 (k, d :: e :: g) List.mem_cons_self x (List.mem_cons_of_mem _ hx)
          · exact hr3 t ht
        · cases r with
          | nil => trivial
          | cons b r => exact h4
        · simp [consToken, hk]

theorem isTokenization_unique {s : Str} : ∀ {L : List (κ × Str)}, IsTokenization ty s L →
    L = group_by ty s := by
  induction s with
  | nil =>
    intro L h
    cases L with
    | nil => rfl
    | cons a r =>
      have h1 := h.concat
      have h2 := h.nonempty a List.mem_cons_self
      simp only [List.map_cons, List.flatten_cons, List.append_eq_nil_iff] at h1
      exact absurd h1.1 h2
  | cons c s ih =>
    intro L h
    obtain ⟨L', h', rfl⟩ := isTokenization_uncons ty h
    rw [group_by_cons, ih h']

theorem group_by_head {c : Char} {s : Str} : ∃ g rest, group_by ty (c :: s) = (ty c, g) :: rest :=
  groupLoop_head ty s (ty c) [c]

theorem group_by_append_cons (a : Str) (d : Char) (ds : Str) :
    (∀ c, a.getLast? = some c → ty c ≠ ty d) →
    group_by ty (a ++ d :: ds) = group_by ty a ++ group_by ty (d :: ds) := by
  induction a with
  | nil => intro _; rfl
  | cons x xs ih =>
    intro h
    cases xs with
    | nil =>
      have hx := h x rfl
      obtain ⟨g, r, hg⟩ := group_by_head ty (c := d) (s := ds)
      rw [List.singleton_append, group_by_cons, hg]
      simp [consToken, hx, group_by, groupLoop]
    | cons y ys =>
      have ih' := ih (by intro c hc; exact h c (by simpa using hc))
      rw [List.cons_append, group_by_cons, ih', group_by_cons ty x]
      obtain ⟨g, r, hg⟩ := group_by_head ty (c := y) (s := ys)
      rw [hg]
      simp only [List.cons_append, consToken]
      split <;> simp

/-- coarsening -/
theorem group_by_coarse {κ' : Type} [DecidableEq κ'] (ty' : Char → κ') (h : κ → κ') (s : Str)
    (hs : ∀ c ∈ s, ty' c = h (ty c)) :
    ∃ LL : List (List (κ × Str)), LL.flatten = group_by ty s ∧ (∀ L ∈ LL, L ≠ []) ∧
      (∀ L ∈ LL, ∀ t ∈ L, ∀ u ∈ L, h t.1 = h u.1) ∧
      LL.map (fun L => (L.map fun t => t.2).flatten) = (group_by ty' s).map fun t => t.2 := by
  suffices H : ∃ LL : List (List (κ × Str)), LL.flatten = group_by ty s ∧ (∀ L ∈ LL, L ≠ []) ∧
      (LL.map (fun L => (L.map fun t => t.2).flatten) = (group_by ty' s).map fun t => t.2) ∧
      List.Forall₂ (fun (L : List (κ × Str)) (t : κ' × Str) => ∀ u ∈ L, h u.1 = t.1) LL
        (group_by ty' s) by
    obtain ⟨LL, h1, h2, h3, h4⟩ := H
    refine ⟨LL, h1, h2, ?_, h3⟩
    intro L hL t ht u hu
    clear h1 h2 h3
    generalize group_by ty' s = R at h4
    induction h4 with
    | nil => cases hL
    | cons hh _ ih =>
      rcases List.mem_cons.1 hL with rfl | hL
      · rw [hh t ht, hh u hu]
      · exact ih hL
  induction s with
  | nil => exact ⟨[], rfl, by simp, rfl, List.Forall₂.nil⟩
  | cons c s ih =>
    obtain ⟨LL, h1, h2, h3, h4⟩ := ih fun c hc => hs c (List.mem_cons_of_mem _ hc)
    have hc := hs c List.mem_cons_self
    rw [group_by_cons, group_by_cons]
    generalize group_by ty' s = R' at h3 h4 ⊢
    cases h4 with
    | nil =>
      have : group_by ty s = [] := by rw [← h1]; rfl
      rw [this]
      refine ⟨[[(ty c, [c])]], by simp [consToken], by simp, ?_, ?_⟩
      · simp [consToken]
      · simp [consToken, hc]
    | @cons L0 t0 LLt R hh ht =>
      obtain ⟨k', g'⟩ := t0
      have hL0 := h2 L0 List.mem_cons_self
      cases L0 with
      | nil => exact absurd rfl hL0
      | cons u0 L0 =>
        obtain ⟨k, g⟩ := u0
        have hk : h k = k' := hh (k, g) List.mem_cons_self
        simp only [List.map_cons, List.flatten_cons, List.cons.injEq] at h3
        obtain ⟨h3a, h3b⟩ := h3
        rw [← h1]
        simp only [List.flatten_cons, List.cons_append, consToken]
        have h2t : ∀ L ∈ LLt, L ≠ [] := fun L hL => h2 L (List.mem_cons_of_mem _ hL)
        have hht : ∀ u ∈ L0, h u.1 = k' := fun u hu => hh u (List.mem_cons_of_mem _ hu)
        by_cases e : ty c = k
        · -- same detailed token
          have e' : ty' c = k' := by rw [hc, e, hk]
          rw [if_pos e, if_pos e']
          refine ⟨((k, c :: g) :: L0) :: LLt, by simp, ?_, ?_, ?_⟩
          · intro L hL
            rcases List.mem_cons.1 hL with rfl | hL
            · simp
            · exact h2t L hL
          · simp [h3b, ← h3a]
          · refine List.Forall₂.cons ?_ ht
            intro u hu
            rcases List.mem_cons.1 hu with rfl | hu
            · exact hk
            · exact hht u hu
        · rw [if_neg e]
          by_cases e' : ty' c = k'
          · rw [if_pos e']
            refine ⟨((ty c, [c]) :: (k, g) :: L0) :: LLt, by simp, ?_, ?_, ?_⟩
            · intro L hL
              rcases List.mem_cons.1 hL with rfl | hL
              · simp
              · exact h2t L hL
            · simp [h3b, ← h3a]
            · refine List.Forall₂.cons ?_ ht
              intro u hu
              rcases List.mem_cons.1 hu with rfl | hu
              · rw [← hc, e']
              · exact hh u hu
          · rw [if_neg e']
            refine ⟨[(ty c, [c])] :: ((k, g) :: L0) :: LLt, by simp, ?_, ?_, ?_⟩
            · intro L hL
              rcases List.mem_cons.1 hL with rfl | hL
              · simp
              · exact h2 L hL
            · simp [h3b, ← h3a]
            · refine List.Forall₂.cons ?_ (List.Forall₂.cons hh ht)
              intro u hu
              simp only [List.mem_singleton] at hu
              subst hu
              exact hc.symm

end
end WanaKana
