import Verif.Props.Tokenize
/-! # C68: exactly when compact tokens combine detailed tokens -/

namespace WanaKana
open Spec

section
variable {κ κ' : Type} [DecidableEq κ] [DecidableEq κ'] (ty : Char → κ) (ty' : Char → κ')

theorem adjacentDiffer_mid {κ : Type} {t u : κ × Str} {L2 : List (κ × Str)} : ∀ {L1 : List (κ × Str)},
    AdjacentDiffer (L1 ++ t :: u :: L2) → t.1 ≠ u.1
  | [], h => h.1
  | _ :: _, h => adjacentDiffer_mid (adjacentDiffer_tail h)

/-- a boundary of the coarse grouping -/
theorem group_by_cut {a b : Str} {c d : Char} (h : ty' c ≠ ty' d) :
    group_by ty' (a ++ c :: d :: b) = group_by ty' (a ++ [c]) ++ group_by ty' (d :: b) := by
  have := group_by_append_cons ty' (a ++ [c]) d b (by
    intro x hx
    have : c = x := by simpa using hx
    subst this
    exact h)
  simpa using this

/-- Grouping by `ty'` combines groups of `ty` exactly if neighbours with equal `ty` have equal `ty'`. -/
theorem group_by_combines (s : Str) :
    (∃ LL : List (List Str), LL.flatten = (group_by ty s).map (fun t => t.2) ∧ (∀ L ∈ LL, L ≠ []) ∧
      LL.map List.flatten = (group_by ty' s).map fun t => t.2) ↔
    ∀ c d, [c, d] <:+: s → ty c = ty d → ty' c = ty' d := by
  constructor
  · rintro ⟨LL, h1, h2, h3⟩ c d ⟨a, b, hs⟩ e
    apply Classical.byContradiction
    intro hne
    have hs : s = a ++ c :: d :: b := by rw [← hs]; simp
    have hT := group_by_isTokenization ty s
    rw [hs, group_by_cut ty' hne, List.map_append] at h3
    obtain ⟨LL1, LL2, rfl, h4, h5⟩ := List.map_eq_append_iff.1 h3
    rw [List.flatten_append] at h1
    obtain ⟨L1, L2, hL, h6, h7⟩ := List.map_eq_append_iff.1 h1.symm
    rw [hL] at hT
    have f1 : (L1.map fun t => t.2).flatten = a ++ [c] := by
      rw [h6, List.flatten_flatten, h4]
      exact (group_by_isTokenization ty' _).concat
    have f2 : (L2.map fun t => t.2).flatten = d :: b := by
      rw [h7, List.flatten_flatten, h5]
      exact (group_by_isTokenization ty' _).concat
    rcases List.eq_nil_or_concat L1 with rfl | ⟨L1', t, rfl⟩
    · simp at f1
    · cases L2 with
      | nil => simp at f2
      | cons u L2 =>
        rw [List.concat_eq_append, List.append_assoc, List.singleton_append] at hT
        rw [List.concat_eq_append] at f1
        have hd := adjacentDiffer_mid hT.maximal
        have ht : c ∈ t.2 := by
          have n1 := hT.nonempty t (by simp)
          rcases List.eq_nil_or_concat t.2 with h0 | ⟨g, x, h0⟩
          · exact absurd h0 n1
          · rw [List.map_append, List.flatten_append] at f1
            simp only [List.map_cons, List.map_nil, List.flatten_cons, List.flatten_nil, List.append_nil, h0,
              List.concat_eq_append] at f1
            rw [← List.append_assoc] at f1
            have := (List.append_inj_right' f1 rfl)
            simp at this
            rw [h0, this]; simp
        have hu : d ∈ u.2 := by
          have n1 := hT.nonempty u (by simp)
          cases h0 : u.2 with
          | nil => exact absurd h0 n1
          | cons x g =>
            simp [h0] at f2
            rw [f2.1]; simp
        apply hd
        rw [← hT.typed t (by simp) c ht, ← hT.typed u (by simp) d hu, e]
  · intro h
    suffices H : ∃ LL : List (List (κ × Str)), LL.flatten = group_by ty s ∧ (∀ L ∈ LL, L ≠ []) ∧
        LL.map (fun L => (L.map fun t => t.2).flatten) = (group_by ty' s).map fun t => t.2 by
      obtain ⟨LL, h1, h2, h3⟩ := H
      refine ⟨LL.map fun L => L.map fun t => t.2, ?_, ?_, ?_⟩
      · rw [← List.map_flatten, h1]
      · intro L hL
        obtain ⟨L', hL', rfl⟩ := List.mem_map.1 hL
        simp [h2 L' hL']
      · rw [List.map_map]; exact h3
    induction s with
    | nil => exact ⟨[], rfl, by simp, rfl⟩
    | cons c s ih =>
      obtain ⟨LL, h1, h2, h3⟩ := ih fun x y hi => h x y (hi.trans (List.suffix_cons _ _).isInfix)
      cases s with
      | nil => exact ⟨[[(ty c, [c])]], rfl, by simp, rfl⟩
      | cons d s =>
        have hcd := h c d ⟨[], s, rfl⟩
        rw [group_by_cons ty c, group_by_cons ty' c]
        obtain ⟨g, rest, hg⟩ := group_by_head ty (c := d) (s := s)
        obtain ⟨g', rest', hg'⟩ := group_by_head ty' (c := d) (s := s)
        rw [hg] at h1 ⊢
        rw [hg'] at h3 ⊢
        cases LL with
        | nil => cases h1
        | cons L0 LL =>
          have hL0 := h2 L0 List.mem_cons_self
          cases L0 with
          | nil => exact absurd rfl hL0
          | cons u L0 =>
            simp only [List.flatten_cons, List.cons_append, List.cons.injEq] at h1
            obtain ⟨rfl, h1⟩ := h1
            simp only [List.map_cons, List.flatten_cons, List.cons.injEq] at h3
            have hLL : ∀ L ∈ LL, L ≠ [] := fun L hL => h2 L (List.mem_cons_of_mem _ hL)
            have nonempty : ∀ (t : κ × Str) (l : List (κ × Str)), ∀ L ∈ (t :: l) :: LL, L ≠ [] := by
              intro t l L hL
              rcases List.mem_cons.1 hL with rfl | hL
              · simp
              · exact hLL L hL
            simp only [consToken]
            by_cases e : ty c = ty d
            · rw [if_pos e, if_pos (hcd e)]
              refine ⟨((ty d, c :: g) :: L0) :: LL, by simp [h1], nonempty _ _, ?_⟩
              simp [h3.2, ← h3.1]
            · rw [if_neg e]
              by_cases e' : ty' c = ty' d
              · rw [if_pos e']
                refine ⟨((ty c, [c]) :: (ty d, g) :: L0) :: LL, by simp [h1], nonempty _ _, ?_⟩
                simp [h3.2, ← h3.1]
              · rw [if_neg e']
                refine ⟨[(ty c, [c])] :: ((ty d, g) :: L0) :: LL, by simp [h1], ?_, ?_⟩
                · intro L hL
                  rcases List.mem_cons.1 hL with rfl | hL
                  · simp
                  · exact nonempty _ _ L hL
                · simp [h3.2, ← h3.1]

end

/-- neighbours of one detailed type and different compact types: the two kinds of space -/
theorem same_detailed {c d : Char} (e : get_type c false = get_type d false) (h : get_type c true ≠ get_type d true) :
    (c = ' ' ∧ d = '　') ∨ (c = '　' ∧ d = ' ') := by
  have sp : ∀ x, get_type x false = .Space → x = ' ' ∨ x = '　' := fun x hx => (C47_detailed x .Space).1 hx
  by_cases hc : c = '　'
  · subst hc
    rcases sp d e.symm with rfl | rfl
    · exact Or.inr ⟨rfl, rfl⟩
    · exact absurd rfl h
  · by_cases hd : d = '　'
    · subst hd
      rcases sp c e with rfl | rfl
      · exact Or.inl ⟨rfl, rfl⟩
      · exact absurd rfl h
    · exact absurd (by rw [coarse_eq c hc, coarse_eq d hd, e]) h

/-- **C68** every compact token is a concatenation of consecutive detailed tokens exactly if no ASCII space stands
directly next to an ideographic space. -/
theorem C68_combines_iff (s : Str) :
    (∃ LL : List (List Str), LL.flatten = tokenize s ∧ (∀ L ∈ LL, L ≠ []) ∧
      LL.map List.flatten = tokenize_with_opt s true) ↔ ¬ [' ', '　'] <:+: s ∧ ¬ ['　', ' '] <:+: s := by
  rw [show tokenize s = (group_by (fun c => get_type c false) s).map (fun t => t.2) from rfl,
    show tokenize_with_opt s true = (group_by (fun c => get_type c true) s).map (fun t => t.2) from rfl,
    group_by_combines]
  constructor
  · intro h
    exact ⟨fun hi => absurd (h _ _ hi (by decide)) (by decide), fun hi => absurd (h _ _ hi (by decide)) (by decide)⟩
  · rintro ⟨h1, h2⟩ c d hi e
    apply Classical.byContradiction
    intro hne
    rcases same_detailed e hne with ⟨rfl, rfl⟩ | ⟨rfl, rfl⟩
    · exact h1 hi
    · exact h2 hi

/-- **C68** in that case there are at most as many compact tokens as detailed ones. -/
theorem C68_fewer (s : Str) (h : ¬ [' ', '　'] <:+: s ∧ ¬ ['　', ' '] <:+: s) :
    (tokenize_with_opt s true).length ≤ (tokenize s).length := by
  obtain ⟨LL, h1, h2, h3⟩ := (C68_combines_iff s).2 h
  rw [← h1, ← h3, List.length_map]
  clear h1 h3 h
  induction LL with
  | nil => simp
  | cons L LL ih =>
    have hL : 0 < L.length := List.length_pos_iff.2 (h2 L List.mem_cons_self)
    have := ih fun L hL => h2 L (List.mem_cons_of_mem _ hL)
    simp only [List.length_cons, List.flatten_cons, List.length_append]
    omega

/-- **C68** tokenizing a token, or several whole tokens, gives these tokens back. -/
theorem C68_retokenize (s : Str) (compact : Bool) (L1 L L2 : List Str) (h : tokenize_with_opt s compact = L1 ++ L ++ L2) :
    tokenize_with_opt L.flatten compact = L := by
  have hT := group_by_isTokenization (fun c => get_type c compact) s
  obtain ⟨K, K2, hK, h1, h2⟩ := List.map_eq_append_iff.1 (show (group_by (fun c => get_type c compact) s).map (fun t => t.2) = _ from h)
  obtain ⟨K1, K', rfl, h3, h4⟩ := List.map_eq_append_iff.1 h1
  rw [hK] at hT
  have hI : IsTokenization (fun c => get_type c compact) L.flatten K' := by
    refine ⟨by rw [← h4], fun t ht => hT.nonempty t (by simp [ht]), fun t ht => hT.typed t (by simp [ht]), ?_⟩
    have hm := hT.maximal
    clear hT hK h1 h2 h3 h4 h
    have drop : ∀ K1 : List (TokenType × Str), ∀ K, AdjacentDiffer (K1 ++ K) → AdjacentDiffer K := by
      intro K1
      induction K1 with
      | nil => intro K h; exact h
      | cons a K1 ih => intro K h; exact ih K (adjacentDiffer_tail h)
    have take : ∀ K : List (TokenType × Str), ∀ K2, AdjacentDiffer (K ++ K2) → AdjacentDiffer K := by
      intro K
      induction K with
      | nil => intro _ _; trivial
      | cons a K ih =>
        intro K2 h
        cases K with
        | nil => trivial
        | cons b K => exact ⟨h.1, ih K2 h.2⟩
    rw [List.append_assoc] at hm
    exact take _ _ (drop _ _ hm)
  have := isTokenization_unique _ hI
  show (group_by (fun c => get_type c compact) L.flatten).map (fun t => t.2) = L
  rw [← this, h4]

example : ¬ [' ', '　'] <:+: ['a', ' ', 'b', '　', '漢'] ∧ ¬ ['　', ' '] <:+: ['a', ' ', 'b', '　', '漢'] ∧
    tokenize ['a', ' ', 'b', '　', '漢'] = [['a'], [' '], ['b'], ['　'], ['漢']] ∧
    tokenize_with_opt ['a', ' ', 'b', '　', '漢'] true = [['a', ' ', 'b'], ['　', '漢']] := by decide

end WanaKana
