import Verif.Spec.Upstream
import Verif.Proofs.Sort
import Verif.Proofs.KanaTrie
import Verif.Proofs.RomajiTrie
/-! # Generated trees -/

namespace WanaKana
namespace Upstream
open Spec (singleKey field entry walk lookup singleKeys singleKeysIn ascending mapped mappedIn isKanaTable
  isKanaTableIn isRomajiTable isRomajiTableIn)

theorem mapGet_eq (m : List (Str × Json)) (k : Str) : mapGet m k = m.lookup k := by
  induction m with
  | nil => rfl
  | cons e m ih =>
    obtain ⟨k', v⟩ := e
    simp only [mapGet, List.find?_cons, List.lookup_cons] at ih ⊢
    by_cases h : k' = k
    · subst h; simp
    · have h1 : (k' == k) = false := by simpa using h
      have h2 : (k == k') = false := by simpa using fun e => h e.symm
      rw [h1, h2]; exact ih

/-- outputs of the kana generator -/
theorem kanaOutput_eq (v : Json) : kanaOutput v =
    match v with
    | .obj _ => if (field v []).isNone || (entry v).isSome then .ok (entry v) else .error .panic
    | _ => .error .panic := by
  cases v with
  | obj m =>
    obtain ⟨x, hm⟩ : ∃ x, m.lookup [] = x := ⟨_, rfl⟩
    rcases x with _ | w
    · simp [kanaOutput, Json.as_object, unwrap, mapGet_eq, entry, field, bind, Except.bind, hm]
    · cases w <;> simp [kanaOutput, Json.as_object, unwrap, mapGet_eq, entry, field, bind, Except.bind,
        Json.as_str, hm]
  | str s => rfl
  | other => rfl

theorem romajiOutput_eq (v : Json) : romajiOutput v =
    match entry v with
    | some o => .ok o
    | none => .error .panic := by
  cases v with
  | obj m =>
    simp only [romajiOutput, Json.as_object, unwrap, mapGet_eq, entry, field]
    cases hm : m.lookup [] with
    | none => simp [bind, Except.bind, hm]
    | some w => cases w <;> simp [bind, Except.bind, Json.as_str, hm]
  | str s => rfl
  | other => rfl

mutual
theorem kanaGet_total : (j : Json) → (∃ t, kanaGet j = .ok t ∧ isKanaTable j = true) ∨
    (kanaGet j = .error .panic ∧ isKanaTable j = false)
  | .obj m => by rw [kanaGet, isKanaTable]; exact kanaGetLoop_total m
  | .str _ => by rw [kanaGet, isKanaTable]; exact Or.inr ⟨rfl, rfl⟩
  | .other => by rw [kanaGet, isKanaTable]; exact Or.inr ⟨rfl, rfl⟩
theorem kanaGetLoop_total : (m : List (Str × Json)) → (∃ t, kanaGetLoop m = .ok t ∧ isKanaTableIn m = true) ∨
    (kanaGetLoop m = .error .panic ∧ isKanaTableIn m = false)
  | [] => Or.inl ⟨[], by rw [kanaGetLoop], by rw [isKanaTableIn]⟩
  | (k, v) :: rest => by
    have ih := kanaGetLoop_total rest
    have ihv := kanaGet_total v
    rw [kanaGetLoop, isKanaTableIn]
    by_cases hk : k = []
    · simpa [hk] using ih
    · rw [if_neg hk]
      have hk' : (k == []) = false := by simpa using hk
      obtain ⟨c, cs, rfl⟩ : ∃ c cs, k = c :: cs := by
        cases k with
        | nil => exact absurd rfl hk
        | cons c cs => exact ⟨c, cs, rfl⟩
      rw [hk', kanaOutput_eq]
      rcases ihv with ⟨t, h1, h2⟩ | ⟨h1, h2⟩
      · rw [h1, h2]
        cases v with
        | obj m =>
          by_cases ho : ((field (.obj m) []).isNone || (entry (.obj m)).isSome) = true
          · simp only [ho]
            rcases ih with ⟨r, h3, h4⟩ | ⟨h3, h4⟩
            · left; rw [h3, h4]; exact ⟨_, rfl, rfl⟩
            · right; rw [h3, h4]; exact ⟨rfl, rfl⟩
          · rw [Bool.not_eq_true] at ho
            simp only [ho]
            right; exact ⟨rfl, rfl⟩
        | str s => rw [isKanaTable] at h2; cases h2
        | other => rw [isKanaTable] at h2; cases h2
      · right; rw [h1, h2]; exact ⟨rfl, rfl⟩
end

mutual
theorem romajiGet_total : (j : Json) → (∃ t, romajiGet j = .ok t ∧ isRomajiTable j = true) ∨
    (romajiGet j = .error .panic ∧ isRomajiTable j = false)
  | .obj m => by
    rw [romajiGet, isRomajiTable]
    rcases romajiGetLoop_total m with ⟨t, h1, h2⟩ | ⟨h1, h2⟩
    · left; rw [h1]; exact ⟨_, rfl, h2⟩
    · right; rw [h1]; exact ⟨rfl, h2⟩
  | .str _ => by rw [romajiGet, isRomajiTable]; exact Or.inr ⟨rfl, rfl⟩
  | .other => by rw [romajiGet, isRomajiTable]; exact Or.inr ⟨rfl, rfl⟩
theorem romajiGetLoop_total : (m : List (Str × Json)) →
    (∃ t, romajiGetLoop m = .ok t ∧ isRomajiTableIn m = true) ∨
    (romajiGetLoop m = .error .panic ∧ isRomajiTableIn m = false)
  | [] => Or.inl ⟨[], by rw [romajiGetLoop], by rw [isRomajiTableIn]⟩
  | (k, v) :: rest => by
    have ih := romajiGetLoop_total rest
    have ihv := romajiGet_total v
    rw [romajiGetLoop, isRomajiTableIn]
    by_cases hk : k = []
    · simpa [hk] using ih
    · rw [if_neg hk]
      have hk' : (k == []) = false := by simpa using hk
      obtain ⟨c, cs, rfl⟩ : ∃ c cs, k = c :: cs := by
        cases k with
        | nil => exact absurd rfl hk
        | cons c cs => exact ⟨c, cs, rfl⟩
      rw [hk', romajiOutput_eq]
      rcases ihv with ⟨t, h1, h2⟩ | ⟨h1, h2⟩
      · rw [h1, h2]
        cases ho : entry v with
        | none => right; exact ⟨rfl, rfl⟩
        | some o =>
          rcases ih with ⟨r, h3, h4⟩ | ⟨h3, h4⟩
          · left; rw [h3, h4]; exact ⟨_, rfl, rfl⟩
          · right; rw [h3, h4]; exact ⟨rfl, rfl⟩
      · right; rw [h1, h2]; exact ⟨rfl, rfl⟩
end

/-- one step of a successful run of the loop -/
theorem kanaGetLoop_cons {k : Str} {v : Json} {rest : List (Str × Json)} {t : List (Char × KNode)}
    (h : kanaGetLoop ((k, v) :: rest) = .ok t) (hk : k ≠ []) :
    ∃ c cs tv r, k = c :: cs ∧ kanaGet v = .ok tv ∧ kanaGetLoop rest = .ok r ∧
      t = (c, .mk tv (entry v)) :: r := by
  rw [kanaGetLoop, if_neg hk] at h
  cases k with
  | nil => exact absurd rfl hk
  | cons c cs =>
    cases h1 : kanaGet v with
    | error e => rw [h1] at h; cases h
    | ok tv =>
      rw [h1, kanaOutput_eq] at h
      cases v with
      | str s => cases h
      | other => cases h
      | obj m =>
        by_cases ho : ((field (.obj m) []).isNone || (entry (.obj m)).isSome) = true
        · simp only [ho] at h
          cases h2 : kanaGetLoop rest with
          | error e => rw [h2] at h; cases h
          | ok r =>
            rw [h2] at h
            cases h
            exact ⟨c, cs, tv, r, rfl, rfl, rfl, rfl⟩
        · rw [Bool.not_eq_true] at ho
          simp only [ho] at h
          cases h

theorem romajiGetLoop_cons {k : Str} {v : Json} {rest : List (Str × Json)} {t : List (Char × RNode)}
    (h : romajiGetLoop ((k, v) :: rest) = .ok t) (hk : k ≠ []) :
    ∃ c cs tv r o, k = c :: cs ∧ romajiGet v = .ok tv ∧ romajiGetLoop rest = .ok r ∧
      entry v = some o ∧ t = (c, .mk tv o) :: r := by
  rw [romajiGetLoop, if_neg hk] at h
  cases k with
  | nil => exact absurd rfl hk
  | cons c cs =>
    cases h1 : romajiGet v with
    | error e => rw [h1] at h; cases h
    | ok tv =>
      rw [h1, romajiOutput_eq] at h
      cases ho : entry v with
      | none => rw [ho] at h; cases h
      | some o =>
        rw [ho] at h
        cases h2 : romajiGetLoop rest with
        | error e => rw [h2] at h; cases h
        | ok r =>
          rw [h2] at h
          cases h
          exact ⟨c, cs, tv, r, o, rfl, rfl, rfl, rfl, rfl⟩

/-- the keys of the tree are the first letters of the keys of the table -/
theorem kanaGetLoop_keys : ∀ {m : List (Str × Json)} {t : List (Char × KNode)},
    kanaGetLoop m = .ok t → t.map (fun x => x.1) = m.filterMap fun e => e.1.head? := by
  intro m
  induction m with
  | nil => intro t h; rw [kanaGetLoop] at h; cases h; rfl
  | cons e m ih =>
    obtain ⟨k, v⟩ := e
    intro t h
    by_cases hk : k = []
    · rw [kanaGetLoop, if_pos hk] at h
      subst hk
      exact ih h
    · obtain ⟨c, cs, tv, r, rfl, -, h2, rfl⟩ := kanaGetLoop_cons h hk
      simpa using ih h2

theorem romajiGetLoop_keys : ∀ {m : List (Str × Json)} {t : List (Char × RNode)},
    romajiGetLoop m = .ok t → t.map (fun x => x.1) = m.filterMap fun e => e.1.head? := by
  intro m
  induction m with
  | nil => intro t h; rw [romajiGetLoop] at h; cases h; rfl
  | cons e m ih =>
    obtain ⟨k, v⟩ := e
    intro t h
    by_cases hk : k = []
    · rw [romajiGetLoop, if_pos hk] at h
      subst hk
      exact ih h
    · obtain ⟨c, cs, tv, r, o, rfl, -, h2, -, rfl⟩ := romajiGetLoop_cons h hk
      simpa using ih h2

/-! ## order -/

theorem strLt_head {a b : Char} {as bs : Str} (h : strLt (a :: as) (b :: bs) = true) : a.toNat ≤ b.toNat := by
  simp only [strLt, Bool.or_eq_true, Bool.and_eq_true, decide_eq_true_iff, beq_iff_eq] at h
  rcases h with h | h
  · omega
  · rw [h.1]; exact Nat.le_refl _

theorem sortedKeys_of_ascending : ∀ {ks : List Str}, ascending ks = true →
    SortedKeys (ks.filterMap fun k => k.head?) := by
  intro ks
  induction ks with
  | nil => intro _; trivial
  | cons k ks ih =>
    intro h
    simp only [ascending, Bool.and_eq_true, List.all_eq_true] at h
    cases k with
    | nil => exact ih h.2
    | cons c cs =>
      simp only [List.filterMap_cons, List.head?_cons]
      refine ⟨?_, ih h.2⟩
      intro y hy
      obtain ⟨k', hk', e⟩ := List.mem_filterMap.1 hy
      cases k' with
      | nil => cases e
      | cons d ds =>
        cases e
        exact strLt_head (h.1 _ hk')

theorem filterMap_keys {m : List (Str × Json)} :
    (m.filterMap fun e => e.1.head?) = (m.map fun e => e.1).filterMap fun k => k.head? := by
  rw [List.filterMap_map]; rfl

mutual
theorem kana_sort_children : (j : Json) → (t : List (Char × KNode)) → kanaGet j = .ok t →
    mapped j = true → KNode.sortChildren t = t ∧ SortedKeys (t.map fun x => x.1)
  | .obj m, t, h, hm => by
    rw [kanaGet] at h
    rw [mapped, Bool.and_eq_true] at hm
    refine ⟨kana_sort_loop m t h hm.2, ?_⟩
    rw [kanaGetLoop_keys h, filterMap_keys]
    exact sortedKeys_of_ascending hm.1
  | .str _, t, h, _ => by rw [kanaGet] at h; cases h
  | .other, t, h, _ => by rw [kanaGet] at h; cases h
theorem kana_sort_loop : (m : List (Str × Json)) → (t : List (Char × KNode)) → kanaGetLoop m = .ok t →
    mappedIn m = true → KNode.sortChildren t = t
  | [], t, h, _ => by rw [kanaGetLoop] at h; cases h; rw [KNode.sortChildren]
  | (k, v) :: rest, t, h, hm => by
    rw [mappedIn, Bool.and_eq_true] at hm
    by_cases hk : k = []
    · rw [kanaGetLoop, if_pos hk] at h
      exact kana_sort_loop rest t h hm.2
    · obtain ⟨c, cs, tv, r, -, h1, h2, rfl⟩ := kanaGetLoop_cons h hk
      have hv := kana_sort_children v tv h1 hm.1
      rw [KNode.sortChildren, kana_sort_loop rest r h2 hm.2, KNode.sort, hv.1,
        sortByKey_of_sorted hv.2]
end

mutual
theorem romaji_sort_children : (j : Json) → (t : Option (List (Char × RNode))) → romajiGet j = .ok t →
    mapped j = true → ∀ o, (RNode.mk t o).sort = RNode.mk t o ∧ RNode.AllSorted (RNode.mk t o)
  | .obj m, t, h, hm => by
    intro o
    rw [romajiGet] at h
    rw [mapped, Bool.and_eq_true] at hm
    cases hl : romajiGetLoop m with
    | error e => rw [hl] at h; cases h
    | ok l =>
      rw [hl] at h
      cases h
      have hs : SortedKeys (l.map fun x => x.1) := by
        rw [romajiGetLoop_keys hl, filterMap_keys]
        exact sortedKeys_of_ascending hm.1
      have hc := romaji_sort_loop m l hl hm.2
      cases l with
      | nil =>
        refine ⟨by rw [noneIfEmpty, RNode.sort], ?_⟩
        intro x hx
        rw [noneIfEmpty, RNode.paths] at hx
        simp only [List.mem_cons, List.not_mem_nil, or_false] at hx
        rw [hx]; trivial
      | cons a l =>
        refine ⟨by rw [noneIfEmpty, RNode.sort, hc.1, sortByKey_of_sorted hs], ?_⟩
        intro x hx
        rw [noneIfEmpty, RNode.paths] at hx
        rcases List.mem_cons.1 hx with e | hx
        · rw [e]; exact hs
        · exact hc.2 x hx
  | .str _, t, h, _ => by rw [romajiGet] at h; cases h
  | .other, t, h, _ => by rw [romajiGet] at h; cases h
theorem romaji_sort_loop : (m : List (Str × Json)) → (t : List (Char × RNode)) → romajiGetLoop m = .ok t →
    mappedIn m = true → RNode.sortChildren t = t ∧
      ∀ x ∈ RNode.pathsList t, SortedKeys (x.2.ts.map fun t => t.1)
  | [], t, h, _ => by
    rw [romajiGetLoop] at h; cases h
    exact ⟨by rw [RNode.sortChildren], by rw [RNode.pathsList]; simp⟩
  | (k, v) :: rest, t, h, hm => by
    rw [mappedIn, Bool.and_eq_true] at hm
    by_cases hk : k = []
    · rw [romajiGetLoop, if_pos hk] at h
      exact romaji_sort_loop rest t h hm.2
    · obtain ⟨c, cs, tv, r, o, -, h1, h2, -, rfl⟩ := romajiGetLoop_cons h hk
      have hv := romaji_sort_children v tv h1 hm.1 o
      have hr := romaji_sort_loop rest r h2 hm.2
      refine ⟨by rw [RNode.sortChildren, hr.1, hv.1], ?_⟩
      intro x hx
      rw [RNode.pathsList] at hx
      rcases List.mem_append.1 hx with hx | hx
      · obtain ⟨y, hy, rfl⟩ := List.mem_map.1 hx
        exact hv.2 y hy
      · exact hr.2 x hx
end

/-! ## `object` builds maps -/

theorem strLt_trans : ∀ {a b c : Str}, strLt a b = true → strLt b c = true → strLt a c = true := by
  intro a
  induction a with
  | nil =>
    intro b c h1 h2
    cases c with
    | nil => cases b <;> cases h2
    | cons _ _ => rfl
  | cons x a ih =>
    intro b c h1 h2
    cases b with
    | nil => cases h1
    | cons y b =>
      cases c with
      | nil => cases h2
      | cons z c =>
        simp only [strLt, Bool.or_eq_true, Bool.and_eq_true, decide_eq_true_iff, beq_iff_eq] at h1 h2 ⊢
        rcases h1 with h1 | ⟨rfl, h1⟩ <;> rcases h2 with h2 | ⟨rfl, h2⟩
        · left; omega
        · left; exact h1
        · left; exact h2
        · right; exact ⟨rfl, ih h1 h2⟩

theorem strLt_total : ∀ {a b : Str}, a ≠ b → strLt a b = false → strLt b a = true := by
  intro a
  induction a with
  | nil =>
    intro b h1 h2
    cases b with
    | nil => exact absurd rfl h1
    | cons _ _ => cases h2
  | cons x a ih =>
    intro b h1 h2
    cases b with
    | nil => rfl
    | cons y b =>
      simp only [strLt, Bool.or_eq_false_iff, decide_eq_false_iff_not, Bool.and_eq_false_iff,
        Bool.or_eq_true, Bool.and_eq_true, decide_eq_true_iff, beq_iff_eq] at h2 ⊢
      by_cases hxy : x = y
      · subst hxy
        rcases h2.2 with h | h
        · simp at h
        · exact Or.inr ⟨rfl, ih (fun e => h1 (by rw [e])) h⟩
      · left
        rcases Nat.lt_trichotomy x.toNat y.toNat with h | h | h
        · exact absurd h h2.1
        · exact absurd (char_le_antisymm (Nat.le_of_eq h) (Nat.le_of_eq h.symm)) hxy
        · exact h

theorem mapInsert_keys_mem {m : List (Str × Json)} {k : Str} {v : Json} {k' : Str}
    (h : k' ∈ (mapInsert m k v).map fun e => e.1) : k' = k ∨ k' ∈ m.map fun e => e.1 := by
  induction m with
  | nil => simpa [mapInsert] using h
  | cons e m ih =>
    obtain ⟨a, w⟩ := e
    simp only [mapInsert] at h
    split at h
    · right; simpa using h
    · split at h
      · simpa using h
      · simp only [List.map_cons, List.mem_cons] at h ⊢
        rcases h with h | h
        · exact Or.inr (Or.inl h)
        · rcases ih h with h | h
          · exact Or.inl h
          · exact Or.inr (Or.inr h)

theorem mapInsert_ascending {m : List (Str × Json)} {k : Str} {v : Json}
    (h : ascending (m.map fun e => e.1) = true) : ascending ((mapInsert m k v).map fun e => e.1) = true := by
  induction m with
  | nil => simp [mapInsert, ascending]
  | cons e m ih =>
    obtain ⟨a, w⟩ := e
    have h' := h
    simp only [List.map_cons, ascending, Bool.and_eq_true, List.all_eq_true] at h'
    simp only [mapInsert]
    split
    · simpa [ascending] using h
    · rename_i hne
      split
      · rename_i hlt
        simp only [List.map_cons]
        rw [ascending, Bool.and_eq_true, List.all_eq_true]
        refine ⟨?_, by simpa using h⟩
        intro k' hk'
        rcases List.mem_cons.1 hk' with e | hk'
        · rw [e]; exact hlt
        · exact strLt_trans hlt (h'.1 k' hk')
      · rename_i hlt
        simp only [List.map_cons, ascending, Bool.and_eq_true, List.all_eq_true]
        refine ⟨?_, ih h'.2⟩
        intro k' hk'
        rcases mapInsert_keys_mem hk' with e | hk'
        · rw [e]; exact strLt_total hne (by simpa using hlt)
        · exact h'.1 k' hk'

theorem mapInsert_mappedIn {m : List (Str × Json)} {k : Str} {v : Json}
    (h : mappedIn m = true) (hv : mapped v = true) : mappedIn (mapInsert m k v) = true := by
  induction m with
  | nil => rw [mapInsert, mappedIn, mappedIn, hv]; rfl
  | cons e m ih =>
    obtain ⟨a, w⟩ := e
    rw [mappedIn, Bool.and_eq_true] at h
    simp only [mapInsert]
    split
    · rw [mappedIn, hv, h.2]; rfl
    · split
      · rw [mappedIn, mappedIn, hv, h.1, h.2]; rfl
      · rw [mappedIn, h.1, ih h.2]; rfl

theorem lookup_mapInsert (m : List (Str × Json)) (k : Str) (v : Json)
    (h : ascending (m.map fun e => e.1) = true) (x : Str) :
    (mapInsert m k v).lookup x = if x = k then some v else m.lookup x := by
  induction m with
  | nil =>
    by_cases hx : x = k
    · simp [mapInsert, hx]
    · have : (x == k) = false := by simpa using hx
      simp [mapInsert, List.lookup_cons, this, hx]
  | cons e m ih =>
    obtain ⟨a, w⟩ := e
    have h' := h
    simp only [List.map_cons, ascending, Bool.and_eq_true, List.all_eq_true] at h'
    simp only [mapInsert]
    by_cases hx : x = k
    · subst hx
      split
      · rename_i e; simp [e]
      · rename_i hne
        have hne' : (x == a) = false := by simpa using hne
        split
        · simp
        · simp [List.lookup_cons, hne', ih h'.2]
    · have hxk : (x == k) = false := by simpa using hx
      rw [if_neg hx]
      split
      · rename_i e
        subst e
        simp [List.lookup_cons, hxk]
      · split
        · simp [List.lookup_cons, hxk]
        · simp [List.lookup_cons, ih h'.2, hx]

/-! ## lookup in generated trees -/

theorem walk_go {j v : Json} {c : Char} {s : Str} (h : field j [c] = some v) :
    walk j (c :: s) = ((walk v s).1, (walk v s).2 + 1) := by
  rw [walk, h]

theorem walk_stop {j : Json} {c : Char} {s : Str} (h : field j [c] = none) : walk j (c :: s) = (j, 0) := by
  rw [walk, h]

/-- reading nothing leaves the table where it is -/
theorem walk_zero {j : Json} {s : Str} (h : (walk j s).2 = 0) : (walk j s).1 = j := by
  cases s with
  | nil => rfl
  | cons d s =>
    simp only [walk] at h ⊢
    split
    · rename_i hf; rw [hf] at h; cases h
    · rfl

theorem strLt_irrefl (a : Str) : strLt a a = false := by
  induction a with
  | nil => rfl
  | cons x a ih => simp [strLt, ih]

theorem romajiGetLoop_child {m : List (Str × Json)} {t : List (Char × RNode)} (h : romajiGetLoop m = .ok t)
    {c : Char} {cs : Str} {v : Json} (hm : (c :: cs, v) ∈ m) :
    ∃ tv ov, romajiGet v = .ok tv ∧ entry v = some ov := by
  induction m generalizing t with
  | nil => cases hm
  | cons e m ih =>
    obtain ⟨k, w⟩ := e
    by_cases hk : k = []
    · rw [romajiGetLoop, if_pos hk] at h
      subst hk
      rcases List.mem_cons.1 hm with e | hm
      · cases e
      · exact ih h hm
    · obtain ⟨d, ds, tv, r, o, rfl, h1, h2, h3, rfl⟩ := romajiGetLoop_cons h hk
      rcases List.mem_cons.1 hm with e | hm
      · cases e; exact ⟨tv, o, h1, h3⟩
      · exact ih h2 hm

theorem singleKey_eq {p : Char → Bool} {c d : Char} {cs : Str} (h : singleKey p (d :: cs) = true)
    (hc : p c = true) (e : d = c) : d :: cs = [c] := by
  subst e
  cases cs with
  | nil => rfl
  | cons a cs => rw [singleKey, hc] at h; cases h

/-- the child of a generated kana node -/
theorem kanaGetLoop_find {p : Char → Bool} {c : Char} (hc : p c = true) :
    ∀ {m : List (Str × Json)} {t : List (Char × KNode)}, kanaGetLoop m = .ok t →
    singleKeysIn p m = true →
    match m.lookup [c] with
    | some v => singleKeys p v = true ∧ ∃ tv, kanaGet v = .ok tv ∧
        t.find? (fun x => x.1 == c) = some (c, .mk tv (entry v))
    | none => t.find? (fun x => x.1 == c) = none := by
  intro m
  induction m with
  | nil => intro t h _; rw [kanaGetLoop] at h; cases h; rfl
  | cons e m ih =>
    obtain ⟨k, v⟩ := e
    intro t h hk
    rw [singleKeysIn, Bool.and_eq_true, Bool.and_eq_true] at hk
    by_cases hke : k = []
    · rw [kanaGetLoop, if_pos hke] at h
      subst hke
      exact ih h hk.2
    · obtain ⟨d, cs, tv, r, rfl, h1, h2, rfl⟩ := kanaGetLoop_cons h hke
      by_cases hd : d = c
      · have e := singleKey_eq hk.1.1 hc hd
        rw [e, List.lookup_cons, beq_self_eq_true]
        subst hd
        exact ⟨hk.1.2, tv, h1, by simp⟩
      · have hne : ([c] == d :: cs) = false := by
          rw [beq_eq_false_iff_ne]
          intro e; injection e with e _; exact hd e.symm
        have hd' : (d == c) = false := by simpa using hd
        rw [List.lookup_cons, hne]
        simp only [List.find?_cons, hd']
        exact ih h2 hk.2

theorem kanaGet_find {p : Char → Bool} {c : Char} (hc : p c = true) {j : Json}
    {t : List (Char × KNode)} (h : kanaGet j = .ok t) (hk : singleKeys p j = true) (o : Option Str) :
    match field j [c] with
    | some v => singleKeys p v = true ∧ ∃ tv, kanaGet v = .ok tv ∧
        (KNode.mk t o).find_transition_node c = some (.mk tv (entry v))
    | none => (KNode.mk t o).find_transition_node c = none := by
  cases j with
  | str s => rw [kanaGet] at h; cases h
  | other => rw [kanaGet] at h; cases h
  | obj m =>
    rw [kanaGet] at h
    rw [singleKeys] at hk
    have := kanaGetLoop_find hc h hk
    simp only [field, KNode.find_transition_node, KNode.transitions]
    split
    · rename_i v hv
      rw [hv] at this
      obtain ⟨h1, tv, h2, h3⟩ := this
      exact ⟨h1, tv, h2, by rw [h3]; rfl⟩
    · rename_i hv
      rw [hv] at this
      rw [this]; rfl

theorem kanaGet_getLoop {p : Char → Bool} (s : Str) :
    ∀ {j : Json} {t : List (Char × KNode)} (o : Option Str), kanaGet j = .ok t → singleKeys p j = true →
    (∀ c ∈ s, p (toAsciiLowercase c) = true) →
    ((KNode.mk t o).getLoop 0 s).2 = (walk j (s.map toAsciiLowercase)).2 ∧
    ((KNode.mk t o).getLoop 0 s).1.output =
      if (walk j (s.map toAsciiLowercase)).2 = 0 then o else entry (walk j (s.map toAsciiLowercase)).1 := by
  induction s with
  | nil => intro j t o _ _ _; exact ⟨rfl, rfl⟩
  | cons c s ih =>
    intro j t o h hk hs
    have hf := kanaGet_find (hs c (by simp)) h hk o
    obtain ⟨x, hv⟩ : ∃ x, field j [toAsciiLowercase c] = x := ⟨_, rfl⟩
    rw [List.map_cons, KNode.getLoop]
    rcases x with _ | v
    · rw [hv] at hf
      rw [hf, walk_stop hv]
      exact ⟨rfl, rfl⟩
    · rw [hv] at hf
      rw [walk_go hv]
      obtain ⟨hkv, tv, h1, h2⟩ := hf
      rw [h2]
      simp only
      rw [KNode.getLoop_add]
      obtain ⟨h3, h4⟩ := ih (entry v) h1 hkv (fun d hd => hs d (by simp [hd]))
      refine ⟨by rw [h3]; simp only; omega, ?_⟩
      simp only
      rw [if_neg (Nat.succ_ne_zero _), h4]
      split
      · rename_i h0
        rw [walk_zero h0]
      · rfl

theorem lookup_of_mem {m : List (Str × Json)} (h : ascending (m.map fun e => e.1) = true) {k : Str}
    {v : Json} (hm : (k, v) ∈ m) : m.lookup k = some v := by
  induction m with
  | nil => cases hm
  | cons e m ih =>
    obtain ⟨a, w⟩ := e
    simp only [List.map_cons, ascending, Bool.and_eq_true, List.all_eq_true] at h
    rcases List.mem_cons.1 hm with e | hm
    · cases e; simp
    · have hlt := h.1 k (List.mem_map.2 ⟨_, hm, rfl⟩)
      have hne : (k == a) = false := by
        rw [beq_eq_false_iff_ne]
        intro e; subst e
        exact absurd hlt (by rw [strLt_irrefl]; simp)
      rw [List.lookup_cons, hne]
      exact ih h.2 hm

theorem romajiGetLoop_mem : ∀ {m : List (Str × Json)} {t : List (Char × RNode)}, romajiGetLoop m = .ok t →
    ∀ c x, (c, x) ∈ t ↔ ∃ cs v tv o, (c :: cs, v) ∈ m ∧ romajiGet v = .ok tv ∧ entry v = some o ∧
      x = .mk tv o := by
  intro m
  induction m with
  | nil => intro t h c x; rw [romajiGetLoop] at h; cases h; simp
  | cons e m ih =>
    obtain ⟨k, v⟩ := e
    intro t h c x
    by_cases hk : k = []
    · rw [romajiGetLoop, if_pos hk] at h
      subst hk
      rw [ih h]
      simp
    · obtain ⟨d, ds, tv, r, o, rfl, h1, h2, h3, rfl⟩ := romajiGetLoop_cons h hk
      rw [List.mem_cons, ih h2]
      constructor
      · rintro (e | ⟨cs, w, tw, ow, hm, h⟩)
        · cases e
          exact ⟨ds, v, tv, o, List.mem_cons_self, h1, h3, rfl⟩
        · exact ⟨cs, w, tw, ow, List.mem_cons_of_mem _ hm, h⟩
      · rintro ⟨cs, w, tw, ow, hm, h4, h5, h6⟩
        rcases List.mem_cons.1 hm with e | hm
        · cases e
          left
          rw [h1] at h4; cases h4
          rw [h3] at h5; cases h5
          rw [h6]
        · exact Or.inr ⟨cs, w, tw, ow, hm, h4, h5, h6⟩

theorem singleKeysIn_mem {p : Char → Bool} {m : List (Str × Json)} (h : singleKeysIn p m = true)
    {k : Str} {v : Json} (hm : (k, v) ∈ m) : singleKey p k = true ∧ singleKeys p v = true := by
  induction m with
  | nil => cases hm
  | cons e m ih =>
    obtain ⟨a, w⟩ := e
    rw [singleKeysIn, Bool.and_eq_true, Bool.and_eq_true] at h
    rcases List.mem_cons.1 hm with e | hm
    · cases e; exact h.1
    · exact ih h.2 hm

theorem mappedIn_mem {m : List (Str × Json)} (h : mappedIn m = true)
    {k : Str} {v : Json} (hm : (k, v) ∈ m) : mapped v = true := by
  induction m with
  | nil => cases hm
  | cons e m ih =>
    obtain ⟨a, w⟩ := e
    rw [mappedIn, Bool.and_eq_true] at h
    rcases List.mem_cons.1 hm with e | hm
    · cases e; exact h.1
    · exact ih h.2 hm

theorem mem_of_lookup {m : List (Str × Json)} {k : Str} {v : Json} (h : m.lookup k = some v) :
    (k, v) ∈ m := by
  induction m with
  | nil => cases h
  | cons e m ih =>
    obtain ⟨a, w⟩ := e
    rw [List.lookup_cons] at h
    split at h
    · rename_i he
      cases h
      rw [eq_of_beq he]; exact List.mem_cons_self
    · exact List.mem_cons_of_mem _ (ih h)

/-- the child of a generated romaji node, for every conforming binary search -/
theorem romajiGet_find {std : Std} (hstd : std.Lawful) {p : Char → Bool} {c : Char} (hc : p c = true)
    {j : Json} {t : Option (List (Char × RNode))} (h : romajiGet j = .ok t)
    (hk : singleKeys p j = true) (hm : mapped j = true) (o : Str) :
    match field j [c] with
    | some v => singleKeys p v = true ∧ mapped v = true ∧ ∃ tv ov, romajiGet v = .ok tv ∧
        entry v = some ov ∧ (RNode.mk t o).find_transition_node std c = .ok (some (.mk tv ov))
    | none => (RNode.mk t o).find_transition_node std c = .ok none := by
  have hs := (romaji_sort_children j t h hm o).2 _ (RNode.self_mem_paths _)
  rw [RNode.find_ok hstd hs]
  cases j with
  | str s => rw [romajiGet] at h; cases h
  | other => rw [romajiGet] at h; cases h
  | obj m =>
    rw [romajiGet] at h
    cases hl : romajiGetLoop m with
    | error e => rw [hl] at h; cases h
    | ok l =>
      rw [hl] at h
      cases h
      have hts : (RNode.mk (noneIfEmpty l) o).ts = l := by cases l <;> rfl
      rw [singleKeys] at hk
      rw [mapped, Bool.and_eq_true] at hm
      simp only [field]
      have hmem := romajiGetLoop_mem hl c
      split
      · rename_i v hv
        have hv' := mem_of_lookup hv
        have hsv := (singleKeysIn_mem hk hv').2
        cases hr : (RNode.mk (noneIfEmpty l) o).rfind std c with
        | none =>
          exfalso
          have hno := RNode.rfind_none hstd hs hr
          rw [hts] at hno
          have htot := romajiGetLoop_child hl hv'
          obtain ⟨tv, ov, h1, h2⟩ := htot
          exact hno _ ((hmem _).2 ⟨[], v, tv, ov, hv', h1, h2, rfl⟩)
        | some x =>
          have hx := RNode.rfind_mem hstd hs hr
          rw [hts] at hx
          obtain ⟨cs, w, tw, ow, h1, h2, h3, h4⟩ := (hmem x).1 hx
          have e := singleKey_eq (singleKeysIn_mem hk h1).1 hc rfl
          rw [e] at h1
          have := lookup_of_mem hm.1 h1
          rw [hv] at this
          cases this
          exact ⟨hsv, mappedIn_mem hm.2 hv', tw, ow, h2, h3, by rw [h4]⟩
      · rename_i hv
        cases hr : (RNode.mk (noneIfEmpty l) o).rfind std c with
        | none => rfl
        | some x =>
          exfalso
          have hx := RNode.rfind_mem hstd hs hr
          rw [hts] at hx
          obtain ⟨cs, w, tw, ow, h1, h2, h3, h4⟩ := (hmem x).1 hx
          have e := singleKey_eq (singleKeysIn_mem hk h1).1 hc rfl
          rw [e] at h1
          have := lookup_of_mem hm.1 h1
          rw [hv] at this
          cases this

theorem romajiGet_getLoop {std : Std} (hstd : std.Lawful) {p : Char → Bool} (s : Str) :
    ∀ {j : Json} {t : Option (List (Char × RNode))} (o : Str) (i : Nat), romajiGet j = .ok t →
    singleKeys p j = true → mapped j = true → (∀ c ∈ s, p c = true) →
    ∃ n, (RNode.mk t o).getLoop std i s = .ok (n, i + (walk j s).2) ∧
      if (walk j s).2 = 0 then n.output = o else entry (walk j s).1 = some n.output := by
  induction s with
  | nil => intro j t o i _ _ _ _; exact ⟨_, rfl, rfl⟩
  | cons c s ih =>
    intro j t o i h hk hm hs
    have hf := romajiGet_find hstd (hs c (by simp)) h hk hm o
    obtain ⟨x, hv⟩ : ∃ x, field j [c] = x := ⟨_, rfl⟩
    rw [RNode.getLoop]
    rcases x with _ | v
    · rw [hv] at hf
      rw [hf, walk_stop hv]
      exact ⟨_, rfl, rfl⟩
    · rw [hv] at hf
      rw [walk_go hv]
      obtain ⟨hkv, hmv, tv, ov, h1, h2, h3⟩ := hf
      rw [h3]
      obtain ⟨n, h4, h5⟩ := ih ov (i + 1) h1 hkv hmv (fun d hd => hs d (by simp [hd]))
      refine ⟨n, ?_, ?_⟩
      · simp only [bind, Except.bind]
        rw [h4]
        have : i + 1 + (walk v s).2 = i + ((walk v s).2 + 1) := by omega
        rw [this]
      · simp only
        rw [if_neg (by omega)]
        split at h5
        · rename_i h0
          rw [walk_zero h0, h2, h5]
        · exact h5

end Upstream
end WanaKana
