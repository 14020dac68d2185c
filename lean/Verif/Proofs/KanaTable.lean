import Verif.Proofs.KanaFacts
import Verif.Spec.RomajiTable
/-! # The tries hold exactly the rule-generated tables -/

namespace WanaKana
open KNode

/-- the specified table of a mode -/
def tableOf : Mode → Spec.Table
  | .normal => Spec.normalTable
  | .obsolete => Spec.obsoleteTable
  | .ime => Spec.imeTable

/-- the rows starting with `c`, without the `c` -/
def bucket (c : Char) (t : Spec.Table) : Spec.Table :=
  t.filterMap fun x => match x.1 with
    | [] => none
    | d :: k => if d = c then some (k, x.2) else none

theorem lookup_bucket (c : Char) (q : Str) (t : Spec.Table) :
    (bucket c t).lookup q = t.lookup (c :: q) := by
  induction t with
  | nil => rfl
  | cons x t ih =>
    obtain ⟨k, o⟩ := x
    unfold bucket at ih ⊢
    cases k with
    | nil =>
      simp only [List.filterMap_cons]
      rw [ih, List.lookup_cons]
      rfl
    | cons d k =>
      simp only [List.filterMap_cons]
      by_cases h : d = c
      · subst h
        simp only [if_true]
        rw [List.lookup_cons, List.lookup_cons, ih]
        by_cases hq : q = k
        · subst hq; simp
        · have h1 : (q == k) = false := by simpa using hq
          have h2 : ((d :: q) == (d :: k)) = false := by simpa using hq
          rw [h1, h2]
      · simp only [h, if_false]
        rw [ih, List.lookup_cons]
        have h2 : ((c :: q) == (d :: k)) = false := by
          simp; intro e; exact absurd e.symm h
        rw [h2]

theorem bucket_mem {c : Char} {k o : Str} {t : Spec.Table} (h : (k, o) ∈ bucket c t) :
    (c :: k, o) ∈ t := by
  unfold bucket at h
  obtain ⟨⟨k', o'⟩, hm, he⟩ := List.mem_filterMap.1 h
  cases k' with
  | nil => simp at he
  | cons d k' =>
    simp only at he
    split at he
    · next hd => cases he; subst hd; exact hm
    · cases he

/-- check of all nodes below the root against the table -/
def tableCheck (m : Mode) : Bool :=
  (tree m).transitions.all fun x =>
    (fun b : Spec.Table => x.2.paths.all fun y =>
      decide (y.2.output = b.lookup y.1) && b.any fun k => y.1.isPrefixOf k.1) (bucket x.1 (tableOf m))

theorem tableCheck_all (m : Mode) : tableCheck m = true := by cases m <;> decide +kernel

theorem keysCheck_all (m : Mode) :
    ((tableOf m).all fun k => !k.1.isEmpty && ((tree m).walk k.1).isSome) = true := by
  cases m <;> decide +kernel

/-- every node below the root carries the table entry of its path, and its path is a prefix
of some key -/
theorem walk_table {m : Mode} {p : Str} {n : KNode} (hw : (tree m).walk p = some n) (hp : p ≠ []) :
    n.output = (tableOf m).lookup p ∧ ∃ k ∈ tableOf m, p <+: k.1 := by
  cases p with
  | nil => exact absurd rfl hp
  | cons c q =>
    simp only [KNode.walk, find_transition_node] at hw
    cases hf : (tree m).transitions.find? (fun t => t.1 == c) with
    | none => simp [hf] at hw
    | some a =>
      obtain ⟨d, ch⟩ := a
      simp only [hf, Option.map_some] at hw
      have hd : d = c := by simpa using List.find?_some hf
      have hm := List.mem_of_find?_eq_some hf
      subst hd
      have h1 := List.all_eq_true.1 (tableCheck_all m) _ hm
      have h2 := List.all_eq_true.1 h1 _ (walk_mem_paths q hw)
      simp only [Bool.and_eq_true, decide_eq_true_iff, List.any_eq_true] at h2
      obtain ⟨h2, ⟨k, o⟩, hk, hpre⟩ := h2
      refine ⟨by rw [h2, lookup_bucket], (d :: k, o), bucket_mem hk, ?_⟩
      have := List.isPrefixOf_iff_prefix.1 hpre
      exact List.cons_prefix_cons.2 ⟨rfl, this⟩

/-- every prefix of a key is a path -/
theorem walk_of_prefix {m : Mode} {p : Str} {k : Str × Str} (hk : k ∈ tableOf m) (hp : p <+: k.1) :
    ∃ n, (tree m).walk p = some n := by
  have h := List.all_eq_true.1 (keysCheck_all m) _ hk
  simp only [Bool.and_eq_true] at h
  obtain ⟨n, hn⟩ := Option.isSome_iff_exists.1 h.2
  obtain ⟨r, hr⟩ := hp
  rw [← hr, walk_append] at hn
  cases hw : (tree m).walk p with
  | none => rw [hw] at hn; cases hn
  | some x => exact ⟨x, rfl⟩

theorem key_ne_nil {m : Mode} {k : Str × Str} (hk : k ∈ tableOf m) : k.1 ≠ [] := by
  have h := List.all_eq_true.1 (keysCheck_all m) _ hk
  simp only [Bool.and_eq_true, Bool.not_eq_true', List.isEmpty_eq_false_iff] at h
  exact h.1

end WanaKana
