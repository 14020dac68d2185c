import Verif.Model.Std
/-! # Generic left-to-right scan

`scan step s` repeatedly asks `step` for the output for a prefix of the rest and the length of
that prefix (at least one character is always skipped). -/

namespace WanaKana

def scan {α : Type} (step : List α → Str × Nat) (s : List α) : Str :=
  match s with
  | [] => []
  | c :: cs => (step (c :: cs)).1 ++ scan step (cs.drop ((step (c :: cs)).2 - 1))
termination_by s.length
decreasing_by simp [List.length_drop]; omega

section
variable {α : Type} (step : List α → Str × Nat)

theorem scan_nil : scan step [] = [] := by rw [scan]

theorem scan_step {s : List α} (h : s ≠ []) (hk : 1 ≤ (step s).2) :
    scan step s = (step s).1 ++ scan step (s.drop (step s).2) := by
  cases s with
  | nil => exact absurd rfl h
  | cons c cs =>
    rw [scan]
    congr 2
    obtain ⟨k, hk'⟩ : ∃ k, (step (c :: cs)).2 = k + 1 := ⟨(step (c :: cs)).2 - 1, by omega⟩
    rw [hk']; simp

/-- strong induction on length, for lists -/
theorem list_strong {α : Type} {P : List α → Prop}
    (h : ∀ s, (∀ t : List α, t.length < s.length → P t) → P s) (s : List α) : P s := by
  generalize hn : s.length = n
  induction n using Nat.strongRecOn generalizing s with
  | _ n ih => exact h s fun t ht => ih t.length (by omega) t rfl

/-- two steps that agree on every suffix give the same scan -/
theorem scan_congr {step' : List α → Str × Nat} (s : List α)
    (h : ∀ t, t ≠ [] → t <:+ s → step t = step' t) : scan step s = scan step' s := by
  induction s using list_strong with
  | _ s ih =>
    cases s with
    | nil => rw [scan_nil, scan_nil]
    | cons c cs =>
      rw [scan, scan, h _ (by simp) (List.suffix_refl _)]
      congr 1
      apply ih
      · simp [List.length_drop]; omega
      · intro t ht hs
        exact h t ht (hs.trans ((List.drop_suffix _ _).trans (List.suffix_cons _ _)))

end
end WanaKana
