import Verif.Model.KanaNode
/-! # Walking the romaji → kana trie -/

namespace WanaKana
namespace KNode

/-- the node reached by following all of `p` -/
def walk (t : KNode) : Str → Option KNode
  | [] => some t
  | c :: cs => match t.find_transition_node c with
    | some n => n.walk cs
    | none => none

mutual
/-- all nodes with the path leading to them -/
def paths : KNode → List (Str × KNode)
  | mk t o => ([], mk t o) :: pathsList t
def pathsList : List (Char × KNode) → List (Str × KNode)
  | [] => []
  | (c, n) :: rest => (paths n).map (fun x => (c :: x.1, x.2)) ++ pathsList rest
end

theorem mem_pathsList {c : Char} {n : KNode} {p : Str} {m : KNode} (h : (p, m) ∈ paths n) :
    ∀ {t : List (Char × KNode)}, (c, n) ∈ t → (c :: p, m) ∈ pathsList t := by
  intro t
  induction t with
  | nil => intro h; cases h
  | cons a t ih =>
    obtain ⟨d, k⟩ := a
    intro hm
    rw [pathsList]
    rcases List.mem_cons.1 hm with e | hm
    · cases e
      exact List.mem_append_left _ (List.mem_map.2 ⟨(p, m), h, rfl⟩)
    · exact List.mem_append_right _ (ih hm)

theorem walk_mem_paths (p : Str) : ∀ {t n : KNode}, t.walk p = some n → (p, n) ∈ t.paths := by
  induction p with
  | nil =>
    intro t n h
    cases h
    cases t
    rw [paths]; exact List.mem_cons_self
  | cons c cs ih =>
    intro t n h
    obtain ⟨ts, o⟩ := t
    simp only [walk, find_transition_node, transitions] at h
    cases hf : ts.find? (fun t => t.1 == c) with
    | none => simp [hf] at h
    | some a =>
      obtain ⟨d, k⟩ := a
      simp only [hf, Option.map_some] at h
      have hd : d = c := by simpa using List.find?_some hf
      have hm := List.mem_of_find?_eq_some hf
      subst hd
      rw [paths]
      exact List.mem_cons_of_mem _ (mem_pathsList (ih h) hm)

/-- lifting a boolean check of all nodes -/
theorem walk_check {t : KNode} {f : Str × KNode → Bool} (h : t.paths.all f = true) {p : Str}
    {n : KNode} (hw : t.walk p = some n) : f (p, n) = true :=
  List.all_eq_true.1 h _ (walk_mem_paths p hw)

theorem walk_append (p q : Str) : ∀ (t : KNode), t.walk (p ++ q) = (t.walk p).bind fun n => n.walk q := by
  induction p with
  | nil => intro t; rfl
  | cons c p ih =>
    intro t
    simp only [List.cons_append, walk]
    cases t.find_transition_node c with
    | none => rfl
    | some n => exact ih n

theorem walk_singleton (t : KNode) (c : Char) : t.walk [c] = t.find_transition_node c := by
  simp only [walk]
  cases t.find_transition_node c <;> rfl

/-- the text as the trie sees it -/
abbrev low (s : Str) : Str := s.map toAsciiLowercase

theorem getLoop_add (s : Str) : ∀ (t : KNode) (i : Nat),
    t.getLoop i s = ((t.getLoop 0 s).1, i + (t.getLoop 0 s).2) := by
  induction s with
  | nil => intro t i; simp [getLoop]
  | cons c s ih =>
    intro t i
    simp only [getLoop]
    cases t.find_transition_node (toAsciiLowercase c) with
    | none => simp
    | some n =>
      simp only
      rw [ih n (i + 1), ih n (0 + 1)]
      simp; omega

/-- `Stops t s n k`: reading `s` from `t`, the walk ends in node `n` after `k` characters. -/
structure Stops (t : KNode) (s : Str) (n : KNode) (k : Nat) : Prop where
  le : k ≤ s.length
  walk : t.walk (low (s.take k)) = some n
  stop : ∀ c, (s.drop k).head? = some c → n.find_transition_node (toAsciiLowercase c) = none

theorem getLoop_stops (s : Str) : ∀ (t : KNode),
    Stops t s (t.getLoop 0 s).1 (t.getLoop 0 s).2 := by
  induction s with
  | nil => intro t; exact ⟨by simp [getLoop], rfl, by simp⟩
  | cons c s ih =>
    intro t
    simp only [getLoop]
    cases hf : t.find_transition_node (toAsciiLowercase c) with
    | none =>
      refine ⟨by simp, rfl, ?_⟩
      intro d hd
      simp at hd
      rw [← hd]; exact hf
    | some n =>
      simp only
      rw [getLoop_add]
      obtain ⟨h1, h2, h3⟩ := ih n
      have e : 0 + 1 + (n.getLoop 0 s).2 = (n.getLoop 0 s).2 + 1 := by omega
      rw [e]
      refine ⟨by simpa using h1, ?_, ?_⟩
      · simp only [List.take_succ_cons, low, List.map_cons, KNode.walk, hf]
        exact h2
      · simpa using h3

theorem stops_unique (s : Str) : ∀ {t n : KNode} {k : Nat}, Stops t s n k → t.getLoop 0 s = (n, k) := by
  induction s with
  | nil =>
    intro t n k h
    have hk : k = 0 := by have := h.le; simpa using this
    subst hk
    have := h.walk
    simp only [List.take_nil, low, List.map_nil, KNode.walk, Option.some.injEq] at this
    rw [this]; rfl
  | cons c s ih =>
    intro t n k h
    cases k with
    | zero =>
      have hw := h.walk
      simp only [List.take_zero, low, List.map_nil, KNode.walk, Option.some.injEq] at hw
      subst hw
      simp only [getLoop]
      rw [h.stop c (by simp)]
    | succ k =>
      have hw := h.walk
      simp only [List.take_succ_cons, low, List.map_cons, KNode.walk] at hw
      simp only [getLoop]
      cases hf : t.find_transition_node (toAsciiLowercase c) with
      | none => rw [hf] at hw; cases hw
      | some m =>
        rw [hf] at hw
        have hs : Stops m s n k := ⟨by have := h.le; simpa using this, hw, by
          have := h.stop; simpa using this⟩
        simp only
        rw [getLoop_add, ih hs]
        simp; omega

theorem stops_getLoop {s : Str} {t n : KNode} {k : Nat} (h : t.getLoop 0 s = (n, k)) :
    Stops t s n k := by
  have := getLoop_stops s t
  rwa [h] at this

/-- `get` in terms of the stopping point. -/
theorem get_of_stops {s : Str} {t n : KNode} {k : Nat} (h : Stops t s n k) :
    t.get s = match n.output with
      | some o => (some o, k)
      | none => (none, 0) := by
  unfold get
  rw [stops_unique s h]
  cases ho : n.output <;> simp [ho]

theorem exists_stops (t : KNode) (s : Str) : ∃ n k, Stops t s n k :=
  ⟨_, _, getLoop_stops s t⟩

/-- A walk that ended inside `a`, or at a node that does not continue into `b`, does not see
`b`. -/
theorem Stops.append {t n : KNode} {a b : Str} {k : Nat} (h : Stops t a n k)
    (hb : k = a.length → ∀ c, b.head? = some c → n.find_transition_node (toAsciiLowercase c) = none) :
    Stops t (a ++ b) n k := by
  refine ⟨by have := h.le; simp; omega, ?_, ?_⟩
  · rw [List.take_append_of_le_length h.le]; exact h.walk
  · intro c hc
    by_cases hk : k = a.length
    · apply hb hk c
      rw [hk] at hc
      simpa using hc
    · have hlt : k < a.length := by have := h.le; omega
      apply h.stop c
      rw [List.drop_append_of_le_length (by omega)] at hc
      cases hd : a.drop k with
      | nil =>
        have := congrArg List.length hd
        simp at this; omega
      | cons d ds => rw [hd] at hc; simpa using hc

/-- the converse: dropping text after the stopping point -/
theorem Stops.of_append {t n : KNode} {a b : Str} {k : Nat} (h : Stops t (a ++ b) n k)
    (hk : k ≤ a.length) : Stops t a n k := by
  refine ⟨hk, ?_, ?_⟩
  · have := h.walk
    rwa [List.take_append_of_le_length hk] at this
  · intro c hc
    apply h.stop c
    rw [List.drop_append_of_le_length hk]
    cases hd : a.drop k with
    | nil => rw [hd] at hc; cases hc
    | cons d ds => rw [hd] at hc; simpa using hc

end KNode
end WanaKana
