import Verif.Model.Trees
import Verif.Proofs.Chars
import Verif.Proofs.KanaTrie
/-! # Walking the kana → romaji trie with any conforming binary search -/

namespace WanaKana
namespace RNode

/-- transitions as a list -/
def ts (n : RNode) : List (Char × RNode) := n.transitions.getD []

mutual
/-- all nodes with the path leading to them (all duplicates included) -/
def paths : RNode → List (Str × RNode)
  | mk none o => [([], mk none o)]
  | mk (some t) o => ([], mk (some t) o) :: pathsList t
def pathsList : List (Char × RNode) → List (Str × RNode)
  | [] => []
  | (c, n) :: rest => (paths n).map (fun x => (c :: x.1, x.2)) ++ pathsList rest
end

theorem mem_pathsList {c : Char} {n : RNode} {p : Str} {m : RNode} (h : (p, m) ∈ paths n) :
    ∀ {t : List (Char × RNode)}, (c, n) ∈ t → (c :: p, m) ∈ pathsList t := by
  intro t
  induction t with
  | nil => intro h; cases h
  | cons a t ih =>
    obtain ⟨d, k⟩ := a
    intro hm
    rw [pathsList]
    rcases List.mem_cons.1 hm with e | hm
    · cases e
      exact List.mem_append_left _ (List.mem_map.2 ⟨(p, m), h, rfl⟩)
    · exact List.mem_append_right _ (ih hm)

theorem self_mem_paths (n : RNode) : ([], n) ∈ n.paths := by
  obtain ⟨t, o⟩ := n
  cases t with
  | none => rw [paths]; exact List.mem_cons_self
  | some t => rw [paths]; exact List.mem_cons_self

theorem child_mem_paths {n x m : RNode} {c : Char} {p : Str} (h : (c, x) ∈ n.ts) (hm : (p, m) ∈ x.paths) :
    (c :: p, m) ∈ n.paths := by
  obtain ⟨t, o⟩ := n
  cases t with
  | none => simp [ts, transitions] at h
  | some t => rw [paths]; exact List.mem_cons_of_mem _ (mem_pathsList hm h)

/-- sortedness as a boolean -/
def sortedB : List Char → Bool
  | [] => true
  | x :: xs => xs.all (fun y => decide (x.toNat ≤ y.toNat)) && sortedB xs

theorem sortedB_iff {l : List Char} (h : sortedB l = true) : SortedKeys l := by
  induction l with
  | nil => trivial
  | cons x xs ih =>
    simp only [sortedB, Bool.and_eq_true, List.all_eq_true, decide_eq_true_iff] at h
    exact ⟨h.1, ih h.2⟩

/-- every node of the tree has sorted keys -/
def AllSorted (t : RNode) : Prop := ∀ x ∈ t.paths, SortedKeys (x.2.ts.map fun t => t.1)

theorem AllSorted.child {n x : RNode} {c : Char} (h : AllSorted n) (hx : (c, x) ∈ n.ts) : AllSorted x :=
  fun y hy => h (c :: y.1, y.2) (child_mem_paths hx hy)

/-- the child chosen by the binary search -/
def rfind (std : Std) (n : RNode) (c : Char) : Option RNode :=
  (std.binarySearch (n.ts.map fun t => t.1) c).bind fun i => (n.ts[i]?).map fun t => t.2

theorem rfind_mem {std : Std} (hstd : std.Lawful) {n : RNode} (hs : SortedKeys (n.ts.map fun t => t.1))
    {c : Char} {x : RNode} (h : n.rfind std c = some x) : (c, x) ∈ n.ts := by
  unfold rfind at h
  cases hb : std.binarySearch (n.ts.map fun t => t.1) c with
  | none => rw [hb] at h; cases h
  | some i =>
    rw [hb] at h
    have hk := hstd.binarySearch_some _ _ _ hs hb
    rw [List.getElem?_map] at hk
    simp only [Option.bind] at h
    cases ht : n.ts[i]? with
    | none => rw [ht] at h; cases h
    | some e =>
      rw [ht] at h hk
      simp at h hk
      subst h hk
      exact List.mem_of_getElem? ht

theorem rfind_none {std : Std} (hstd : std.Lawful) {n : RNode} (hs : SortedKeys (n.ts.map fun t => t.1))
    {c : Char} (h : n.rfind std c = none) : ∀ x, (c, x) ∉ n.ts := by
  unfold rfind at h
  cases hb : std.binarySearch (n.ts.map fun t => t.1) c with
  | none =>
    have := hstd.binarySearch_none _ _ hs hb
    intro x hx
    exact this (List.mem_map.2 ⟨_, hx, rfl⟩)
  | some i =>
    have hk := hstd.binarySearch_some _ _ _ hs hb
    rw [List.getElem?_map] at hk
    rw [hb] at h
    simp only [Option.bind] at h
    cases ht : n.ts[i]? with
    | none => rw [ht] at hk; cases hk
    | some e => rw [ht] at h; cases h

/-- `find_transition_node` never panics. -/
theorem find_ok {std : Std} (hstd : std.Lawful) {n : RNode} (hs : SortedKeys (n.ts.map fun t => t.1))
    (c : Char) : n.find_transition_node std c = .ok (n.rfind std c) := by
  obtain ⟨t, o⟩ := n
  cases t with
  | none =>
    unfold find_transition_node rfind
    simp only [transitions, ts, Option.getD_none, List.map_nil]
    cases hb : std.binarySearch [] c with
    | none => rfl
    | some i =>
      have := hstd.binarySearch_some [] c i trivial hb
      simp at this
  | some t =>
    unfold find_transition_node rfind
    simp only [transitions, ts, Option.getD_some] at hs ⊢
    cases hb : std.binarySearch (t.map fun t => t.1) c with
    | none => rfl
    | some i =>
      have hk := hstd.binarySearch_some _ _ _ hs hb
      rw [List.getElem?_map] at hk
      cases ht : t[i]? with
      | none => rw [ht] at hk; cases hk
      | some e =>
        simp only [index, ht, unwrap, Option.bind]
        rfl

/-- the node reached by following all of `p` -/
def rwalk (std : Std) (t : RNode) : Str → Option RNode
  | [] => some t
  | c :: cs => match t.rfind std c with
    | some n => n.rwalk std cs
    | none => none

theorem rwalk_mem_paths {std : Std} (hstd : std.Lawful) (p : Str) : ∀ {t n : RNode}, AllSorted t →
    t.rwalk std p = some n → (p, n) ∈ t.paths := by
  induction p with
  | nil => intro t n _ h; cases h; exact self_mem_paths t
  | cons c cs ih =>
    intro t n hs h
    simp only [rwalk] at h
    cases hf : t.rfind std c with
    | none => rw [hf] at h; cases h
    | some x =>
      rw [hf] at h
      have hm := rfind_mem hstd (hs _ (self_mem_paths t)) hf
      exact child_mem_paths hm (ih (hs.child hm) h)

theorem rwalk_append {std : Std} (p q : Str) : ∀ (t : RNode),
    t.rwalk std (p ++ q) = (t.rwalk std p).bind fun n => n.rwalk std q := by
  induction p with
  | nil => intro t; rfl
  | cons c p ih =>
    intro t
    simp only [List.cons_append, rwalk]
    cases t.rfind std c with
    | none => rfl
    | some n => exact ih n

theorem rwalk_singleton {std : Std} (t : RNode) (c : Char) : t.rwalk std [c] = t.rfind std c := by
  simp only [rwalk]
  cases t.rfind std c <;> rfl

/-- reading `s` from `t`, the walk ends in node `n` after `k` characters -/
structure RStops (std : Std) (t : RNode) (s : Str) (n : RNode) (k : Nat) : Prop where
  le : k ≤ s.length
  walk : t.rwalk std (s.take k) = some n
  stop : ∀ c, (s.drop k).head? = some c → n.rfind std c = none

theorem rgetLoop_ok {std : Std} (hstd : std.Lawful) (s : Str) : ∀ {t : RNode} (i : Nat), AllSorted t →
    ∃ n k, t.getLoop std i s = .ok (n, i + k) ∧ RStops std t s n k := by
  induction s with
  | nil => intro t i _; exact ⟨t, 0, rfl, by simp, rfl, by simp⟩
  | cons c s ih =>
    intro t i hs
    have hf := find_ok hstd (hs _ (self_mem_paths t)) c
    simp only [getLoop, hf]
    cases hr : t.rfind std c with
    | none => exact ⟨t, 0, rfl, by simp, rfl, by intro d hd; simp at hd; subst hd; exact hr⟩
    | some x =>
      have hm := rfind_mem hstd (hs _ (self_mem_paths t)) hr
      obtain ⟨n, k, h1, h2⟩ := ih (i + 1) (hs.child hm)
      refine ⟨n, k + 1, ?_, ?_, ?_, ?_⟩
      · show x.getLoop std (i + 1) s = _
        rw [h1]
        congr 2; omega
      · have := h2.le; simpa using this
      · simp only [List.take_succ_cons, rwalk, hr]; exact h2.walk
      · simpa using h2.stop

theorem rget_ok {std : Std} (hstd : std.Lawful) {t : RNode} (hs : AllSorted t) (s : Str) :
    ∃ n k, t.get std s = .ok (n.output, k) ∧ RStops std t s n k := by
  obtain ⟨n, k, h1, h2⟩ := rgetLoop_ok hstd s 0 hs
  refine ⟨n, k, ?_, h2⟩
  unfold get
  rw [h1]
  simp only [Nat.zero_add]
  rfl

theorem rstops_unique {std : Std} (s : Str) : ∀ {t n n' : RNode} {k k' : Nat},
    RStops std t s n k → RStops std t s n' k' → n = n' ∧ k = k' := by
  induction s with
  | nil =>
    intro t n n' k k' h h'
    have hk : k = 0 := by have := h.le; simpa using this
    have hk' : k' = 0 := by have := h'.le; simpa using this
    subst hk hk'
    have h1 := h.walk; have h2 := h'.walk
    rw [h1] at h2
    simp at h2
    exact ⟨h2, rfl⟩
  | cons c s ih =>
    intro t n n' k k' h h'
    have h1 := h.walk; have h2 := h'.walk
    cases k with
    | zero =>
      simp only [List.take_zero, rwalk, Option.some.injEq] at h1
      subst h1
      have hs := h.stop c (by simp)
      cases k' with
      | zero =>
        simp only [List.take_zero, rwalk, Option.some.injEq] at h2
        exact ⟨h2, rfl⟩
      | succ k' => simp only [List.take_succ_cons, rwalk, hs] at h2; cases h2
    | succ k =>
      cases k' with
      | zero =>
        simp only [List.take_zero, rwalk, Option.some.injEq] at h2
        subst h2
        have hs := h'.stop c (by simp)
        simp only [List.take_succ_cons, rwalk, hs] at h1; cases h1
      | succ k' =>
        simp only [List.take_succ_cons, rwalk] at h1 h2
        cases hf : t.rfind std c with
        | none => rw [hf] at h1; cases h1
        | some x =>
          rw [hf] at h1 h2
          have a1 : RStops std x s n k := ⟨by have := h.le; simpa using this, h1, by
            have := h.stop; simpa using this⟩
          have a2 : RStops std x s n' k' := ⟨by have := h'.le; simpa using this, h2, by
            have := h'.stop; simpa using this⟩
          obtain ⟨e1, e2⟩ := ih a1 a2
          exact ⟨e1, by omega⟩

/-- A walk that ended inside `a`, or at a node that does not continue into `b`, does not see
`b`. -/
theorem RStops.append {std : Std} {t n : RNode} {a b : Str} {k : Nat} (h : RStops std t a n k)
    (hb : k = a.length → ∀ c, b.head? = some c → n.rfind std c = none) :
    RStops std t (a ++ b) n k := by
  refine ⟨by have := h.le; simp; omega, ?_, ?_⟩
  · rw [List.take_append_of_le_length h.le]; exact h.walk
  · intro c hc
    by_cases hk : k = a.length
    · apply hb hk c
      rw [hk] at hc
      simpa using hc
    · have hlt : k < a.length := by have := h.le; omega
      apply h.stop c
      rw [List.drop_append_of_le_length (by omega)] at hc
      cases hd : a.drop k with
      | nil =>
        have := congrArg List.length hd
        simp at this; omega
      | cons d ds => rw [hd] at hc; simpa using hc

end RNode

open RNode

theorem romaji_sorted : AllSorted TO_ROMAJI_NODE_TREE := by
  have h : (TO_ROMAJI_NODE_TREE.paths.all fun x => sortedB (x.2.ts.map fun t => t.1)) = true := by
    decide +kernel
  exact fun x hx => sortedB_iff (List.all_eq_true.1 h x hx)

/-- lifting a boolean check of all nodes of the romaji tree -/
theorem rwalk_check {std : Std} (hstd : std.Lawful) {f : Str × RNode → Bool}
    (h : TO_ROMAJI_NODE_TREE.paths.all f = true) {p : Str} {n : RNode}
    (hw : TO_ROMAJI_NODE_TREE.rwalk std p = some n) : f (p, n) = true :=
  List.all_eq_true.1 h _ (rwalk_mem_paths hstd p romaji_sorted hw)

/-- converse for transitions: if a key exists, the walk continues -/
theorem rfind_isSome {std : Std} (hstd : std.Lawful) {p : Str} {n : RNode}
    (hw : TO_ROMAJI_NODE_TREE.rwalk std p = some n) {c : Char} {x : RNode} (hx : (c, x) ∈ n.ts) :
    ∃ y, n.rfind std c = some y := by
  have hs := romaji_sorted _ (rwalk_mem_paths hstd p romaji_sorted hw)
  cases hf : n.rfind std c with
  | some y => exact ⟨y, rfl⟩
  | none => exact absurd hx (rfind_none hstd hs hf x)

end WanaKana
