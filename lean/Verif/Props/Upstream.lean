import Verif.Proofs.Upstream
import Verif.Props.ToKana
import Verif.Spec.Trees
import Verif.Model.UpstreamKanaData
import Verif.Model.UpstreamRomajiData
/-! # The trees: sorting, the generators, and the upstream tables (C69–C73) -/

namespace WanaKana
open Upstream

/-! ## C69 Sorting a tree never changes what is found in it -/

/-- C69: `sort_by_key` returns the same elements, in the order of their keys, and elements with
equal keys keep their order. -/
theorem C69_sort_by_key {β : Type} (l : List (Char × β)) :
    (sortByKey l).Perm l ∧ SortedKeys ((sortByKey l).map fun t => t.1) ∧
      ∀ c, (sortByKey l).filter (fun t => t.1 == c) = l.filter fun t => t.1 == c :=
  ⟨sortByKey_perm l, sortedKeys_sort l, fun c => withKey_sort c l⟩

/-- C69: there is only one such list: any implementation of a stable sort agrees. -/
theorem C69_unique {β : Type} (l l' : List (Char × β)) (hs : SortedKeys (l'.map fun t => t.1))
    (hk : ∀ c, l'.filter (fun t => t.1 == c) = l.filter fun t => t.1 == c) : l' = sortByKey l :=
  eq_of_withKey hs (sortedKeys_sort l) fun c => (hk c).trans (withKey_sort c l).symm

example : sortByKey [('b', 1), ('a', 2), ('b', 3), ('a', 4)] = [('a', 2), ('a', 4), ('b', 1), ('b', 3)] := by
  decide +kernel

theorem kSortChildren_map (t : List (Char × KNode)) :
    KNode.sortChildren t = t.map fun x => (x.1, x.2.sort) := by
  induction t with
  | nil => rw [KNode.sortChildren]; rfl
  | cons e t ih => obtain ⟨c, n⟩ := e; rw [KNode.sortChildren, ih]; rfl

theorem rSortChildren_map (t : List (Char × RNode)) :
    RNode.sortChildren t = t.map fun x => (x.1, x.2.sort) := by
  induction t with
  | nil => rw [RNode.sortChildren]; rfl
  | cons e t ih => obtain ⟨c, n⟩ := e; rw [RNode.sortChildren, ih]; rfl

theorem kFind_sort (n : KNode) (c : Char) :
    n.sort.find_transition_node c = (n.find_transition_node c).map KNode.sort := by
  obtain ⟨t, o⟩ := n
  rw [KNode.sort]
  simp only [KNode.find_transition_node, KNode.transitions, find_sortByKey, kSortChildren_map,
    List.find?_map, Option.map_map]
  rfl

theorem kOutput_sort (n : KNode) : n.sort.output = n.output := by
  obtain ⟨t, o⟩ := n
  rw [KNode.sort]; rfl

theorem kGetLoop_sort (s : Str) : ∀ (n : KNode) (i : Nat),
    n.sort.getLoop i s = ((n.getLoop i s).1.sort, (n.getLoop i s).2) := by
  induction s with
  | nil => intro n i; rfl
  | cons c s ih =>
    intro n i
    rw [KNode.getLoop, KNode.getLoop, kFind_sort]
    cases n.find_transition_node (toAsciiLowercase c) with
    | none => rfl
    | some m => exact ih m (i + 1)

/-- C69: looking up any text in a sorted kana tree gives the same result as in the unsorted one,
whatever the tree contains. -/
theorem C69_kana_lookup (n : KNode) (s : Str) : n.sort.get s = n.get s := by
  simp only [KNode.get, kGetLoop_sort, kOutput_sort]

theorem kBelow_sort {n m : KNode} (h : Spec.KBelow n.sort m) : ∃ m' : KNode, m = m'.sort := by
  generalize hn : n.sort = a at h
  induction h generalizing n with
  | refl => exact ⟨n, hn.symm⟩
  | step hm hb ih =>
    obtain ⟨t, o⟩ := n
    rw [KNode.sort, kSortChildren_map] at hn
    injection hn with hn _
    rw [← hn] at hm
    have := (sortByKey_perm _).mem_iff.1 hm
    obtain ⟨y, hy, e⟩ := List.mem_map.1 this
    exact ih (n := y.2) (congrArg Prod.snd e)

/-- C69: in a sorted tree all nodes have their children in order. -/
theorem C69_kana_sorted (n : KNode) (t : List (Char × KNode)) (o : Option Str)
    (h : Spec.KBelow n.sort (.mk t o)) : SortedKeys (t.map fun x => x.1) := by
  obtain ⟨m, hm⟩ := kBelow_sort h
  obtain ⟨u, o'⟩ := m
  rw [KNode.sort] at hm
  injection hm with hm _
  rw [hm]
  exact sortedKeys_sort _

theorem rOutput_sort (n : RNode) : n.sort.output = n.output := by
  obtain ⟨t, o⟩ := n
  cases t <;> rw [RNode.sort] <;> rfl

theorem rts_sort (n : RNode) : n.sort.ts = sortByKey (n.ts.map fun x => (x.1, x.2.sort)) := by
  obtain ⟨t, o⟩ := n
  cases t with
  | none => rw [RNode.sort]; rfl
  | some t => rw [RNode.sort, rSortChildren_map]; rfl

theorem rSorted_sort (n : RNode) : SortedKeys (n.sort.ts.map fun t => t.1) := by
  rw [rts_sort]; exact sortedKeys_sort _

theorem ts_some {n : RNode} {c : Char} {x : RNode} (h : (c, x) ∈ n.ts) :
    ∃ t o, n = .mk (some t) o ∧ (c, x) ∈ t := by
  obtain ⟨t, o⟩ := n
  cases t with
  | none => simp [RNode.ts, RNode.transitions] at h
  | some t => exact ⟨t, o, rfl, h⟩

/-- what a search in a sorted tree returns -/
theorem rfind_sort {std : Std} (hstd : std.Lawful) (n : RNode) (c : Char) :
    (n.sort.rfind std c = none ∧ ∀ x, (c, x) ∉ n.ts) ∨
    ∃ x, n.sort.rfind std c = some x.sort ∧ (c, x) ∈ n.ts := by
  cases h : n.sort.rfind std c with
  | none =>
    left
    refine ⟨rfl, ?_⟩
    intro x hx
    apply RNode.rfind_none hstd (rSorted_sort n) h x.sort
    rw [rts_sort, (sortByKey_perm _).mem_iff]
    exact List.mem_map.2 ⟨_, hx, rfl⟩
  | some y =>
    right
    have := RNode.rfind_mem hstd (rSorted_sort n) h
    rw [rts_sort, (sortByKey_perm _).mem_iff] at this
    obtain ⟨x, hx, e⟩ := List.mem_map.1 this
    have e1 := congrArg Prod.fst e
    have e2 := congrArg Prod.snd e
    simp only at e1 e2
    refine ⟨x.2, by rw [e2], ?_⟩
    rw [← e1]; exact hx

theorem distinct_child {n : RNode} (h : Spec.Distinct n) {c : Char} {x : RNode} (hx : (c, x) ∈ n.ts) :
    Spec.Distinct x ∧ Spec.child n c = some x := by
  obtain ⟨t, o, rfl, ht⟩ := ts_some hx
  refine ⟨fun t' o' hb => h t' o' (.step ht hb), ?_⟩
  have hn := h t o (.refl _)
  simp only [Spec.child, RNode.transitions]
  clear h hx
  induction t with
  | nil => cases ht
  | cons e t ih =>
    obtain ⟨d, y⟩ := e
    simp only [List.map_cons, List.nodup_cons] at hn
    rcases List.mem_cons.1 ht with e | ht'
    · cases e; simp
    · have hne : (c == d) = false := by
        rw [beq_eq_false_iff_ne]
        intro e; subst e
        exact hn.1 (List.mem_map.2 ⟨(c, x), ht', rfl⟩)
      rw [List.lookup_cons, hne]
      exact ih ht' hn.2

theorem child_none {n : RNode} {c : Char} (h : ∀ x, (c, x) ∉ n.ts) : Spec.child n c = none := by
  obtain ⟨t, o⟩ := n
  cases t with
  | none => rfl
  | some t =>
    simp only [Spec.child, RNode.transitions]
    rw [List.lookup_eq_none_iff]
    intro e he
    obtain ⟨d, x⟩ := e
    rw [bne_iff_ne]
    intro hc
    simp only at hc
    subst hc
    exact h x he

/-- C69: looking up any text in a sorted romaji tree in which no node lists a character twice
gives what reading the unsorted tree gives, for every conforming binary search. -/
theorem C69_romaji_lookup {std : Std} (hstd : std.Lawful) (n : RNode) (hn : Spec.Distinct n) (s : Str) :
    n.sort.get std s = .ok ((Spec.readTree n s).1.output, (Spec.readTree n s).2) := by
  have key : ∀ (s : Str) (n : RNode) (i : Nat), Spec.Distinct n →
      n.sort.getLoop std i s = .ok ((Spec.readTree n s).1.sort, i + (Spec.readTree n s).2) := by
    intro s
    induction s with
    | nil => intro n i _; rfl
    | cons c s ih =>
      intro n i hn
      rw [RNode.getLoop, RNode.find_ok hstd (rSorted_sort n), Spec.readTree]
      rcases rfind_sort hstd n c with ⟨h1, h2⟩ | ⟨x, h1, h2⟩
      · rw [h1, child_none h2]; rfl
      · obtain ⟨h3, h4⟩ := distinct_child hn h2
        rw [h1, h4]
        simp only [bind, Except.bind]
        rw [ih x (i + 1) h3]
        have : i + 1 + (Spec.readTree x s).2 = i + ((Spec.readTree x s).2 + 1) := by omega
        rw [this]
  rw [RNode.get, key s n 0 hn]
  simp only [bind, Except.bind, rOutput_sort]
  rw [Nat.zero_add]

/-- C69: in any tree (also with characters listed twice) a lookup succeeds and its result lies
on a path spelled by the text, at a node that cannot be continued. -/
theorem C69_romaji_path {std : Std} (hstd : std.Lawful) (n : RNode) (s : Str) :
    ∃ m k, n.sort.get std s = .ok (m.output, k) ∧ k ≤ s.length ∧ Spec.Path n (s.take k) m ∧
      ∀ c, (s.drop k).head? = some c → Spec.child m c = none := by
  have key : ∀ (s : Str) (n : RNode) (i : Nat), ∃ m k, n.sort.getLoop std i s = .ok (m.sort, i + k) ∧
      k ≤ s.length ∧ Spec.Path n (s.take k) m ∧
      ∀ c, (s.drop k).head? = some c → Spec.child m c = none := by
    intro s
    induction s with
    | nil => intro n i; exact ⟨n, 0, rfl, Nat.le_refl _, .nil _, by simp⟩
    | cons c s ih =>
      intro n i
      rw [RNode.getLoop, RNode.find_ok hstd (rSorted_sort n)]
      rcases rfind_sort hstd n c with ⟨h1, h2⟩ | ⟨x, h1, h2⟩
      · rw [h1]
        refine ⟨n, 0, rfl, Nat.zero_le _, .nil _, ?_⟩
        intro d hd
        simp only [List.drop_zero, List.head?_cons, Option.some.injEq] at hd
        rw [← hd]; exact child_none h2
      · obtain ⟨t, o, rfl, ht⟩ := ts_some h2
        rw [h1]
        obtain ⟨m, k, h3, h4, h5, h6⟩ := ih x (i + 1)
        refine ⟨m, k + 1, ?_, by simpa using h4, .cons ht h5, by simpa using h6⟩
        simp only [bind, Except.bind]
        rw [h3]
        have : i + 1 + k = i + (k + 1) := by omega
        rw [this]
  obtain ⟨m, k, h1, h2⟩ := key s n 0
  refine ⟨m, k, ?_, h2⟩
  rw [RNode.get, h1]
  simp only [bind, Except.bind, rOutput_sort]
  rw [Nat.zero_add]

/-! a tree with unsorted children, in which both theorems apply -/
example : Spec.Distinct (.mk (some [('b', .mk none ['B']), ('a', .mk none ['A'])]) []) := by
  intro t o h
  cases h with
  | refl => decide
  | step hm hb =>
    simp only [List.mem_cons, List.not_mem_nil, or_false, Prod.mk.injEq] at hm
    rcases hm with ⟨-, rfl⟩ | ⟨-, rfl⟩ <;> cases hb

example : KNode.get (KNode.sort (.mk [('b', .mk [] (some ['B'])), ('a', .mk [] (some ['A']))] none)) ['A', 'b'] =
    (some ['A'], 1) := by decide +kernel

/-! ## C70 The kana generator turns a table into a tree that is read the same way -/

/-- C70: the generator succeeds exactly on tables, and panics on anything else. -/
theorem C70_total (j : Json) : if Spec.isKanaTable j = true then ∃ t, kanaGet j = .ok t
    else kanaGet j = .error .panic := by
  rcases kanaGet_total j with ⟨t, h1, h2⟩ | ⟨h1, h2⟩
  · rw [if_pos h2]; exact ⟨t, h1⟩
  · rw [if_neg (by rw [h2]; simp)]; exact h1

/-- C70: what is found in the generated tree for a text is what the table says, provided that the
keys beginning with letters of the text are single letters. -/
theorem C70_lookup (j : Json) (t : List (Char × KNode)) (p : Char → Bool) (s : Str)
    (h : kanaGet j = .ok t) (hk : Spec.singleKeys p j = true)
    (hs : ∀ c ∈ s, p (toAsciiLowercase c) = true) :
    (KNode.mk t none).get s = Spec.lookup j (s.map toAsciiLowercase) := by
  obtain ⟨h1, h2⟩ := kanaGet_getLoop s none h hk hs
  simp only [KNode.get, h1, h2, Spec.lookup]
  generalize Spec.walk j (s.map toAsciiLowercase) = w
  obtain ⟨v, n⟩ := w
  cases n with
  | zero => rfl
  | succ n =>
    simp only [if_neg (Nat.succ_ne_zero n)]
    cases Spec.entry v <;> rfl

/-- C70: every object built by `json!` from objects built by `json!` has its keys in order and
without repetition. -/
theorem C70_object (entries : List (Str × Json)) (h : ∀ e ∈ entries, Spec.mapped e.2 = true) :
    Spec.mapped (object entries) = true := by
  have key : ∀ (entries : List (Str × Json)) (m : List (Str × Json)),
      (∀ e ∈ entries, Spec.mapped e.2 = true) → Spec.ascending (m.map fun e => e.1) = true →
      Spec.mappedIn m = true →
      Spec.mapped (.obj (entries.foldl (fun m e => mapInsert m e.1 e.2) m)) = true := by
    intro entries
    induction entries with
    | nil =>
      intro m _ h1 h2
      rw [List.foldl_nil, Spec.mapped, h1, h2]; rfl
    | cons e es ih =>
      intro m h h1 h2
      rw [List.foldl_cons]
      exact ih _ (fun e' he => h e' (by simp [he])) (mapInsert_ascending h1)
        (mapInsert_mappedIn h2 (h e (by simp)))
  exact key entries [] h rfl (by rw [Spec.mappedIn])

/-- C70: a later entry of a `json!` literal replaces an earlier one with the same key. -/
theorem C70_object_get (entries : List (Str × Json)) (k : Str) (v : Json) (x : Str)
    (h : ∀ e ∈ entries, Spec.mapped e.2 = true) :
    Spec.field (object (entries ++ [(k, v)])) x =
      if x = k then some v else Spec.field (object entries) x := by
  have hm := C70_object entries h
  rw [object, Spec.mapped, Bool.and_eq_true] at hm
  simp only [object, List.foldl_append, List.foldl_cons, List.foldl_nil, Spec.field]
  exact lookup_mapInsert _ _ _ hm.1 _

/-- C70: the generated tree is already sorted, for any keys: `sort` leaves it alone. -/
theorem C70_sorted (j : Json) (t : List (Char × KNode)) (h : kanaGet j = .ok t)
    (hm : Spec.mapped j = true) (o : Option Str) : (KNode.mk t o).sort = .mk t o := by
  obtain ⟨h1, h2⟩ := kana_sort_children j t h hm
  rw [KNode.sort, h1, sortByKey_of_sorted h2]

/-- C70: keys of several letters lose all but the first: the children of the root are the first
letters of the keys of the table. -/
theorem C70_keys (m : List (Str × Json)) (t : List (Char × KNode)) (h : kanaGet (.obj m) = .ok t) :
    t.map (fun x => x.1) = m.filterMap fun e => e.1.head? := by
  rw [kanaGet] at h
  exact kanaGetLoop_keys h

/-! The hypotheses are met by the upstream table, and by tables with long keys; a table that is
not sorted in the source is sorted by `json!`. -/
example : Spec.isKanaTable kanaVal = true ∧ Spec.mapped kanaVal = true ∧
    Spec.singleKeys (fun _ => true) kanaVal = true := by decide +kernel
example : Spec.isKanaTable (object [(['a'], .other)]) = false ∧
    Spec.isKanaTable (object [(['a'], object [])]) = true := by decide +kernel
example : (object [(['b'], .str ['1']), (['a', 'x'], .other), (['b'], .str ['2'])]).as_object.map
    (fun m => m.map fun e => e.1) = some [['a', 'x'], ['b']] := by decide +kernel

/-! ## C71 The romaji generator turns a table into a tree that is read the same way -/

/-- C71: the generator succeeds exactly on tables in which every object below the root stores a
result, and panics on anything else. -/
theorem C71_total (j : Json) : if Spec.isRomajiTable j = true then ∃ t, romajiGet j = .ok t
    else romajiGet j = .error .panic := by
  rcases romajiGet_total j with ⟨t, h1, h2⟩ | ⟨h1, h2⟩
  · rw [if_pos h2]; exact ⟨t, h1⟩
  · rw [if_neg (by rw [h2]; simp)]; exact h1

/-- C71: what is found in the generated tree for a text is what the table says, for every
conforming binary search, provided that the keys beginning with letters of the text are single
letters. -/
theorem C71_lookup {std : Std} (hstd : std.Lawful) (j : Json) (t : Option (List (Char × RNode)))
    (p : Char → Bool) (s : Str) (h : romajiGet j = .ok t) (hm : Spec.mapped j = true)
    (hk : Spec.singleKeys p j = true) (hs : ∀ c ∈ s, p c = true) :
    (RNode.mk t []).get std s = .ok (match Spec.lookup j s with
      | (some o, n) => (o, n)
      | (none, _) => ([], 0)) := by
  obtain ⟨n, h1, h2⟩ := romajiGet_getLoop hstd s [] 0 h hk hm hs
  rw [RNode.get, h1]
  simp only [bind, Except.bind, Spec.lookup]
  generalize Spec.walk j s = w at h2
  obtain ⟨v, k⟩ := w
  cases k with
  | zero => simp only [if_true] at h2; rw [h2]; rfl
  | succ k =>
    simp only [if_neg (Nat.succ_ne_zero k)] at h2
    simp only [h2, Nat.zero_add]

/-- C71: the generated tree is already sorted, for any keys: `sort` leaves it alone. -/
theorem C71_sorted (j : Json) (t : Option (List (Char × RNode))) (h : romajiGet j = .ok t)
    (hm : Spec.mapped j = true) (o : Str) : (RNode.mk t o).sort = .mk t o :=
  (romaji_sort_children j t h hm o).1

/-- C71: keys of several letters lose all but the first. -/
theorem C71_keys (m : List (Str × Json)) (t : Option (List (Char × RNode)))
    (h : romajiGet (.obj m) = .ok t) :
    (t.getD []).map (fun x => x.1) = m.filterMap fun e => e.1.head? := by
  rw [romajiGet] at h
  cases hl : romajiGetLoop m with
  | error e => rw [hl] at h; cases h
  | ok l =>
    rw [hl] at h
    cases h
    rw [← romajiGetLoop_keys hl]
    cases l <;> rfl

example : Spec.isRomajiTable romajiVal = true ∧ Spec.mapped romajiVal = true ∧
    Spec.singleKeys (fun c => c != 'ゔ') romajiVal = true ∧
    Spec.singleKeys (fun _ => true) romajiVal = false := by decide +kernel

/-! ## C72 The kana tree is the upstream table -/

set_option maxRecDepth 100000 in
theorem upstream_kana : kanaGet kanaVal = .ok kanaTransitions := by
  with_unfolding_all exact rfl

theorem kanaVal_mapped : Spec.mapped kanaVal = true := by decide +kernel
theorem kanaVal_single : Spec.singleKeys (fun _ => true) kanaVal = true := by decide +kernel

/-- C72: the literal of src/to_kana_node_tree.rs is the output of the generator, and sorting does
not change it. -/
theorem C72_tree : kanaGet kanaVal = .ok kanaTransitions ∧
    TO_KANA_NODE_TREE = .mk kanaTransitions none :=
  ⟨upstream_kana, C70_sorted kanaVal _ upstream_kana kanaVal_mapped none⟩

/-- C72: every lookup of `to_kana` (with default options) is a lookup in the upstream table. -/
theorem C72_lookup (s : Str) : TO_KANA_NODE_TREE.get s = Spec.lookup kanaVal (s.map toAsciiLowercase) := by
  rw [C72_tree.2]
  exact C70_lookup kanaVal _ _ s upstream_kana kanaVal_single fun _ _ => rfl

/-- C72: `to_kana` is greedy transliteration with the upstream table: where the table has a result
for the text read from the current position, that result is emitted (as katakana if all of the
letters read are capitals); otherwise one character is copied. -/
theorem C72_to_kana {std : Std} (hstd : std.Lawful) (c : Char) (s : Str) :
    ∃ r, match Spec.lookup kanaVal ((c :: s).map toAsciiLowercase) with
      | (some o, n) => 0 < n ∧ to_kana std ((c :: s).drop n) = .ok r ∧
          to_kana std (c :: s) = .ok ((if ((c :: s).take n).all
            (fun d => decide ('A'.toNat ≤ d.toNat ∧ d.toNat ≤ 'Z'.toNat)) then o.map Spec.toKata else o) ++ r)
      | (none, _) => to_kana std s = .ok r ∧ to_kana std (c :: s) = .ok (c :: r) := by
  rw [← C72_lookup]
  obtain ⟨n, k, hst⟩ := KNode.exists_stops (tree .normal) (c :: s)
  have hget := KNode.get_of_stops hst
  simp only [tree] at hget
  rw [hget]
  simp only [to_kana, to_kana_eq hstd]
  cases ho : n.output with
  | none => exact ⟨_, rfl, congrArg Except.ok (kana_miss hst ho)⟩
  | some o =>
    refine ⟨_, stops_pos hst ho, rfl, ?_⟩
    refine congrArg Except.ok ?_
    rw [show modeOf {} = .normal from rfl, kana_hit hst ho, toKata_eq]
    rfl

/-! `KYA` is found as `kya`, in three letters -/
example : Spec.lookup kanaVal (['K', 'Y', 'A', 'n'].map toAsciiLowercase) = (some ['き', 'ゃ'], 3) := by
  decide +kernel

/-! ## C73 The romaji tree is the upstream table with two rows added and eight damaged -/

/-- the rows added by hand: src/to_romaji_node_tree.rs lists ゎ and ヷ, which the upstream table
does not have -/
def addedRows : List (Str × Json) :=
  [(['ゎ'], object [([], .str ['w', 'a'])]), (['ヷ'], object [([], .str ['v', 'a'])])]

/-- the upstream table with the added rows -/
def romajiFull : Json :=
  match romajiVal with
  | .obj m => .obj (addedRows.foldl (fun m e => mapInsert m e.1 e.2) m)
  | j => j

set_option maxRecDepth 100000 in
theorem upstream_romaji : (romajiGet romajiFull).map (fun t => RNode.mk t []) = .ok TO_ROMAJI_NODE_TREE := by
  with_unfolding_all exact rfl

theorem romajiFull_mapped : Spec.mapped romajiFull = true := by decide +kernel
theorem romajiFull_single : Spec.singleKeys (fun c => c != 'ゔ') romajiFull = true := by decide +kernel

/-- C73: the tree used by `to_romaji` is the output of the generator for the upstream table with
the two added rows. -/
theorem C73_tree : ∃ t, romajiGet romajiFull = .ok t ∧ TO_ROMAJI_NODE_TREE = .mk t [] := by
  have h := upstream_romaji
  cases hr : romajiGet romajiFull with
  | error e => rw [hr] at h; cases h
  | ok t =>
    rw [hr] at h
    have h : Except.ok (RNode.mk t []) = (Except.ok TO_ROMAJI_NODE_TREE : Res RNode) := h
    injection h with h
    exact ⟨t, rfl, h.symm⟩

/-- C73: the added rows are new, and nothing else differs from the upstream table. -/
theorem C73_added (k : Str) : Spec.field romajiFull k =
    if k = ['ヷ'] then some (object [([], .str ['v', 'a'])])
    else if k = ['ゎ'] then some (object [([], .str ['w', 'a'])])
    else Spec.field romajiVal k := by
  obtain ⟨m, hm⟩ : ∃ m, romajiVal = .obj m := ⟨_, rfl⟩
  have hmap : Spec.mapped romajiVal = true := by decide +kernel
  rw [hm, Spec.mapped, Bool.and_eq_true] at hmap
  simp only [romajiFull, hm, addedRows, List.foldl_cons, List.foldl_nil, Spec.field]
  rw [lookup_mapInsert _ _ _ (mapInsert_ascending hmap.1), lookup_mapInsert _ _ _ hmap.1]

theorem C73_added_new : Spec.field romajiVal ['ヷ'] = none ∧ Spec.field romajiVal ['ゎ'] = none := by
  have h : (Spec.field romajiVal ['ヷ']).isNone && (Spec.field romajiVal ['ゎ']).isNone = true := by
    decide +kernel
  simpa using h

/-- C73: for texts without ゔ every lookup of `to_romaji` is a lookup in the upstream table with
the added rows, for every conforming binary search. -/
theorem C73_lookup {std : Std} (hstd : std.Lawful) (s : Str) (hs : 'ゔ' ∉ s) :
    TO_ROMAJI_NODE_TREE.get std s = .ok (match Spec.lookup romajiFull s with
      | (some o, n) => (o, n)
      | (none, _) => ([], 0)) := by
  obtain ⟨t, h1, h2⟩ := C73_tree
  rw [h2]
  refine C71_lookup hstd romajiFull t (fun c => c != 'ゔ') s h1 romajiFull_mapped romajiFull_single ?_
  intro c hc
  rw [bne_iff_ne]
  intro e; subst e
  exact hs hc

example : Spec.lookup romajiFull ['き', 'ゃ', 'く'] = (some ['k', 'y', 'a'], 2) := by decide +kernel

theorem path_mem_paths {n m : RNode} {p : Str} (h : Spec.Path n p m) : (p, m) ∈ n.paths := by
  induction h with
  | nil n => exact RNode.self_mem_paths n
  | cons hm _ ih => exact RNode.child_mem_paths (n := .mk (some _) _) hm ih

/-- the rows of the upstream table with keys of two letters: the letters before the key, the key,
the result -/
def longRows : List (Str × Str × Str) :=
  [([], ['ゔ', 'ぁ'], ['v', 'a']), ([], ['ゔ', 'ぃ'], ['v', 'i']), ([], ['ゔ', 'ぇ'], ['v', 'e']),
   ([], ['ゔ', 'ぉ'], ['v', 'o']), (['っ'], ['ゔ', 'ぁ'], ['v', 'v', 'a']),
   (['っ'], ['ゔ', 'ぃ'], ['v', 'v', 'i']), (['っ'], ['ゔ', 'ぇ'], ['v', 'v', 'e']),
   (['っ'], ['ゔ', 'ぉ'], ['v', 'v', 'o'])]

/-- C73: the upstream table has results for ゔぁ ゔぃ ゔぇ ゔぉ and for っゔぁ …, stored under keys of
two letters, but in the tree no lookup of a text beginning with them returns this result for these
letters, whatever the binary search. -/
theorem C73_damaged {std : Std} (hstd : std.Lawful) (pre key out rest : Str)
    (h : (pre, key, out) ∈ longRows) :
    (∃ v, Spec.field (Spec.walk romajiVal pre).1 key = some v ∧ Spec.entry v = some out) ∧
    (Spec.walk romajiVal pre).2 = pre.length ∧
    TO_ROMAJI_NODE_TREE.get std (pre ++ key ++ rest) ≠ .ok (out, (pre ++ key).length) := by
  have h1 : (longRows.all fun r => decide ((Spec.field (Spec.walk romajiVal r.1).1 r.2.1).bind Spec.entry = some r.2.2) &&
      decide ((Spec.walk romajiVal r.1).2 = r.1.length)) = true := by decide +kernel
  have h1 := List.all_eq_true.1 h1 _ h
  simp only [Bool.and_eq_true, decide_eq_true_iff] at h1
  refine ⟨?_, h1.2, ?_⟩
  · have h3 := h1.1
    cases hf : Spec.field (Spec.walk romajiVal pre).1 key with
    | none => rw [hf] at h3; cases h3
    | some v => rw [hf] at h3; exact ⟨v, rfl, h3⟩
  · intro hg
    obtain ⟨m, k, h2, -, h4, -⟩ := C69_romaji_path hstd (RNode.mk (some romajiTransitions) []) (pre ++ key ++ rest)
    rw [TO_ROMAJI_NODE_TREE, h2] at hg
    injection hg with hg
    injection hg with ho hk
    rw [hk, List.take_left] at h4
    have hall : (longRows.all fun r => (RNode.mk (some romajiTransitions) []).paths.all fun x =>
        !(decide (x.1 = r.1 ++ r.2.1) && decide (x.2.output = r.2.2))) = true := by decide +kernel
    have := List.all_eq_true.1 (List.all_eq_true.1 hall _ h) _ (path_mem_paths h4)
    simp [ho] at this

end WanaKana
