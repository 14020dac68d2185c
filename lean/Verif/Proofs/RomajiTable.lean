import Verif.Proofs.ToRomaji
import Verif.Spec.ToRomaji
/-! # The romaji tree and the rule-generated table -/

namespace WanaKana
open RNode

/-- the first child for a key -/
def RNode.mfind (n : RNode) (c : Char) : Option RNode := n.ts.lookup c

/-- walk along first children -/
def RNode.mwalk (t : RNode) : Str → Option RNode
  | [] => some t
  | c :: cs => match t.mfind c with
    | some n => n.mwalk cs
    | none => none

theorem lookup_of_mem_unique {α β : Type} [DecidableEq α] [BEq α] [LawfulBEq α] {l : List (α × β)} {a : α} {b : β}
    (h : (a, b) ∈ l) (hu : (l.filter fun x => decide (x.1 = a)).length ≤ 1) : l.lookup a = some b := by
  induction l with
  | nil => cases h
  | cons x l ih =>
    obtain ⟨a', b'⟩ := x
    by_cases he : a' = a
    · subst he
      rw [List.lookup_cons_self]
      rcases List.mem_cons.1 h with e | h
      · cases e; rfl
      · have : (a', b) ∈ l.filter fun x => decide (x.1 = a') := List.mem_filter.2 ⟨h, by simp⟩
        simp only [List.filter_cons, decide_true, if_true, List.length_cons] at hu
        have := List.length_pos_of_mem this
        omega
    · rw [List.lookup_cons]
      have hb : (a == a') = false := by simp [Ne.symm he]
      rw [hb]
      rcases List.mem_cons.1 h with e | h
      · cases e; exact absurd rfl he
      · apply ih h
        simpa [List.filter_cons, he] using hu

theorem lookup_none_iff {α β : Type} [BEq α] [LawfulBEq α] {l : List (α × β)} {a : α}
    (h : ∀ b, (a, b) ∉ l) : l.lookup a = none := by
  induction l with
  | nil => rfl
  | cons x l ih =>
    obtain ⟨a', b'⟩ := x
    rw [List.lookup_cons]
    by_cases he : a' = a
    · subst he; exact absurd List.mem_cons_self (h b')
    · have hb : (a == a') = false := by simp [Ne.symm he]
      rw [hb]
      exact ih fun b hb => h b (List.mem_cons_of_mem _ hb)

/-- Except for ゔ the keys of every node are distinct, so the search has no freedom. -/
theorem rfind_eq_mfind {std : Std} (hstd : std.Lawful) {p : Str} {n : RNode}
    (h : (p, n) ∈ TO_ROMAJI_NODE_TREE.paths) {c : Char} (hc : c ≠ 'ゔ') :
    n.rfind std c = n.mfind c := by
  have hs := romaji_sorted _ h
  cases hf : n.rfind std c with
  | none => exact (lookup_none_iff (rfind_none hstd hs hf)).symm
  | some x =>
    have hm := rfind_mem hstd hs hf
    have huniq : (TO_ROMAJI_NODE_TREE.paths.all fun y => y.2.ts.all fun t =>
        decide (t.1 = 'ゔ') || decide ((y.2.ts.filter fun x => decide (x.1 = t.1)).length ≤ 1)) = true := by
      decide +kernel
    have := List.all_eq_true.1 (List.all_eq_true.1 huniq _ h) _ hm
    simp only [Bool.or_eq_true, decide_eq_true_iff, hc, false_or] at this
    exact (lookup_of_mem_unique hm this).symm

theorem rwalk_eq_mwalk {std : Std} (hstd : std.Lawful) (q : Str) (hq : 'ゔ' ∉ q) :
    TO_ROMAJI_NODE_TREE.rwalk std q = TO_ROMAJI_NODE_TREE.mwalk q := by
  have key : ∀ (p : Str) (t : RNode), TO_ROMAJI_NODE_TREE.rwalk std p = some t →
      t.rwalk std q = t.mwalk q := by
    induction q with
    | nil => intro p t _; rfl
    | cons c q ih =>
      intro p t ht
      have hm := rwalk_mem_paths hstd p romaji_sorted ht
      rw [rwalk, mwalk, rfind_eq_mfind hstd hm (by intro e; apply hq; simp [e])]
      cases hf : t.mfind c with
      | none => rfl
      | some x =>
        apply ih (by intro e; apply hq; simp [e]) (p ++ [c])
        rw [rwalk_append, ht]
        simp only [Option.bind]
        rw [rwalk_singleton, rfind_eq_mfind hstd hm (by intro e; apply hq; simp [e])]
        exact hf
  exact key [] _ rfl

/-- rows whose key starts with `c` -/
def kbucket (c : Char) : Spec.Table :=
  Spec.kanaTable.filter fun x => match x.1 with
    | d :: _ => d == c
    | [] => false

theorem lookup_filter {α β : Type} [BEq α] [LawfulBEq α] (l : List (α × β)) (f : α × β → Bool) (a : α)
    (h : ∀ b, f (a, b) = true) : (l.filter f).lookup a = l.lookup a := by
  induction l with
  | nil => rfl
  | cons x l ih =>
    obtain ⟨a', b'⟩ := x
    rw [List.lookup_cons]
    by_cases he : a = a'
    · subst he
      rw [List.filter_cons_of_pos (h b'), List.lookup_cons_self]
      simp
    · have hb : (a == a') = false := by simp [he]
      rw [hb, List.filter_cons]
      split
      · rw [List.lookup_cons, hb]; exact ih
      · exact ih

theorem lookup_kbucket (c : Char) (q : Str) :
    (kbucket c).lookup (c :: q) = Spec.kanaTable.lookup (c :: q) := by
  apply lookup_filter
  intro b; simp

/-- every node of the tree, as far as it can be reached by first children without ゔ and ヷ, is
in the table with the same output -/
theorem table_of_mwalk {c : Char} {q : Str} {n : RNode} (hv : 'ゔ' ∉ c :: q) (hw : 'ヷ' ∉ c :: q)
    {std : Std} (hstd : std.Lawful)
    (h : TO_ROMAJI_NODE_TREE.rwalk std (c :: q) = some n) :
    Spec.kanaTable.lookup (c :: q) = some n.output := by
  have hc : (TO_ROMAJI_NODE_TREE.ts.all fun t =>
      decide (t.1 = 'ヷ') || decide (t.1 = 'ゔ') ||
      let b := kbucket t.1
      t.2.paths.all fun x => x.1.contains 'ゔ' || decide (b.lookup (t.1 :: x.1) = some x.2.output)) = true := by
    decide +kernel
  rw [rwalk] at h
  cases hf : TO_ROMAJI_NODE_TREE.rfind std c with
  | none => rw [hf] at h; cases h
  | some x =>
    rw [hf] at h
    have hm := rfind_mem hstd (romaji_sorted _ (self_mem_paths _)) hf
    have hp := rwalk_mem_paths hstd q (romaji_sorted.child hm) h
    have := List.all_eq_true.1 hc _ hm
    simp only [Bool.or_eq_true, decide_eq_true_iff] at this
    rcases this with (h1 | h1) | h1
    · simp [h1] at hw
    · simp [h1] at hv
    · have := List.all_eq_true.1 h1 _ hp
      simp only [Bool.or_eq_true, decide_eq_true_iff, List.contains_iff_mem] at this
      rcases this with h2 | h2
      · exact absurd (List.mem_cons_of_mem _ h2) hv
      · rw [lookup_kbucket] at h2; exact h2

theorem mem_of_lookup {α β : Type} [BEq α] [LawfulBEq α] {l : List (α × β)} {a : α} {b : β}
    (h : l.lookup a = some b) : (a, b) ∈ l := by
  induction l with
  | nil => cases h
  | cons x l ih =>
    obtain ⟨a', b'⟩ := x
    rw [List.lookup_cons] at h
    by_cases he : a = a'
    · subst he; simp at h; subst h; exact List.mem_cons_self
    · have hb : (a == a') = false := by simp [he]
      rw [hb] at h
      exact List.mem_cons_of_mem _ (ih h)

/-- every row of the table is in the tree, and keys are non-empty without ゔ, ヷ -/
theorem mwalk_of_table {q out : Str} (h : Spec.kanaTable.lookup q = some out) :
    (TO_ROMAJI_NODE_TREE.mwalk q).isSome ∧ q ≠ [] ∧ 'ゔ' ∉ q ∧ 'ヷ' ∉ q := by
  have hc : (Spec.kanaTable.all fun x => (TO_ROMAJI_NODE_TREE.mwalk x.1).isSome && decide (x.1 ≠ [])
      && !x.1.contains 'ゔ' && !x.1.contains 'ヷ') = true := by decide +kernel
  have := List.all_eq_true.1 hc _ (mem_of_lookup h)
  simpa [and_assoc] using this

/-! ## ゔ -/

/-- the vowel of the っゔ node that the search finds -/
def vuOf2 (std : Std) : Char :=
  ((TO_ROMAJI_NODE_TREE.rwalk std ['っ', 'ゔ']).bind fun n => n.output.getLast?).getD 'u'

theorem lookup_append_left {α β : Type} [BEq α] {l l' : List (α × β)} {a : α} {b : β}
    (h : l.lookup a = some b) : (l ++ l').lookup a = some b := by
  rw [List.lookup_append, h]; rfl

theorem lookup_append_right {α β : Type} [BEq α] {l l' : List (α × β)} {a : α}
    (h : l.lookup a = none) : (l ++ l').lookup a = l'.lookup a := by
  rw [List.lookup_append, h]; rfl

theorem kanaTable_vu {q : Str} (h : 'ゔ' ∈ q) : Spec.kanaTable.lookup q = none := by
  cases hl : Spec.kanaTable.lookup q with
  | none => rfl
  | some out => exact absurd h (mwalk_of_table hl).2.2.1

/-- what a ゔ node looks like: the rows of its vowel, with `pre` before every romaji -/
def vuNode (pre : Str) (n : RNode) : Bool :=
  let x := n.output.getLast?.getD 'u'
  decide (x ∈ ['a', 'i', 'u', 'e', 'o'])
  && (n.paths.all fun p => decide (((Spec.vuRows x).lookup ('ゔ' :: p.1)).map (pre ++ ·) = some p.2.output))
  && ((Spec.vuRows x).all fun r => match r.1 with
    | 'ゔ' :: q => (n.mwalk q).isSome && !q.contains 'ゔ' && !q.contains 'ヷ'
    | _ => false)

theorem rwalk_eq_mwalk_at {std : Std} (hstd : std.Lawful) (q : Str) (hq : 'ゔ' ∉ q) :
    ∀ (p : Str) (t : RNode), TO_ROMAJI_NODE_TREE.rwalk std p = some t → t.rwalk std q = t.mwalk q := by
  induction q with
  | nil => intro p t _; rfl
  | cons c q ih =>
    intro p t ht
    have hm := rwalk_mem_paths hstd p romaji_sorted ht
    rw [rwalk, mwalk, rfind_eq_mfind hstd hm (by intro e; apply hq; simp [e])]
    cases hf : t.mfind c with
    | none => rfl
    | some x =>
      apply ih (by intro e; apply hq; simp [e]) (p ++ [c])
      rw [rwalk_append, ht]
      simp only [Option.bind]
      rw [rwalk_singleton, rfind_eq_mfind hstd hm (by intro e; apply hq; simp [e])]
      exact hf

theorem vu_node {std : Std} (hstd : std.Lawful) : ∃ n, TO_ROMAJI_NODE_TREE.rwalk std ['ゔ'] = some n ∧
    vuNode [] n = true ∧ n.output.getLast?.getD 'u' = vuOf std := by
  obtain ⟨n, hn⟩ := root_has hstd (p := 'ゔ') (by decide) (by decide)
  have hc : (TO_ROMAJI_NODE_TREE.ts.all fun x => decide (x.1 ≠ 'ゔ') || vuNode [] x.2) = true := by
    decide +kernel
  refine ⟨n, by rw [rwalk_singleton]; exact hn, ?_, by rw [vuOf, hn]; rfl⟩
  have hm := rfind_mem hstd (romaji_sorted _ (self_mem_paths _)) hn
  simpa using List.all_eq_true.1 hc _ hm

/-- the node of っ -/
theorem tsu_node {std : Std} (hstd : std.Lawful) : ∃ t, TO_ROMAJI_NODE_TREE.rwalk std ['っ'] = some t ∧
    TO_ROMAJI_NODE_TREE.mfind 'っ' = some t := by
  have h := rwalk_eq_mwalk hstd ['っ'] (by decide)
  have : (TO_ROMAJI_NODE_TREE.mfind 'っ').isSome = true := by decide +kernel
  obtain ⟨t, ht⟩ := Option.isSome_iff_exists.1 this
  refine ⟨t, ?_, ht⟩
  rw [h, mwalk, ht]
  rfl

theorem vu_node2 {std : Std} (hstd : std.Lawful) : ∃ t n, TO_ROMAJI_NODE_TREE.rwalk std ['っ'] = some t ∧
    t.rfind std 'ゔ' = some n ∧ TO_ROMAJI_NODE_TREE.rwalk std ['っ', 'ゔ'] = some n ∧
    vuNode ['v'] n = true ∧ n.output.getLast?.getD 'u' = vuOf2 std := by
  obtain ⟨t, ht, hm⟩ := tsu_node hstd
  have hc : (match TO_ROMAJI_NODE_TREE.mfind 'っ' with
    | some t => (t.ts.any fun x => decide (x.1 = 'ゔ')) &&
      t.ts.all fun x => decide (x.1 ≠ 'ゔ') || vuNode ['v'] x.2
    | none => false) = true := by decide +kernel
  rw [hm] at hc
  simp only [Bool.and_eq_true] at hc
  have hs : SortedKeys (t.ts.map fun t => t.1) := by
    have := rwalk_mem_paths hstd _ romaji_sorted ht
    exact romaji_sorted _ this
  cases hf : t.rfind std 'ゔ' with
  | none =>
    exfalso
    obtain ⟨x, hx, hx'⟩ := List.any_eq_true.1 hc.1
    have hx' := of_decide_eq_true hx'
    apply rfind_none hstd hs hf x.2
    rw [← hx']; exact hx
  | some n =>
    have hw : TO_ROMAJI_NODE_TREE.rwalk std ['っ', 'ゔ'] = some n := by
      have := rwalk_append (std := std) ['っ'] ['ゔ'] TO_ROMAJI_NODE_TREE
      rw [ht] at this
      simp only [Option.bind, rwalk_singleton, hf] at this
      exact this
    refine ⟨t, n, ht, hf, hw, ?_, by rw [vuOf2, hw]; rfl⟩
    have := List.all_eq_true.1 hc.2 _ (rfind_mem hstd hs hf)
    simpa using this

theorem vuOf2_mem {std : Std} (hstd : std.Lawful) : vuOf2 std ∈ ['a', 'i', 'u', 'e', 'o'] := by
  obtain ⟨_, n, _, _, _, h, e⟩ := vu_node2 hstd
  simp only [vuNode, Bool.and_eq_true, decide_eq_true_iff] at h
  rw [← e]; exact h.1.1

theorem vuRows_vu {x : Char} {q out : Str} (h : (Spec.vuRows x).lookup q = some out) : ∃ q', q = 'ゔ' :: q' := by
  have hm := mem_of_lookup h
  unfold Spec.vuRows at hm
  split at hm
  · have hc : ((Spec.row "ゔ" "vu" :: Spec.contractedKana "ゔ" "vy" "vy").all fun r => r.1.head? == some 'ゔ') = true := by
      decide +kernel
    have := List.all_eq_true.1 hc _ hm
    cases q with
    | nil => cases this
    | cons c q => simp at this; exact ⟨q, by rw [this]⟩
  · simp at hm; exact ⟨[], hm.1⟩

theorem lookup_map_cons (c d : Char) (l : Spec.Table) (q : Str) :
    (l.map fun r => (c :: r.1, d :: r.2)).lookup (c :: q) = (l.lookup q).map (d :: ·) := by
  induction l with
  | nil => rfl
  | cons r l ih =>
    rw [List.map_cons, List.lookup_cons, List.lookup_cons, ih]
    by_cases h : q = r.1
    · subst h; simp
    · have h1 : (q == r.1) = false := by simp [h]
      have h2 : (c :: q == c :: r.1) = false := by simp [h]
      rw [h1, h2]

theorem lookup_map_cons_ne {c c' d : Char} (l : Spec.Table) (q : Str) (h : c' ≠ c) :
    (l.map fun r => (c :: r.1, d :: r.2)).lookup (c' :: q) = none := by
  apply lookup_none_iff
  intro b hb
  obtain ⟨r, _, hr⟩ := List.mem_map.1 hb
  simp at hr
  exact h hr.1.1.symm

/-- the whole table agrees with every path the search can take -/
theorem tableV_of_rwalk {c : Char} {q : Str} {n : RNode} (hw : 'ヷ' ∉ c :: q)
    {std : Std} (hstd : std.Lawful) (h : TO_ROMAJI_NODE_TREE.rwalk std (c :: q) = some n) :
    (Spec.kanaTableV (vuOf std) (vuOf2 std)).lookup (c :: q) = some n.output := by
  unfold Spec.kanaTableV
  by_cases hv : 'ゔ' ∈ c :: q
  · rw [lookup_append_right (kanaTable_vu hv)]
    by_cases hc : c = 'ゔ'
    · subst hc
      obtain ⟨m, hm, hn, hx⟩ := vu_node hstd
      have hq : m.rwalk std q = some n := by
        have := rwalk_append (std := std) ['ゔ'] q TO_ROMAJI_NODE_TREE
        rw [hm] at this
        exact this.symm.trans h
      simp only [vuNode, Bool.and_eq_true, hx] at hn
      have hmp := rwalk_mem_paths hstd _ romaji_sorted hm
      have hp := rwalk_mem_paths hstd q (by
        rw [rwalk_singleton] at hm
        exact romaji_sorted.child (rfind_mem hstd (romaji_sorted _ (self_mem_paths _)) hm)) hq
      have := of_decide_eq_true (List.all_eq_true.1 hn.1.2 _ hp)
      apply lookup_append_left
      simpa using this
    · have hcheck : (TO_ROMAJI_NODE_TREE.paths.all fun x => !x.1.contains 'ゔ' ||
          (match x.1 with
          | 'ゔ' :: _ => true
          | 'っ' :: 'ゔ' :: _ => true
          | _ => false)) = true := by decide +kernel
      have hp := rwalk_mem_paths hstd _ romaji_sorted h
      have := List.all_eq_true.1 hcheck _ hp
      simp only [Bool.or_eq_true, Bool.not_eq_true', List.contains_eq_mem, decide_eq_false_iff_not] at this
      rcases this with h' | h'
      · exact absurd hv h'
      · split at h'
        · rename_i e; simp at e; exact absurd e.1 hc
        · rename_i q' e
          simp at e
          obtain ⟨rfl, rfl⟩ := e
          obtain ⟨t, m, ht, hf, hm, hn, hx⟩ := vu_node2 hstd
          have hq : m.rwalk std q' = some n := by
            have := rwalk_append (std := std) ['っ', 'ゔ'] q' TO_ROMAJI_NODE_TREE
            rw [hm] at this
            exact this.symm.trans h
          simp only [vuNode, Bool.and_eq_true, hx] at hn
          have hts : AllSorted t := by
            have ht' := ht
            rw [rwalk_singleton] at ht'
            exact romaji_sorted.child (rfind_mem hstd (romaji_sorted _ (self_mem_paths _)) ht')
          have hp := rwalk_mem_paths hstd q'
            (hts.child (rfind_mem hstd (hts _ (self_mem_paths _)) hf)) hq
          have := of_decide_eq_true (List.all_eq_true.1 hn.1.2 _ hp)
          rw [lookup_append_right, lookup_map_cons]
          · exact this
          · cases hl : (Spec.vuRows (vuOf std)).lookup ('っ' :: 'ゔ' :: q') with
            | none => rfl
            | some out =>
              obtain ⟨_, e⟩ := vuRows_vu hl
              simp at e
        · cases h'
  · exact lookup_append_left (table_of_mwalk hv hw hstd h)

/-- every row of the whole table can be walked -/
theorem rwalk_of_tableV {std : Std} (hstd : std.Lawful) {q out : Str}
    (h : (Spec.kanaTableV (vuOf std) (vuOf2 std)).lookup q = some out) :
    (TO_ROMAJI_NODE_TREE.rwalk std q).isSome ∧ q ≠ [] := by
  unfold Spec.kanaTableV at h
  cases hl : Spec.kanaTable.lookup q with
  | some out' =>
    obtain ⟨h1, h2, h3, h4⟩ := mwalk_of_table hl
    rw [← rwalk_eq_mwalk hstd _ h3] at h1
    exact ⟨h1, h2⟩
  | none =>
    rw [lookup_append_right hl] at h
    cases hl' : (Spec.vuRows (vuOf std)).lookup q with
    | some out' =>
      obtain ⟨q', rfl⟩ := vuRows_vu hl'
      obtain ⟨m, hm, hn, hx⟩ := vu_node hstd
      simp only [vuNode, Bool.and_eq_true, hx] at hn
      have := List.all_eq_true.1 hn.2 _ (mem_of_lookup hl')
      simp only [Bool.and_eq_true, Bool.not_eq_true', List.contains_eq_mem, decide_eq_false_iff_not] at this
      refine ⟨?_, by simp⟩
      have e := rwalk_append (std := std) ['ゔ'] q' TO_ROMAJI_NODE_TREE
      rw [hm] at e
      rw [show 'ゔ' :: q' = ['ゔ'] ++ q' from rfl, e]
      simp only [Option.bind]
      rw [rwalk_eq_mwalk_at hstd _ this.1.2 _ _ hm]
      exact this.1.1
    | none =>
      rw [lookup_append_right hl'] at h
      have hmem := mem_of_lookup h
      obtain ⟨⟨q0, o0⟩, hr, he⟩ := List.mem_map.1 hmem
      simp only [Prod.mk.injEq] at he
      obtain ⟨rfl, _⟩ := he
      rw [lookup_map_cons] at h
      obtain ⟨o1, h1, _⟩ := Option.map_eq_some_iff.1 h
      obtain ⟨q', rfl⟩ := vuRows_vu h1
      obtain ⟨t, m, ht, hf, hm, hn, hx⟩ := vu_node2 hstd
      simp only [vuNode, Bool.and_eq_true, hx] at hn
      have := List.all_eq_true.1 hn.2 _ (mem_of_lookup h1)
      simp only [Bool.and_eq_true, Bool.not_eq_true', List.contains_eq_mem, decide_eq_false_iff_not] at this
      refine ⟨?_, by simp⟩
      have e := rwalk_append (std := std) ['っ', 'ゔ'] q' TO_ROMAJI_NODE_TREE
      rw [hm] at e
      rw [show 'っ' :: 'ゔ' :: q' = ['っ', 'ゔ'] ++ q' from rfl, e]
      simp only [Option.bind]
      rw [rwalk_eq_mwalk_at hstd _ this.1.2 _ _ hm]
      exact this.1.1

end WanaKana
