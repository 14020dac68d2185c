import Verif.Proofs.ImeTrip
import Verif.Props.Complete
/-! # C127: where IME mode differs from the normal mode -/

namespace WanaKana
open KNode RNode
open Spec (toHira kanaTable)

/-- what goes on a syllable that begins with n -/
def nNext : List Char := ['a', 'i', 'u', 'e', 'o', 'y', '\'']

/-- the paths in which the trees differ -/
def nBad (p : Str) : Bool := decide (p = ['n']) || decide (p = ['n', 'n']) || decide (p = ['n', ' '])

theorem agree_ime : agreeCheck .normal .ime nBad = true ∧ agreeCheck .ime .normal nBad = true := by
  constructor <;> decide +kernel

theorem n_nodeA : ∃ n, (tree .normal).walk ['n'] = some n ∧ n.output = some ['ん'] ∧
    (∀ c ∈ nNext, (n.find_transition_node c).isSome = true) ∧ ∀ c, c ∉ nNext → n.find_transition_node c = none := by
  have h : (match (tree .normal).walk ['n'] with
    | some n => decide (n.output = some ['ん']) && (nNext.all fun c => (n.find_transition_node c).isSome) &&
        n.transitions.all fun t => nNext.contains t.1
    | none => false) = true := by decide +kernel
  cases hw : (tree .normal).walk ['n'] with
  | none => rw [hw] at h; cases h
  | some n =>
    simp only [hw, Bool.and_eq_true, decide_eq_true_iff, List.all_eq_true, List.contains_iff_mem] at h
    refine ⟨n, rfl, h.1.1, h.1.2, ?_⟩
    intro c hc
    cases hf : n.find_transition_node c with
    | none => rfl
    | some n' => exact absurd (h.2 _ (find_mem hf)) hc

/-- the text does not begin with an n that IME mode leaves waiting -/
def HeadOk (s : Str) : Prop :=
  ∀ c t, s = c :: t → toAsciiLowercase c = 'n' → ∃ d, t.head? = some d ∧ toAsciiLowercase d ∈ nNext

theorem step_agree {s : Str} {n : KNode} {k : Nat} (hst : Stops (tree .normal) s n k) (hg : HeadOk s) :
    ∃ n', Stops (tree .ime) s n' k ∧ n'.output = n.output := by
  have hpre : low (s.take k) <+: low s := by rw [take_low]; exact List.take_prefix _ _
  -- not n alone
  have hn1 : low (s.take k) ≠ ['n'] := by
    intro h
    obtain ⟨c, hc, hc2⟩ := low_single h
    cases s with
    | nil => rw [List.take_nil] at hc; cases hc
    | cons c0 t =>
      cases k with
      | zero => cases hc
      | succ k =>
        rw [List.take_succ_cons] at hc
        injection hc with e1 e2
        subst e1
        obtain ⟨d, hd, hd2⟩ := hg c0 t rfl hc2
        cases t with
        | nil => cases hd
        | cons d' t =>
          have : d' = d := by simpa using hd
          subst this
          cases k with
          | succ k => cases e2
          | zero =>
            obtain ⟨n1, hw1, _, hs, _⟩ := n_nodeA
            have h1 := hst.walk
            rw [h, hw1, Option.some.injEq] at h1
            subst h1
            have h2 := hst.stop d' rfl
            have h3 := hs _ hd2
            rw [h2] at h3
            cases h3
  have two : ∀ d, low (s.take k) = ['n', d] → d ∉ ['n', ' '] := by
    intro d h hd
    obtain ⟨n1, hw1, _, _, hs⟩ := n_nodeA
    have h1 := hst.walk
    rw [h, show ['n', d] = ['n'] ++ [d] from rfl, walk_append, hw1] at h1
    have h2 : n1.walk [d] = some n := h1
    have hd' : ∀ d ∈ ['n', ' '], d ∉ nNext := by decide
    rw [walk_singleton, hs d (hd' d hd)] at h2
    cases h2
  have hb : nBad (low (s.take k)) = false := by
    unfold nBad
    simp only [Bool.or_eq_false_iff, decide_eq_false_iff_not]
    exact ⟨⟨hn1, fun h => two _ h (by simp)⟩, fun h => two _ h (by simp)⟩
  obtain ⟨n', hw', ho'⟩ := agree_of_check agree_ime.1 hb hst.walk
  refine ⟨n', ⟨hst.le, hw', ?_⟩, ho'⟩
  intro d hd
  cases hf : n'.find_transition_node (toAsciiLowercase d) with
  | none => rfl
  | some x =>
    exfalso
    have hw2 : (tree .ime).walk (low (s.take k) ++ [toAsciiLowercase d]) = some x := by
      rw [walk_append, hw']
      show n'.walk _ = _
      rw [walk_singleton, hf]
    have hb2 : nBad (low (s.take k) ++ [toAsciiLowercase d]) = false := by
      unfold nBad
      simp only [Bool.or_eq_false_iff, decide_eq_false_iff_not]
      refine ⟨⟨fun h => ?_, fun h => ?_⟩, fun h => ?_⟩
      · -- the first character of the text
        have h1 : low (s.take k) = [] ∧ toAsciiLowercase d = 'n' := by
          have := List.append_inj' (s₂ := []) (t₂ := ['n']) h rfl
          simpa using this
        have hk := low_eq_nil h1.1
        obtain ⟨n1, hw1, _⟩ := n_nodeA
        have hs := hst.walk
        rw [h1.1] at hs
        have hs : (tree .normal) = n := by simpa [walk] using hs
        have h2 := hst.stop d hd
        rw [← hs, ← walk_singleton, h1.2, hw1] at h2
        cases h2
      · exact hn1 (List.append_inj' (s₂ := ['n']) (t₂ := ['n']) h rfl).1
      · exact hn1 (List.append_inj' (s₂ := ['n']) (t₂ := [' ']) h rfl).1
    obtain ⟨z, hz, _⟩ := agree_of_check agree_ime.2 hb2 hw2
    rw [walk_append, hst.walk] at hz
    have hz' : n.walk [toAsciiLowercase d] = some z := hz
    rw [walk_singleton, hst.stop d hd] at hz'
    cases hz'

/-- n within a path, and x before n -/
theorem n_pathsA : ((tree .normal).paths.all fun x => (!(x.1.drop 1).contains 'n' || decide (x.1 = ['x', 'n'])) &&
    (x.2.output.isNone || decide (x.1.getLast? ≠ some 'x')) && (!['x', 'n'].isPrefixOf x.1 || x.2.output.isSome)) = true := by
  decide +kernel

theorem xn_walk : ((tree .normal).walk ['x', 'n']).isSome = true := by decide +kernel

/-- where the two modes read the same, they go on at the same place -/
theorem same_read {s : Str} (hs : s ≠ []) (hg : HeadOk s) : ∃ u k, 0 < k ∧ k ≤ s.length ∧
    kana .normal s = u ++ kana .normal (s.drop k) ∧ kana .ime s = u ++ kana .ime (s.drop k) ∧
    (∀ a b, low (s.take k) = a ++ 'n' :: b → a = [] ∨ a.getLast? = some 'x') ∧
    ((low (s.take k)).getLast? = some 'x' → ∀ d, (s.drop k).head? = some d → toAsciiLowercase d ≠ 'n') := by
  obtain ⟨n, k, hst⟩ := exists_stops (tree .normal) s
  obtain ⟨n', hst', ho'⟩ := step_agree hst hg
  have hp := walk_check n_pathsA hst.walk
  simp only [Bool.and_eq_true, Bool.or_eq_true, Bool.not_eq_true', List.contains_eq_mem, decide_eq_false_iff_not,
    decide_eq_true_iff, Option.isNone_iff_eq_none] at hp
  obtain ⟨⟨p1, p2⟩, p3⟩ := hp
  cases s with
  | nil => exact absurd rfl hs
  | cons c t =>
    cases ho : n.output with
    | some out =>
      have hk := stops_pos hst ho
      refine ⟨_, k, hk, hst.le, kana_hit hst ho, kana_hit hst' (by rw [ho', ho]), ?_, ?_⟩
      · intro a b e
        rcases p1 with h | h
        · left
          cases a with
          | nil => rfl
          | cons a0 a => exact absurd (by rw [e]; simp) h
        · right
          rw [h] at e
          match a, e with
          | [], e => injection e with e _; exact absurd e (by decide)
          | [a0], e => injection e with e _; rw [← e]; rfl
          | _ :: _ :: _, e => have := congrArg List.length e; simp at this
      · intro h
        rcases p2 with p2 | p2
        · rw [ho] at p2; cases p2
        · exact absurd h p2
    | none =>
      refine ⟨[c], 1, by omega, by simp, kana_miss hst ho, kana_miss hst' (by rw [ho', ho]), ?_, ?_⟩
      · intro a b e
        left
        cases a with
        | nil => rfl
        | cons a0 a => have := congrArg List.length e; simp at this
      · intro h d hd hdn
        obtain ⟨m, hm⟩ := Option.isSome_iff_exists.1 xn_walk
        have hc : toAsciiLowercase c = 'x' := by simpa using h
        have hpre := stops_longest hst (p := ['x', 'n']) (by
          cases t with
          | nil => cases hd
          | cons d' t =>
            have : d' = d := by simpa using hd
            subst this
            exact ⟨low t, by simp [low, hc, hdn]⟩) hm
        rcases p3 with p3 | p3
        · rw [List.isPrefixOf_iff_prefix.2 hpre] at p3; cases p3
        · rw [ho] at p3; cases p3

/-- every n goes on a syllable, or belongs to xn -/
def NOk (s : Str) : Prop :=
  ∀ a b, low s = a ++ 'n' :: b → a.getLast? = some 'x' ∨ ∃ d, b.head? = some d ∧ d ∈ nNext

theorem NOk.head {s : Str} (h : NOk s) : HeadOk s := by
  rintro c t rfl hc
  rcases h [] (low t) (by rw [low, List.map_cons, hc]; rfl) with h | ⟨d, hd, hd2⟩
  · cases h
  · rw [low, List.head?_map, Option.map_eq_some_iff] at hd
    obtain ⟨e, he, rfl⟩ := hd
    exact ⟨e, he, hd2⟩

theorem low_splitA (s : Str) (k : Nat) : low s = low (s.take k) ++ low (s.drop k) := by
  unfold low; rw [← List.map_append, List.take_append_drop]

theorem NOk.drop {s : Str} {k : Nat} (h : NOk s)
    (hx : (low (s.take k)).getLast? = some 'x' → ∀ d, (s.drop k).head? = some d → toAsciiLowercase d ≠ 'n') : NOk (s.drop k) := by
  intro a b e
  rcases h (low (s.take k) ++ a) b (by rw [low_splitA s k, e, List.append_assoc]) with h | h
  · cases a with
    | nil =>
      exfalso
      rw [List.append_nil] at h
      cases hd : s.drop k with
      | nil => rw [hd] at e; cases e
      | cons d t =>
        rw [hd] at e
        injection e with e _
        exact hx h d (by rw [hd]; rfl) e
    | cons a0 a =>
      left
      rwa [getLast?_append_ne _ (List.cons_ne_nil _ _)] at h
  · exact Or.inr h

theorem NOk.of_drop {s : Str} {k : Nat} (hh : HeadOk s) (hn : ∀ a b, low (s.take k) = a ++ 'n' :: b → a = [] ∨ a.getLast? = some 'x')
    (h : NOk (s.drop k)) : NOk s := by
  intro a b e
  by_cases ha : a = []
  · subst ha
    right
    cases s with
    | nil => cases e
    | cons c t =>
      injection e with e1 e2
      obtain ⟨d, hd, hd2⟩ := hh c t rfl e1
      exact ⟨toAsciiLowercase d, by rw [← e2, List.head?_map, hd]; rfl, hd2⟩
  · have e' := e
    rw [low_splitA s k] at e'
    rcases List.append_eq_append_iff.1 e' with ⟨a', h1, h2⟩ | ⟨c', h1, h2⟩
    · rcases h a' b h2 with h3 | h3
      · left
        rw [h1, getLast?_append_ne _ (by intro e; rw [e] at h3; cases h3)]
        exact h3
      · exact Or.inr h3
    · cases c' with
      | nil =>
        rw [List.append_nil] at h1
        rcases h [] b h2.symm with h3 | h3
        · cases h3
        · exact Or.inr h3
      | cons c0 c' =>
        injection h2 with h2 h4
        subst h2
        rcases hn a c' h1 with h3 | h3
        · exact absurd h3 ha
        · exact Or.inl h3

theorem agree_of_nOk (s : Str) (h : NOk s) : kana .ime s = kana .normal s := by
  induction s using list_strong with
  | _ s ih =>
    by_cases hs : s = []
    · rw [hs, kana_nil, kana_nil]
    · obtain ⟨u, k, hk, hle, h1, h2, _, h4⟩ := same_read hs h.head
      rw [h1, h2, ih _ (by simp [List.length_drop]; omega) (h.drop h4)]

/-- an n that IME mode leaves waiting or joins with what follows -/
theorem normal_nA {c : Char} {t : Str} (hc : toAsciiLowercase c = 'n')
    (hn : ∀ d, t.head? = some d → toAsciiLowercase d ∉ nNext) : kana .normal (c :: t) = styled [c] ['ん'] ++ kana .normal t := by
  obtain ⟨n, hw, ho, _, hs⟩ := n_nodeA
  have hst : Stops (tree .normal) (c :: t) n 1 := by
    refine ⟨by simp, by simpa [low, hc] using hw, ?_⟩
    intro d hd
    exact hs _ (hn d hd)
  exact kana_hit hst ho

theorem ime_n_keys : isKey .ime ['n', 'n'] ['ん'] = true ∧ isKey .ime ['n', ' '] ['ん'] = true := by decide +kernel

/-- the keys that begin with n, beside the key without the n -/
def nSyl : List (Str × Str × Str) :=
  [(['a'], ['な'], ['あ']), (['i'], ['に'], ['い']), (['u'], ['ぬ'], ['う']), (['e'], ['ね'], ['え']), (['o'], ['の'], ['お']),
    (['y', 'a'], ['に', 'ゃ'], ['や']), (['y', 'i'], ['に', 'ぃ'], ['い']), (['y', 'u'], ['に', 'ゅ'], ['ゆ']),
    (['y', 'e'], ['に', 'ぇ'], ['い', 'ぇ']), (['y', 'o'], ['に', 'ょ'], ['よ'])]

theorem nSyl_keys : (nSyl.all fun v => isKey .normal ('n' :: v.1) v.2.1 && isKey .ime v.1 v.2.2) = true := by decide +kernel

theorem n_quote_key : isKey .normal ['n', '\''] ['ん'] = true := by decide +kernel

/-- the first characters, of either script, differ -/
theorem nSyl_heads : (nSyl.all fun v => decide (v.2.2.length ≤ v.2.1.length) &&
    (match v.2.1.head?, v.2.2.head? with
    | some d, some e => decide (∀ z ∈ [d, h2kP d], ∀ w ∈ [e, h2kP e], h2kP z ≠ h2kP w)
    | _, _ => false)) = true := by decide +kernel

/-- nothing but these begins with n -/
theorem ny_paths : ((tree .normal).paths.all fun x => !['n', 'y'].isPrefixOf x.1 || x.2.output.isNone ||
    (nSyl.any fun v => decide (x.1 = 'n' :: v.1))) = true := by decide +kernel

/-- what begins with y does not become n -/
theorem y_paths : ((tree .ime).paths.all fun x => !['y'].isPrefixOf x.1 || (match x.2.output with
    | some (e :: _) => decide (0x80 ≤ e.toNat)
    | some [] => false
    | none => true)) = true := by decide +kernel

theorem low_eq_cons {x : Str} {t : Str} {p : Str} (h : p <+: low (x ++ t)) (hp : p.length = x.length) : low x = p := by
  obtain ⟨q, hq⟩ := h
  unfold low at hq
  rw [List.map_append] at hq
  exact (List.append_inj hq (by rw [hp, List.length_map])).1.symm

/-- how the normal mode reads n before a vowel, y or an apostrophe, and how IME mode reads what follows the n -/
theorem n_before {c d : Char} {t : Str} (hc : toAsciiLowercase c = 'n') (hd : toAsciiLowercase d ∈ nNext) :
    (∃ x y t', ∃ v ∈ nSyl, x ++ t' = d :: t ∧ y = c :: x ∧ x ≠ [] ∧ kana .normal (c :: d :: t) = styled y v.2.1 ++ kana .normal t' ∧
      kana .ime (d :: t) = styled x v.2.2 ++ kana .ime t') ∨
    (toAsciiLowercase d = '\'' ∧ ∃ x, kana .normal (c :: d :: t) = styled x ['ん'] ++ kana .normal t) ∨
    (toAsciiLowercase d = 'y' ∧ kana .normal (c :: d :: t) = c :: kana .normal (d :: t)) := by
  have syl : ∀ v ∈ nSyl, ∀ x t', x ++ t' = d :: t → low x = v.1 → 
      kana .normal (c :: d :: t) = styled (c :: x) v.2.1 ++ kana .normal t' ∧ kana .ime (d :: t) = styled x v.2.2 ++ kana .ime t' := by
    intro v hv x t' e hx
    have h := List.all_eq_true.1 nSyl_keys v hv
    simp only [Bool.and_eq_true] at h
    rw [← e]
    exact ⟨kana_isKey (x := c :: x) h.1 (by rw [← hx, low, List.map_cons, hc]), kana_isKey h.2 hx⟩
  have one : ∀ v ∈ nSyl, [toAsciiLowercase d] = v.1 → _ := fun v hv e => syl v hv [d] t rfl (by rw [← e]; rfl)
  have hone : (∃ v ∈ nSyl, [toAsciiLowercase d] = v.1) ∨ toAsciiLowercase d = 'y' ∨ toAsciiLowercase d = '\'' := by
    generalize toAsciiLowercase d = z at hd
    revert z
    decide
  rcases hone with ⟨v, hv, e⟩ | hy | hq
  · exact Or.inl ⟨[d], _, t, v, hv, rfl, rfl, by simp, one v hv e⟩
  · obtain ⟨n, k, hst⟩ := exists_stops (tree .normal) (c :: d :: t)
    have hw2 : ((tree .normal).walk ['n', 'y']).isSome = true := by decide +kernel
    obtain ⟨m, hm⟩ := Option.isSome_iff_exists.1 hw2
    have hpre := stops_longest hst (p := ['n', 'y']) ⟨low t, by simp [low, hc, hy]⟩ hm
    have h := walk_check ny_paths hst.walk
    simp only [Bool.or_eq_true, Bool.not_eq_true', List.isPrefixOf_iff_prefix.2 hpre, Option.isNone_iff_eq_none, List.any_eq_true,
      decide_eq_true_iff, reduceCtorEq, false_or] at h
    rcases h with h | ⟨v, hv, h⟩
    · exact Or.inr (Or.inr ⟨hy, kana_miss hst h⟩)
    · left
      cases k with
      | zero => cases h
      | succ k =>
        rw [List.take_succ_cons] at h
        injection h with _ h
        have hne : (d :: t).take k ≠ [] := by
          intro e; rw [e] at h
          have : ∀ v ∈ nSyl, v.1 ≠ [] := by decide
          exact this v hv h.symm
        exact ⟨(d :: t).take k, _, (d :: t).drop k, v, hv, List.take_append_drop _ _, rfl, hne,
          syl v hv _ _ (List.take_append_drop _ _) h⟩
  · refine Or.inr (Or.inl ⟨hq, [c, d], ?_⟩)
    exact kana_isKey (x := [c, d]) n_quote_key (by simp [low, hc, hq])

theorem low_quoteA {d : Char} (h : toAsciiLowercase d = '\'') : d = '\'' := low_eq_nonletter (by decide) h

/-- how IME mode reads an n it leaves waiting or joins with what follows -/
theorem ime_n {c : Char} {t : Str} (hc : toAsciiLowercase c = 'n')
    (hn : ∀ d, t.head? = some d → toAsciiLowercase d ∉ nNext) :
    kana .ime (c :: t) = c :: kana .ime t ∨ ∃ d t', t = d :: t' ∧ (toAsciiLowercase d = 'n' ∨ d = ' ') ∧
      kana .ime (c :: t) = styled [c, d] ['ん'] ++ kana .ime t' := by
  by_cases h : ∃ d t', t = d :: t' ∧ toAsciiLowercase d ∈ ['n', ' ']
  · obtain ⟨d, t', rfl, h⟩ := h
    right
    rcases List.mem_cons.1 h with h | h
    · exact ⟨d, t', rfl, Or.inl h, kana_isKey (x := [c, d]) ime_n_keys.1 (by simp [low, hc, h])⟩
    · have h : toAsciiLowercase d = ' ' := by simpa using h
      exact ⟨d, t', rfl, Or.inr (low_eq_nonletter (by decide) h), kana_isKey (x := [c, d]) ime_n_keys.2 (by simp [low, hc, h])⟩
  · left
    obtain ⟨n, hw, ho, hs⟩ := ime_n_node
    have hst : Stops (tree .ime) (c :: t) n 1 := by
      refine ⟨by simp, by simpa [low, hc] using hw, ?_⟩
      intro d hd
      have hd : t.head? = some d := hd
      apply hs
      cases t with
      | nil => cases hd
      | cons d' t =>
        have : d' = d := by simpa using hd
        subst this
        have h1 := hn d' rfl
        have h2 : toAsciiLowercase d' ∉ ['n', ' '] := fun e => h ⟨d', t, rfl, e⟩
        intro h3
        simp [nNext] at h1 h2 h3
        rcases h3 with h3 | h3 | h3 | h3 | h3 | h3 | h3 | h3 | h3 <;> simp [h3] at h1 h2
    exact kana_miss hst ho

/-- a text whose first n is not all right begins with an n before something else -/
theorem not_headOk {s : Str} (h : ¬ HeadOk s) : ∃ c t, s = c :: t ∧ toAsciiLowercase c = 'n' ∧
    ∀ d, t.head? = some d → toAsciiLowercase d ∉ nNext := by
  apply Classical.byContradiction
  intro hn
  apply h
  intro c t e hc
  apply Classical.byContradiction
  intro hd
  exact hn ⟨c, t, e, hc, fun d hd1 hd2 => hd ⟨d, hd1, hd2⟩⟩

theorem ime_le (T : Str) : (kana .ime T).length ≤ (kana .normal T).length ∧
    ∀ c, toAsciiLowercase c = 'n' → (kana .ime T).length ≤ (kana .normal (c :: T)).length := by
  induction T using list_strong with
  | _ T ih =>
    have hP : (kana .ime T).length ≤ (kana .normal T).length := by
      by_cases hs : T = []
      · rw [hs, kana_nil, kana_nil]; exact Nat.le_refl _
      · by_cases hh : HeadOk T
        · obtain ⟨u, k, hk, hle, h1, h2, _⟩ := same_read hs hh
          rw [h1, h2, List.length_append, List.length_append]
          exact Nat.add_le_add_left (ih _ (by simp [List.length_drop]; omega)).1 _
        · obtain ⟨c, t, rfl, hc, hn⟩ := not_headOk hh
          rw [normal_nA hc hn, List.length_append, styled_length]
          rcases ime_n hc hn with e | ⟨d, t', rfl, h1, e⟩
          · have := (ih t (by simp)).1
            rw [e]; simp; omega
          · rw [e, List.length_append, styled_length]
            apply Nat.add_le_add_left
            rcases h1 with h1 | rfl
            · exact (ih t' (by simp only [List.length_cons]; omega)).2 d h1
            · rw [kana_cons_not_head (by decide)]
              have := (ih t' (by simp only [List.length_cons]; omega)).1
              simp; omega
    refine ⟨hP, ?_⟩
    intro c hc
    by_cases hd : ∃ d t, T = d :: t ∧ toAsciiLowercase d ∈ nNext
    · obtain ⟨d, t, rfl, hd⟩ := hd
      rcases n_before (t := t) hc hd with ⟨x, y, t', v, hv, e, _, hx, e1, e2⟩ | ⟨hq, x, e1⟩ | ⟨hy, e1⟩
      · rw [e1, e2, List.length_append, List.length_append, styled_length, styled_length]
        have h1 := List.all_eq_true.1 nSyl_heads v hv
        simp only [Bool.and_eq_true, decide_eq_true_iff] at h1
        have hlt : t'.length < (d :: t).length := by
          rw [← e, List.length_append]
          have := List.length_pos_iff.2 hx
          omega
        exact Nat.add_le_add h1.1 (ih t' hlt).1
      · rw [e1, low_quoteA hq, kana_quote_cons]
        have := (ih t (by simp)).1
        simp [styled_length]; omega
      · rw [e1]
        simp only [List.length_cons]
        omega
    · rw [normal_nA hc (fun d h1 h2 => by
        cases T with
        | nil => cases h1
        | cons d' t =>
          have : d' = d := by simpa using h1
          subst this
          exact hd ⟨d', t, rfl, h2⟩)]
      rw [List.length_append]
      omega

theorem low_n_ne {c : Char} (h : toAsciiLowercase c = 'n') : c.toNat < 0x80 := by
  rcases low_eq_n h with rfl | rfl <;> decide

theorem styled_cons (x : Str) (e : Char) (out : Str) :
    ∃ z w, styled x (e :: out) = z :: w ∧ (z = e ∨ z = h2kP e) := by
  unfold styled
  split
  · exact ⟨h2kP e, _, rfl, Or.inr rfl⟩
  · exact ⟨e, _, rfl, Or.inl rfl⟩

theorem h2kP_ascii {c : Char} (h : c.toNat < 0x80) : h2kP c = c := by
  apply char_ext
  rw [h2kP_toNat]
  repeat' split
  all_goals omega

theorem h2kP_high {c : Char} (h : 0x80 ≤ c.toNat) : 0x80 ≤ (h2kP c).toNat := by
  rw [h2kP_toNat]
  repeat' split
  all_goals omega

theorem low_eq_y {c : Char} (h : toAsciiLowercase c = 'y') : c = 'y' ∨ c = 'Y' := by
  rw [char_eq_iff, toAsciiLowercase_toNat] at h
  simp only [Char.reduceToNat] at h
  simp only [char_eq_iff, Char.reduceToNat]
  split at h <;> omega

/-- an n before the same text always leaves a mark -/
theorem n_differs {c : Char} (hc : toAsciiLowercase c = 'n') (T : Str) : (kana .normal (c :: T)).map h2kP ≠ (kana .ime T).map h2kP := by
  by_cases hd : ∃ d t, T = d :: t ∧ toAsciiLowercase d ∈ nNext
  · obtain ⟨d, t, rfl, hd⟩ := hd
    rcases n_before (t := t) hc hd with ⟨x, y, t', v, hv, _, _, _, e1, e2⟩ | ⟨hq, x, e1⟩ | ⟨hy, e1⟩
    · rw [e1, e2]
      have h1 := List.all_eq_true.1 nSyl_heads v hv
      simp only [Bool.and_eq_true] at h1
      obtain ⟨vk, vn, vi⟩ := v
      cases vn with
      | nil => exact absurd h1.2 (by simp)
      | cons a1 vn =>
        cases vi with
        | nil => exact absurd h1.2 (by simp)
        | cons a2 vi =>
          have h2 : ∀ z ∈ [a1, h2kP a1], ∀ w ∈ [a2, h2kP a2], h2kP z ≠ h2kP w := of_decide_eq_true h1.2
          obtain ⟨z1, w1, e3, h3⟩ := styled_cons y a1 vn
          obtain ⟨z2, w2, e4, h4⟩ := styled_cons x a2 vi
          show (styled y (a1 :: vn) ++ _).map h2kP ≠ (styled x (a2 :: vi) ++ _).map h2kP
          rw [e3, e4]
          intro h
          injection h with h _
          exact h2 z1 (by simpa using h3) z2 (by simpa using h4) h
    · rw [e1, low_quoteA hq, kana_quote_cons]
      obtain ⟨z1, w1, e3, h3⟩ := styled_cons x 'ん' []
      rw [e3]
      intro h
      injection h with h _
      rcases h3 with rfl | rfl <;> exact absurd h (by decide)
    · rw [e1]
      obtain ⟨n, k, hst⟩ := exists_stops (tree .ime) (d :: t)
      have hw2 : ((tree .ime).walk ['y']).isSome = true := by decide +kernel
      obtain ⟨m, hm⟩ := Option.isSome_iff_exists.1 hw2
      have hpre := stops_longest hst (p := ['y']) ⟨low t, by simp [low, hy]⟩ hm
      have h := walk_check y_paths hst.walk
      simp only [Bool.or_eq_true, Bool.not_eq_true', List.isPrefixOf_iff_prefix.2 hpre, reduceCtorEq, false_or] at h
      cases ho : n.output with
      | none =>
        rw [kana_miss hst ho]
        intro e
        injection e with e _
        have h6 := low_n_ne hc
        have h7 : d.toNat < 0x80 := by rcases low_eq_y hy with rfl | rfl <;> decide
        rw [h2kP_ascii h6, h2kP_ascii h7] at e
        rw [e, hy] at hc
        exact absurd hc (by decide)
      | some out =>
        rw [ho] at h
        cases out with
        | nil => cases h
        | cons e out =>
          have h : 0x80 ≤ e.toNat := by simpa using h
          rw [kana_hit hst ho]
          obtain ⟨z2, w2, e4, h4⟩ := styled_cons ((d :: t).take k) e out
          rw [e4]
          intro e5
          injection e5 with e5 _
          have h6 := low_n_ne hc
          rw [h2kP_ascii h6] at e5
          rw [e5] at h6
          have h7 : 0x80 ≤ z2.toNat := by
            rcases h4 with rfl | rfl
            · exact h
            · exact h2kP_high h
          have := h2kP_high h7
          omega
  · intro h
    have h1 := congrArg List.length h
    rw [normal_nA hc (fun d h1 h2 => by
        cases T with
        | nil => cases h1
        | cons d' t =>
          have : d' = d := by simpa using h1
          subst this
          exact hd ⟨d', t, rfl, h2⟩), List.length_map, List.length_map, List.length_append, styled_length] at h1
    have := (ime_le T).1
    simp at h1
    omega

theorem nOk_of_agreeK (s : Str) (h : (kana .ime s).map h2kP = (kana .normal s).map h2kP) : NOk s := by
  induction s using list_strong with
  | _ s ih =>
    by_cases hs : s = []
    · subst hs
      intro a b e
      have := congrArg List.length e
      simp [low] at this
    · by_cases hh : HeadOk s
      · obtain ⟨u, k, hk, hle, h1, h2, h3, _⟩ := same_read hs hh
        rw [h1, h2, List.map_append, List.map_append] at h
        have := List.length_pos_iff.2 hs
        exact NOk.of_drop hh h3 (ih _ (by simp [List.length_drop]; omega) (List.append_cancel_left h))
      · exfalso
        obtain ⟨c, t, rfl, hc, hn⟩ := not_headOk hh
        rw [normal_nA hc hn] at h
        obtain ⟨z1, w1, e3, h3⟩ := styled_cons [c] 'ん' []
        have hz : 0x80 ≤ z1.toNat := by rcases h3 with rfl | rfl <;> decide
        rcases ime_n hc hn with e | ⟨d, t', rfl, h1, e⟩
        · rw [e, e3] at h
          injection h with h _
          have h6 := low_n_ne hc
          rw [h2kP_ascii h6] at h
          rw [h] at h6
          have := h2kP_high hz
          omega
        · rw [e, List.map_append, List.map_append] at h
          have h5 := (List.append_inj h (by simp [styled_length])).2
          rcases h1 with h1 | rfl
          · exact n_differs h1 t' h5.symm
          · rw [kana_cons_not_head (by decide)] at h5
            have h6 := congrArg List.length h5
            have := (ime_le t').1
            simp at h6
            omega

theorem nOk_of_agree (s : Str) (h : kana .ime s = kana .normal s) : NOk s := nOk_of_agreeK s (by rw [h])

/-- **C127** Exactly when IME mode and the normal mode convert a text alike: with obsolete kana always, otherwise when
every n of the text, in either case, is followed by a vowel, y or an apostrophe, or follows an x. -/
theorem C127_exact {std : Std} (hstd : std.Lawful) (s : Str) (o : Options) :
    to_kana_with_opt std s { o with imemode := true } = to_kana_with_opt std s { o with imemode := false } ↔
      o.use_obsolete_kana = true ∨ ∀ a b, s.map Spec.asciiLower = a ++ 'n' :: b → a.getLast? = some 'x' ∨
        ∃ d, b.head? = some d ∧ d ∈ ['a', 'i', 'u', 'e', 'o', 'y', '\''] := by
  rw [to_kana_eq hstd, to_kana_eq hstd]
  unfold modeOf
  cases hu : o.use_obsolete_kana with
  | true => simp
  | false =>
    simp only [Bool.false_eq_true, if_true, if_false, false_or, Except.ok.injEq]
    constructor
    · intro h; exact nOk_of_agree s h
    · intro h; exact agree_of_nOk s h

/-- **C127** What IME mode writes is never longer. -/
theorem C127_shorter {std : Std} (hstd : std.Lawful) (s : Str) (o : Options) :
    ∃ u v, to_kana_with_opt std s { o with imemode := true } = .ok u ∧
      to_kana_with_opt std s { o with imemode := false } = .ok v ∧ u.length ≤ v.length := by
  refine ⟨_, _, to_kana_eq hstd _ _, to_kana_eq hstd _ _, ?_⟩
  unfold modeOf
  cases o.use_obsolete_kana with
  | true => exact Nat.le_refl _
  | false => exact (ime_le s).1

/-- texts of both kinds: `xNnaN'kanya` is read alike, `kan` and `konna` are not -/
example : NOk "xNnaN'kanya".toList ∧ ¬ NOk "kan".toList ∧ ¬ NOk "konna".toList := by
  refine ⟨nOk_of_agree _ (by decide +kernel), ?_, ?_⟩
  · intro h
    exact absurd (agree_of_nOk _ h) (by decide +kernel)
  · intro h
    exact absurd (agree_of_nOk _ h) (by decide +kernel)

end WanaKana
