import Verif.Props.SourceKanaRoots
import Verif.Props.SourceRomajiRoots
import Verif.Model.Trees
/-! # C120: the trees of the model are the ones written in the source -/

namespace WanaKana.C120
open WanaKana Spec C119

/-! ## The tokens determine the tree -/

theorem pairSource_split {c c' : Char} {t t' o o' x x' : List Tok}
    (h : pairSource c t o ++ x = pairSource c' t' o' ++ x') :
    c = c' ∧ t ++ ([.punct ',', .word "output".toList, .punct ':'] ++ (o ++ ([.punct '}', .punct ')'] ++ x))) =
      t' ++ ([.punct ',', .word "output".toList, .punct ':'] ++ (o' ++ ([.punct '}', .punct ')'] ++ x'))) := by
  simpa [pairSource] using h

theorem vecTokens_split {l l' : List (List Tok)} {x x' : List Tok}
    (h : vecTokens l ++ x = vecTokens l' ++ x') :
    commaSeparated l ++ .punct ']' :: x = commaSeparated l' ++ .punct ']' :: x' := by
  simpa [vecTokens] using h

theorem someTokens_split {l l' x x' : List Tok}
    (h : someTokens l ++ x = someTokens l' ++ x') : l ++ .punct ')' :: x = l' ++ .punct ')' :: x' := by
  simpa [someTokens] using h

theorem outSource_inj {o o' : Option Str} {x x' : List Tok} (h : outSource o ++ x = outSource o' ++ x') :
    o = o' ∧ x = x' := by
  cases o <;> cases o' <;> simp_all [outSource, someTokens]

theorem comma_cons (a : List Tok) (l : List (List Tok)) (x : List Tok) :
    ∃ y, commaSeparated (a :: l) ++ .punct ']' :: x = a ++ y ∧
      (l = [] → y = .punct ']' :: x) ∧ (l ≠ [] → y = .punct ',' :: (commaSeparated l ++ .punct ']' :: x)) := by
  cases l with
  | nil => exact ⟨_, rfl, fun _ => rfl, fun h => absurd rfl h⟩
  | cons b l =>
    refine ⟨_, ?_, fun h => (by cases h), fun _ => rfl⟩
    simp [commaSeparated]

theorem kPair_head (c : Char) (n : KNode) : ∃ y, kPairSource c n = .punct '(' :: y := by
  obtain ⟨t, o⟩ := n
  rw [kPairSource, pairSource]
  exact ⟨_, rfl⟩

theorem rPair_head (c : Char) (n : RNode) : ∃ y, rPairSource c n = .punct '(' :: y := by
  obtain ⟨t, o⟩ := n
  cases t <;> rw [rPairSource, pairSource] <;> exact ⟨_, rfl⟩

theorem kSource_ne (e : Char × KNode) (t : List (Char × KNode)) : kSource (e :: t) ≠ [] := by
  rw [kSource]; simp

theorem rSource_ne (e : Char × RNode) (t : List (Char × RNode)) : rSource (e :: t) ≠ [] := by
  rw [rSource]; simp

mutual
theorem kPair_inj : ∀ (c c' : Char) (n n' : KNode) (x x' : List Tok),
    kPairSource c n ++ x = kPairSource c' n' ++ x' → c = c' ∧ n = n' ∧ x = x'
  | c, c', .mk t o, .mk t' o', x, x', h => by
    rw [kPairSource, kPairSource] at h
    obtain ⟨rfl, h1⟩ := pairSource_split h
    obtain ⟨rfl, h2⟩ := kSource_inj t t' _ _ (vecTokens_split h1)
    simp only [List.cons_append, List.nil_append, List.cons.injEq, true_and] at h2
    obtain ⟨rfl, h3⟩ := outSource_inj h2
    simp only [List.cons.injEq, true_and] at h3
    exact ⟨rfl, rfl, h3⟩
theorem kSource_inj : ∀ (t t' : List (Char × KNode)) (x x' : List Tok),
    commaSeparated (kSource t) ++ .punct ']' :: x = commaSeparated (kSource t') ++ .punct ']' :: x' →
    t = t' ∧ x = x'
  | [], [], x, x', h => by
    simp only [kSource, commaSeparated, List.nil_append, List.cons.injEq, true_and] at h
    exact ⟨rfl, h⟩
  | [], (c, n) :: t, x, x', h => by
    rw [kSource, kSource] at h
    obtain ⟨y, hy, _⟩ := comma_cons (kPairSource c n) (kSource t) x'
    obtain ⟨z, hz⟩ := kPair_head c n
    rw [hy, hz] at h
    simp [commaSeparated] at h
  | (c, n) :: t, [], x, x', h => by
    rw [kSource, kSource] at h
    obtain ⟨y, hy, _⟩ := comma_cons (kPairSource c n) (kSource t) x
    obtain ⟨z, hz⟩ := kPair_head c n
    rw [hy, hz] at h
    simp [commaSeparated] at h
  | (c, n) :: t, (c', n') :: t', x, x', h => by
    rw [kSource, kSource] at h
    obtain ⟨y, hy, h1, h2⟩ := comma_cons (kPairSource c n) (kSource t) x
    obtain ⟨y', hy', h1', h2'⟩ := comma_cons (kPairSource c' n') (kSource t') x'
    rw [hy, hy'] at h
    obtain ⟨rfl, rfl, e⟩ := kPair_inj c c' n n' y y' h
    cases t with
    | nil =>
      rw [h1 (by rw [kSource])] at e
      cases t' with
      | nil =>
        rw [h1' (by rw [kSource])] at e
        simp only [List.cons.injEq, true_and] at e
        exact ⟨rfl, e⟩
      | cons e' t' =>
        rw [h2' (kSource_ne e' t')] at e
        simp at e
    | cons e1 t =>
      rw [h2 (kSource_ne e1 t)] at e
      cases t' with
      | nil =>
        rw [h1' (by rw [kSource])] at e
        simp at e
      | cons e' t' =>
        rw [h2' (kSource_ne e' t')] at e
        simp only [List.cons.injEq, true_and] at e
        obtain ⟨e2, e3⟩ := kSource_inj (e1 :: t) (e' :: t') x x' e
        rw [e2]
        exact ⟨rfl, e3⟩
end

mutual
theorem rPair_inj : ∀ (c c' : Char) (n n' : RNode) (x x' : List Tok),
    rPairSource c n ++ x = rPairSource c' n' ++ x' → c = c' ∧ n = n' ∧ x = x'
  | c, c', .mk none o, .mk none o', x, x', h => by
    rw [rPairSource, rPairSource] at h
    obtain ⟨rfl, h1⟩ := pairSource_split h
    simp only [List.cons_append, List.nil_append, List.cons.injEq, true_and, Tok.string.injEq] at h1
    exact ⟨rfl, by rw [h1.1], h1.2⟩
  | c, c', .mk none o, .mk (some t') o', x, x', h => by
    rw [rPairSource, rPairSource] at h
    have h1 := (pairSource_split h).2
    simp [someTokens] at h1
  | c, c', .mk (some t) o, .mk none o', x, x', h => by
    rw [rPairSource, rPairSource] at h
    have h1 := (pairSource_split h).2
    simp [someTokens] at h1
  | c, c', .mk (some t) o, .mk (some t') o', x, x', h => by
    rw [rPairSource, rPairSource] at h
    obtain ⟨rfl, h1⟩ := pairSource_split h
    obtain ⟨rfl, h2⟩ := rSource_inj t t' _ _ (vecTokens_split (someTokens_split h1))
    simp only [List.cons_append, List.nil_append, List.cons.injEq, true_and, Tok.string.injEq] at h2
    exact ⟨rfl, by rw [h2.1], h2.2⟩
theorem rSource_inj : ∀ (t t' : List (Char × RNode)) (x x' : List Tok),
    commaSeparated (rSource t) ++ .punct ']' :: x = commaSeparated (rSource t') ++ .punct ']' :: x' →
    t = t' ∧ x = x'
  | [], [], x, x', h => by
    simp only [rSource, commaSeparated, List.nil_append, List.cons.injEq, true_and] at h
    exact ⟨rfl, h⟩
  | [], (c, n) :: t, x, x', h => by
    rw [rSource, rSource] at h
    obtain ⟨y, hy, _⟩ := comma_cons (rPairSource c n) (rSource t) x'
    obtain ⟨z, hz⟩ := rPair_head c n
    rw [hy, hz] at h
    simp [commaSeparated] at h
  | (c, n) :: t, [], x, x', h => by
    rw [rSource, rSource] at h
    obtain ⟨y, hy, _⟩ := comma_cons (rPairSource c n) (rSource t) x
    obtain ⟨z, hz⟩ := rPair_head c n
    rw [hy, hz] at h
    simp [commaSeparated] at h
  | (c, n) :: t, (c', n') :: t', x, x', h => by
    rw [rSource, rSource] at h
    obtain ⟨y, hy, h1, h2⟩ := comma_cons (rPairSource c n) (rSource t) x
    obtain ⟨y', hy', h1', h2'⟩ := comma_cons (rPairSource c' n') (rSource t') x'
    rw [hy, hy'] at h
    obtain ⟨rfl, rfl, e⟩ := rPair_inj c c' n n' y y' h
    cases t with
    | nil =>
      rw [h1 (by rw [rSource])] at e
      cases t' with
      | nil =>
        rw [h1' (by rw [rSource])] at e
        simp only [List.cons.injEq, true_and] at e
        exact ⟨rfl, e⟩
      | cons e' t' =>
        rw [h2' (rSource_ne e' t')] at e
        simp at e
    | cons e1 t =>
      rw [h2 (rSource_ne e1 t)] at e
      cases t' with
      | nil =>
        rw [h1' (by rw [rSource])] at e
        simp at e
      | cons e' t' =>
        rw [h2' (rSource_ne e' t')] at e
        simp only [List.cons.injEq, true_and] at e
        obtain ⟨e2, e3⟩ := rSource_inj (e1 :: t) (e' :: t') x x' e
        rw [e2]
        exact ⟨rfl, e3⟩
end

/-! ## The claims -/

theorem all_text (first last : List String) (texts : List (List String)) (toks : List (List Tok))
    (a b : List Tok) (c : Tok) (hc : isClosing c = true) (hf : allTokens first = some a) (hl : allTokens last = some (c :: b))
    (ht : texts.map rootTokens = toks.map some) (ho : ∀ t ∈ toks, opens t = true) (hne : toks ≠ []) :
    (readTokens (linesText (first ++ texts.flatten ++ last))).map withoutTrailing =
      some (withoutTrailing a ++ commaSeparated toks ++ withoutTrailing (c :: b)) := by
  obtain ⟨m, hm, hn, hh, hw⟩ := roots_spec texts toks ht ho
  have hr := ((reads_lines hf).trans hm).trans (reads_lines hl)
  have hl : linesText (first ++ texts.flatten ++ last) =
      linesText first ++ linesText texts.flatten ++ linesText last := by simp [linesText]
  have := hr []
  rw [List.append_nil] at this
  rw [readTokens, hl, this]
  simp only [readFrom, Option.map_some, Option.some.injEq, List.append_nil]
  rw [List.append_assoc, withoutTrailing_append a _ (by
    intro t e
    cases m with
    | nil => exact absurd (hn.1 rfl) hne
    | cons t' m => exact hh t e), hw c b hc, List.append_assoc]

/-- C120: the text of src/to_kana_node_tree.rs:53-4811, read as Rust tokens, is
`let transitions = vec![..];` with exactly the transitions of the model's kana tree. -/
theorem C120_kana :
    (readTokens (linesText (kanaTextFirst ++ kanaTexts.flatten ++ kanaTextLast))).map withoutTrailing =
      some (letTokens (vecTokens (kSource kanaTransitions))) := by
  rw [all_text kanaTextFirst kanaTextLast kanaTexts (kSource kanaTransitions)
    [.word "let".toList, .word "transitions".toList, .punct '=', .word "vec".toList, .punct '!', .punct '[']
    [.punct ';'] (.punct ']') rfl (by decide +kernel) (by decide +kernel) kana_roots ?_ ?_]
  · simp [letTokens, vecTokens, withoutTrailing, isClosing]
  · rw [kSource_map]
    intro t ht
    obtain ⟨⟨c, n⟩, _, rfl⟩ := List.mem_map.1 ht
    obtain ⟨y, hy⟩ := kPair_head c n
    rw [hy]
    rfl
  · rw [kSource_map]
    simp [kanaTransitions]

/-- C120: and of src/to_romaji_node_tree.rs:44-2674. -/
theorem C120_romaji :
    (readTokens (linesText (romajiTextFirst ++ romajiTexts.flatten ++ romajiTextLast))).map withoutTrailing =
      some (letTokens (someTokens (vecTokens (rSource romajiTransitions)))) := by
  rw [all_text romajiTextFirst romajiTextLast romajiTexts (rSource romajiTransitions)
    [.word "let".toList, .word "transitions".toList, .punct '=', .word "Some".toList, .punct '(',
      .word "vec".toList, .punct '!', .punct '[']
    [.punct ')', .punct ';'] (.punct ']') rfl (by decide +kernel) (by decide +kernel) romaji_roots ?_ ?_]
  · simp [letTokens, vecTokens, someTokens, withoutTrailing, isClosing]
  · rw [rSource_map]
    intro t ht
    obtain ⟨⟨c, n⟩, _, rfl⟩ := List.mem_map.1 ht
    obtain ⟨y, hy⟩ := rPair_head c n
    rw [hy]
    rfl
  · rw [rSource_map]
    simp [romajiTransitions]

/-- C120: no other tree is written like that. -/
theorem C120_unique :
    (∀ t, (readTokens (linesText (kanaTextFirst ++ kanaTexts.flatten ++ kanaTextLast))).map withoutTrailing =
      some (letTokens (vecTokens (kSource t))) → t = kanaTransitions) ∧
    (∀ t, (readTokens (linesText (romajiTextFirst ++ romajiTexts.flatten ++ romajiTextLast))).map withoutTrailing =
      some (letTokens (someTokens (vecTokens (rSource t)))) → t = romajiTransitions) := by
  constructor
  · intro t h
    rw [C120_kana] at h
    have e : letTokens (vecTokens (kSource kanaTransitions)) = letTokens (vecTokens (kSource t)) :=
      Option.some.inj h
    have : vecTokens (kSource kanaTransitions) ++ [.punct ';'] = vecTokens (kSource t) ++ [.punct ';'] := by
      simpa [letTokens] using e
    exact (kSource_inj _ _ _ _ (vecTokens_split this)).1.symm
  · intro t h
    rw [C120_romaji] at h
    have e : letTokens (someTokens (vecTokens (rSource romajiTransitions))) =
        letTokens (someTokens (vecTokens (rSource t))) := Option.some.inj h
    have : someTokens (vecTokens (rSource romajiTransitions)) ++ [.punct ';'] =
        someTokens (vecTokens (rSource t)) ++ [.punct ';'] := by
      simpa [letTokens] using e
    exact (rSource_inj _ _ _ _ (vecTokens_split (someTokens_split this))).1.symm

/-- the static trees are these literals, sorted -/
example : TO_KANA_NODE_TREE = (KNode.mk kanaTransitions none).sort ∧
    TO_ROMAJI_NODE_TREE = (RNode.mk (some romajiTransitions) []).sort := ⟨rfl, rfl⟩

end WanaKana.C120
