import Verif.Proofs.KanaTable
import Verif.Spec.ToKana
/-! # Properties of `to_kana` (C09–C15) -/

namespace WanaKana
open KNode

/-! ## C09 to_kana never panics and always terminates -/

/-- `to_kana_with_opt` returns for every text, option and standard library; in particular the
loop ends within `s.length` iterations (the fuel is `s.length + 1`, the last unit is used by
the final test). -/
theorem C09_total {std : Std} (hstd : std.Lawful) (s : Str) (o : Options) :
    ∃ r, to_kana_with_opt std s o = .ok r := ⟨_, to_kana_eq hstd s o⟩

/-- Started anywhere in the text with one unit of fuel per remaining character (and one for
the final test), the loop returns; less would do only if characters are consumed together. -/
theorem C09_loop {std : Std} (hstd : std.Lawful) (s : Str) (o : Options) (pos : Nat) (out : Str)
    (h : pos ≤ s.length) :
    ∃ r, toKanaLoop std o s s.length (s.length - pos + 1) pos out = .ok r :=
  ⟨_, toKanaLoop_eq hstd o s _ pos out h (by omega)⟩

/-- the plain function is the one with default options, and returns too -/
theorem C09_default {std : Std} (hstd : std.Lawful) (s : Str) : ∃ r, to_kana std s = .ok r :=
  C09_total hstd s {}

/-- The static trees are built without a panic (`find_transition_mut(..).unwrap()`). -/
theorem C09_trees : (∃ t, TO_KANA_NODE_TREE_OBSOLETE = .ok t) ∧ (∃ t, TO_KANA_NODE_TREE_IMEMODE = .ok t) :=
  ⟨⟨_, obs_ok⟩, ⟨_, ime_ok⟩⟩

/-! ## C10 to_kana is greedy table transliteration -/

theorem asciiLower_eq : Spec.asciiLower = toAsciiLowercase := by
  funext c
  unfold Spec.asciiLower toAsciiLowercase
  by_cases h : Spec.AsciiUpper c
  · have h' : 65 ≤ c.toNat ∧ c.toNat ≤ 90 := h
    rw [if_pos h, if_pos h']
  · have h' : ¬ (65 ≤ c.toNat ∧ c.toNat ≤ 90) := h
    rw [if_neg h, if_neg h']

theorem toKata_eq : Spec.toKata = h2kP := by
  funext c
  unfold Spec.toKata h2kP
  by_cases h : Spec.HiraganaLetter c
  · have h' : 12353 ≤ c.toNat ∧ c.toNat ≤ 12438 := h
    rw [if_pos h, if_pos h']
  · have h' : ¬ (12353 ≤ c.toNat ∧ c.toNat ≤ 12438) := h
    rw [if_neg h, if_neg h']

theorem asciiUpper_iff {c : Char} : Spec.AsciiUpper c ↔ aUpper c = true := aUpper_iff.symm

theorem tableFor_eq (o : Options) :
    Spec.tableFor o.use_obsolete_kana o.imemode = tableOf (modeOf o) := by
  unfold Spec.tableFor modeOf
  split
  · rfl
  · split <;> rfl

theorem styled_spec (x out : Str) :
    (if ∀ c ∈ x, Spec.AsciiUpper c then out.map Spec.toKata else out) = styled x out := by
  unfold styled
  rw [toKata_eq]
  by_cases h : ∀ c ∈ x, Spec.AsciiUpper c
  · rw [if_pos h, if_pos (List.all_eq_true.2 fun c hc => asciiUpper_iff.1 (h c hc))]
  · rw [if_neg h, if_neg]
    intro h'
    exact h fun c hc => asciiUpper_iff.2 (List.all_eq_true.1 h' c hc)

theorem tableOf_ne_nil (m : Mode) : ∃ k, k ∈ tableOf m := by
  cases m <;> exact ⟨_, List.mem_cons_self⟩

/-- the walk stops exactly at the longest key prefix -/
theorem longest_of_stops {m : Mode} {s : Str} {n : KNode} {k : Nat} (h : Stops (tree m) s n k) :
    Spec.LongestKeyPrefix (tableOf m) (s.map Spec.asciiLower) (low (s.take k)) := by
  rw [asciiLower_eq]
  have e1 : low (s.take k) = (s.map toAsciiLowercase).take k := List.map_take
  refine ⟨?_, ?_, ?_⟩
  · rw [e1]; exact List.take_prefix _ _
  · by_cases hp : low (s.take k) = []
    · obtain ⟨x, hx⟩ := tableOf_ne_nil m
      exact ⟨x, hx, by rw [hp]; exact List.nil_prefix⟩
    · exact (walk_table h.walk hp).2
  · intro q' hq' hk
    obtain ⟨key, hkey, hpre⟩ := hk
    obtain ⟨n', hn'⟩ := walk_of_prefix hkey hpre
    have hlen : (low (s.take k)).length = k := by
      have := h.le; simp [low]; omega
    rw [hlen]
    refine Nat.le_of_not_lt fun hlt => ?_
    -- q' = low (take k) ++ next :: _
    have hq : q' = (s.map toAsciiLowercase).take q'.length := List.prefix_iff_eq_take.1 hq'
    have hql : q'.length ≤ s.length := by have := hq'.length_le; simpa using this
    cases hd : s.drop k with
    | nil => have := congrArg List.length hd; simp at this; omega
    | cons c r =>
      have hs : s = s.take k ++ c :: r := by rw [← hd, List.take_append_drop]
      have hq2 : q' = low (s.take k) ++ (toAsciiLowercase c :: (r.map toAsciiLowercase).take (q'.length - k - 1)) := by
        conv => lhs; rw [hq, hs]
        rw [List.map_append, List.take_append]
        have hl2 : (List.map toAsciiLowercase (List.take k s)).length = k := hlen
        rw [hl2, List.take_of_length_le (by rw [hl2]; omega)]
        obtain ⟨j, hj⟩ : ∃ j, q'.length - k = j + 1 := ⟨q'.length - k - 1, by omega⟩
        rw [hj]
        rfl
      rw [hq2, walk_append, h.walk] at hn'
      have hstop := h.stop c (by rw [hd]; rfl)
      simp only [Option.bind, KNode.walk, hstop] at hn'
      cases hn'

theorem longest_unique {t : Spec.Table} {l q q' : Str} (h : Spec.LongestKeyPrefix t l q)
    (h' : Spec.LongestKeyPrefix t l q') : q = q' := by
  have h1 := h.longest q' h'.isPrefix h'.key
  have h2 := h'.longest q h.isPrefix h.key
  exact (List.prefix_of_prefix_length_le h.isPrefix h'.isPrefix h2).eq_of_length (by omega)

theorem output_eq_lookup {m : Mode} {p : Str} {n : KNode} (hw : (tree m).walk p = some n) :
    n.output = (tableOf m).lookup p := by
  by_cases hp : p = []
  · subst hp
    simp only [KNode.walk, Option.some.injEq] at hw
    rw [← hw, tree_output]
    symm
    rw [List.lookup_eq_none_iff]
    intro k hk
    have := key_ne_nil hk
    simpa using this
  · exact (walk_table hw hp).1

theorem greedy_kana (m : Mode) (s : Str) : Spec.Greedy (tableOf m) s (kana m s) := by
  induction s using list_strong with
  | _ s ih =>
    cases s with
    | nil => rw [kana_nil]; exact .nil
    | cons c s =>
      obtain ⟨n, k, hst⟩ := exists_stops (tree m) (c :: s)
      have hl := longest_of_stops hst
      have hlook := output_eq_lookup hst.walk
      have hlen : (low ((c :: s).take k)).length = k := by
        have := hst.le; simp only [low, List.length_map, List.length_take]; omega
      cases ho : n.output with
      | none =>
        rw [kana_miss hst ho]
        rw [ho] at hlook
        exact .miss hl hlook.symm (ih s (by simp))
      | some out =>
        rw [kana_hit hst ho, ← styled_spec]
        rw [ho] at hlook
        have hk := stops_pos hst ho
        have := Spec.Greedy.hit hl hlook.symm (r := kana m ((c :: s).drop k)) (by
          rw [hlen]
          exact ih _ (by simp [List.length_drop]; omega))
        rwa [hlen] at this

theorem greedy_unique {m : Mode} {s r : Str} (h : Spec.Greedy (tableOf m) s r) : r = kana m s := by
  induction h with
  | nil => rw [kana_nil]
  | @hit s q out r hl hlook _ ih =>
    obtain ⟨n, k, hst⟩ := exists_stops (tree m) s
    have hq := longest_unique hl (longest_of_stops hst)
    have ho : n.output = some out := by rw [output_eq_lookup hst.walk, ← hq, hlook]
    have hlen : (low (s.take k)).length = k := by
      have := hst.le; simp only [low, List.length_map, List.length_take]; omega
    rw [kana_hit hst ho, styled_spec, ih, hq, hlen]
  | @miss c s q r hl hlook _ ih =>
    obtain ⟨n, k, hst⟩ := exists_stops (tree m) (c :: s)
    have hq := longest_unique hl (longest_of_stops hst)
    have ho : n.output = none := by rw [output_eq_lookup hst.walk, ← hq, hlook]
    rw [kana_miss hst ho, ih]

/-- C10: `to_kana` computes exactly the greedy transliteration with the rule-generated table
of the selected mode. -/
theorem C10_greedy {std : Std} (hstd : std.Lawful) (s r : Str) (o : Options) :
    to_kana_with_opt std s o = .ok r ↔
      Spec.Greedy (Spec.tableFor o.use_obsolete_kana o.imemode) s r := by
  rw [to_kana_eq hstd, tableFor_eq]
  constructor
  · intro h; cases h; exact greedy_kana _ _
  · intro h; rw [greedy_unique h]

/-- The trie of each mode stores exactly the table: the paths below the root are the non-empty
prefixes of keys, and the output at a path is the table entry. -/
theorem C10_table (m : Mode) (p : Str) (hp : p ≠ []) :
    ((∃ n, (tree m).walk p = some n) ↔ ∃ k ∈ tableOf m, p <+: k.1) ∧
    ∀ n, (tree m).walk p = some n → n.output = (tableOf m).lookup p :=
  ⟨⟨fun ⟨_, h⟩ => (walk_table h hp).2, fun ⟨_, hk, h⟩ => walk_of_prefix hk h⟩,
   fun _ h => (walk_table h hp).1⟩

/-- the table is not empty and contains e.g. `KYA → きゃ` (non-vacuity); capitals select katakana -/
example : Spec.normalTable.lookup ['k', 'y', 'a'] = some ['き', 'ゃ'] := by decide +kernel
example : kana .normal ['K', 'Y', 'A', 'k', 'x', 'a'] = ['キ', 'ャ', 'k', 'ぁ'] := by decide +kernel

/-! ## C11 to_kana leaves text without romaji untouched -/

/-- a character that can begin a table entry: an ASCII letter or convertible punctuation -/
def CanStart (c : Char) : Prop :=
  Spec.AsciiLetter c ∨ c ∈ ['!', '(', ')', ',', '-', '.', '/', ':', '?', '[', ']', '{', '}', '~',
    '‘', '’', '“', '”']

instance (c : Char) : Decidable (CanStart c) := by unfold CanStart; infer_instance

theorem headChar_low_iff {c : Char} : headChar (toAsciiLowercase c) = true ↔ CanStart c := by
  simp only [CanStart, Spec.AsciiLetter, Spec.In, List.mem_cons, List.not_mem_nil, or_false,
    char_eq_iff, Char.reduceToNat, headChar_iff, toAsciiLowercase_toNat]
  split <;> omega

/-- `CanStart` is what the table says: some key begins with the lowercased character. -/
theorem C11_canStart (c : Char) (o : Options) : CanStart c ↔
    ∃ k ∈ Spec.tableFor o.use_obsolete_kana o.imemode, k.1.head? = some (Spec.asciiLower c) := by
  rw [← headChar_low_iff, tableFor_eq, asciiLower_eq]
  generalize modeOf o = m
  constructor
  · intro h
    have hall : ([Mode.normal, .obsolete, .ime].all fun m =>
        (((List.range 26).map (97 + ·) ++ [33, 40, 41, 44, 45, 46, 47, 58, 63, 91, 93, 123, 125, 126,
          0x2018, 0x2019, 0x201C, 0x201D]).all fun i =>
            (((tree m).find_transition_node (Char.ofNat i)).isSome))) = true := by decide +kernel
    have h1 := List.all_eq_true.1 hall m (by cases m <;> simp)
    have h2 := List.all_eq_true.1 h1 (toAsciiLowercase c).toNat (by
      rw [headChar_iff] at h
      rcases h with h | h
      · exact List.mem_append_left _ (List.mem_map.2
          ⟨(toAsciiLowercase c).toNat - 97, List.mem_range.2 (by omega), by omega⟩)
      · exact List.mem_append_right _ h)
    rw [Char.ofNat_toNat] at h2
    obtain ⟨n, hn⟩ := Option.isSome_iff_exists.1 h2
    have hw : (tree m).walk [toAsciiLowercase c] = some n := by rw [walk_singleton, hn]
    obtain ⟨k, hk, hp⟩ := (walk_table hw (by simp)).2
    refine ⟨k, hk, ?_⟩
    obtain ⟨r, hr⟩ := hp
    rw [← hr]; rfl
  · rintro ⟨k, hk, hh⟩
    obtain ⟨n, hn⟩ := walk_of_prefix hk (p := [toAsciiLowercase c]) (by
      cases hk1 : k.1 with
      | nil => rw [hk1] at hh; cases hh
      | cons d r =>
        rw [hk1] at hh
        simp at hh; rw [hh]
        exact ⟨r, rfl⟩)
    exact walk_head hn _ (by simp)

/-- C11: text in which no character can begin a table entry is returned unchanged. -/
theorem C11_unchanged {std : Std} (hstd : std.Lawful) (s : Str) (o : Options)
    (h : ∀ c ∈ s, ¬ CanStart c) : to_kana_with_opt std s o = .ok s := by
  rw [to_kana_eq hstd]
  have := kana_of_not_head (m := modeOf o) (s := s) (fun c hc => by
    rw [Bool.eq_false_iff, Ne, headChar_low_iff]; exact h c hc) []
  rw [List.append_nil, kana_nil, List.append_nil] at this
  rw [this]

/-- In particular Japanese text, digits and spaces are never touched. -/
theorem C11_japanese {std : Std} (hstd : std.Lawful) (s : Str) (o : Options)
    (h : ∀ c ∈ s, Spec.Japanese c ∨ Spec.LatinDigit c ∨ c = ' ') : to_kana_with_opt std s o = .ok s := by
  apply C11_unchanged hstd
  intro c hc
  have := h c hc
  simp only [CanStart, Spec.Japanese, Spec.LatinDigit, Spec.AsciiLetter, Spec.In, List.mem_cons,
    List.not_mem_nil, or_false, char_eq_iff, Char.reduceToNat] at *
  omega

example : ∀ c ∈ ['ワ', '鰐', ' ', '2', '@'], ¬ CanStart c := by decide +kernel

/-! ## C12 to_kana converts word by word -/

/-- a character that may continue a romaji word: letters, the apostrophe, and in IME mode the
space -/
def Continues (o : Options) (c : Char) : Prop :=
  Spec.AsciiLetter c ∨ c = '\'' ∨ (o.imemode = true ∧ o.use_obsolete_kana = false ∧ c = ' ')

instance (o : Options) (c : Char) : Decidable (Continues o c) := by unfold Continues; infer_instance

theorem modeOf_ime {o : Options} : modeOf o = .ime ↔ o.imemode = true ∧ o.use_obsolete_kana = false := by
  unfold modeOf
  cases o.use_obsolete_kana <;> cases o.imemode <;> simp

theorem tailChar_low_iff {o : Options} {c : Char} :
    tailChar (modeOf o) (toAsciiLowercase c) = true ↔ Continues o c := by
  simp only [Continues, Spec.AsciiLetter, Spec.In, tailChar_iff, toAsciiLowercase_toNat, modeOf_ime,
    char_eq_iff, Char.reduceToNat]
  constructor
  · rintro (h | h | ⟨h1, h⟩)
    · left; split at h <;> omega
    · right; left; split at h <;> omega
    · right; right; refine ⟨h1.1, h1.2, ?_⟩; split at h <;> omega
  · rintro (h | h | ⟨h1, h2, h⟩)
    · left; split <;> omega
    · right; left; split <;> omega
    · right; right; refine ⟨⟨h1, h2⟩, ?_⟩; split <;> omega

/-- C12: conversion splits before every character that cannot continue a romaji word. -/
theorem C12_append {std : Std} (hstd : std.Lawful) (a b : Str) (o : Options)
    (h : ∀ c, b.head? = some c → ¬ Continues o c) :
    ∃ ra rb, to_kana_with_opt std a o = .ok ra ∧ to_kana_with_opt std b o = .ok rb ∧
      to_kana_with_opt std (a ++ b) o = .ok (ra ++ rb) := by
  refine ⟨_, _, to_kana_eq hstd a o, to_kana_eq hstd b o, ?_⟩
  rw [to_kana_eq hstd, kana_append]
  apply cut_of_not_tail
  intro c hc
  rw [Bool.eq_false_iff, Ne, tailChar_low_iff]
  exact h c hc

example : ∀ c, ['　', 'k', 'a'].head? = some c → ¬ Continues {} c := by
  intro c h; cases h; decide
/-- the condition matters: `k | a` and, in IME mode, `n | ␣` do not split -/
example : kana .normal ['k', 'a'] ≠ kana .normal ['k'] ++ kana .normal ['a'] := by decide +kernel
example : kana .ime ['n', ' '] ≠ kana .ime ['n'] ++ kana .ime [' '] := by decide +kernel
example : kana .normal ['n', '\''] ≠ kana .normal ['n'] ++ kana .normal ['\''] := by decide +kernel

/-! ## C13 Letter case only chooses the script -/

/-- forget script and case: lowercase, then katakana -/
def fold (s : Str) : Str := s.map fun c => Spec.toKata (Spec.asciiLower c)

theorem fold_append (a b : Str) : fold (a ++ b) = fold a ++ fold b := by simp [fold]

theorem fold_styled (x out : Str) : fold (styled x out) = fold out := by
  unfold styled
  split
  · unfold fold
    rw [List.map_map]
    apply List.map_congr_left
    intro c _
    simp only [Function.comp, toKata_eq, asciiLower_eq]
    apply char_ext
    simp only [h2kP_toNat, toAsciiLowercase_toNat]
    repeat' split
    all_goals omega
  · rfl

theorem fold_kana (m : Mode) (s s' : Str) (h : low s = low s') : fold (kana m s) = fold (kana m s') := by
  induction s using list_strong generalizing s' with
  | _ s ih =>
    have hl : s.length = s'.length := by have := congrArg List.length h; simpa using this
    cases s with
    | nil =>
      cases s' with
      | nil => rfl
      | cons _ _ => simp at hl
    | cons c s =>
      cases s' with
      | nil => simp at hl
      | cons c' s' =>
        obtain ⟨n, k, hst⟩ := exists_stops (tree m) (c :: s)
        have hst' := stops_congr_low hst h
        have hcs : toAsciiLowercase c = toAsciiLowercase c' ∧ low s = low s' := by
          simpa [low] using h
        cases ho : n.output with
        | none =>
          rw [kana_miss hst ho, kana_miss hst' ho]
          have h1 : fold (c :: kana m s) = Spec.toKata (Spec.asciiLower c) :: fold (kana m s) := rfl
          have h2 : fold (c' :: kana m s') = Spec.toKata (Spec.asciiLower c') :: fold (kana m s') := rfl
          rw [h1, h2, ih s (by simp) s' hcs.2, asciiLower_eq, hcs.1]
        | some out =>
          have hk := stops_pos hst ho
          rw [kana_hit hst ho, kana_hit hst' ho, fold_append, fold_append, fold_styled, fold_styled]
          rw [ih ((c :: s).drop k) (by simp [List.length_drop]; omega) ((c' :: s').drop k)]
          have e1 : low ((c :: s).drop k) = (low (c :: s)).drop k := List.map_drop
          have e2 : low ((c' :: s').drop k) = (low (c' :: s')).drop k := List.map_drop
          rw [e1, e2, h]

/-- C13: texts that differ only in the case of ASCII letters convert to texts that differ only
in script and in the case of letters passed through. -/
theorem C13_case {std : Std} (hstd : std.Lawful) (s s' : Str) (o : Options)
    (h : s.map Spec.asciiLower = s'.map Spec.asciiLower) :
    ∃ r r', to_kana_with_opt std s o = .ok r ∧ to_kana_with_opt std s' o = .ok r' ∧
      fold r = fold r' := by
  refine ⟨_, _, to_kana_eq hstd s o, to_kana_eq hstd s' o, ?_⟩
  rw [asciiLower_eq] at h
  exact fold_kana _ _ _ h

example : ['K', 'a', 'N'].map Spec.asciiLower = ['k', 'A', 'n'].map Spec.asciiLower := by decide +kernel

/-! ## C14 Lowercase input yields hiragana, uppercase input yields katakana -/

theorem mem_kana_cases (m : Mode) (s : Str) (c : Char) (h : c ∈ kana m s) :
    c ∈ s ∨ ∃ s1 x s2 n out, s = s1 ++ x ++ s2 ∧ x ≠ [] ∧ (tree m).walk (low x) = some n ∧
      n.output = some out ∧ c ∈ styled x out := by
  induction s using list_strong with
  | _ s ih =>
    cases s with
    | nil => rw [kana_nil] at h; cases h
    | cons d s =>
      obtain ⟨n, k, hst⟩ := exists_stops (tree m) (d :: s)
      cases ho : n.output with
      | none =>
        rw [kana_miss hst ho] at h
        rcases List.mem_cons.1 h with h | h
        · left; rw [h]; simp
        · rcases ih s (by simp) h with h | ⟨s1, x, s2, n, out, e, h⟩
          · left; simp [h]
          · exact Or.inr ⟨d :: s1, x, s2, n, out, by rw [e]; rfl, h⟩
      | some out =>
        have hk := stops_pos hst ho
        rw [kana_hit hst ho] at h
        rcases List.mem_append.1 h with h | h
        · refine Or.inr ⟨[], (d :: s).take k, (d :: s).drop k, n, out, by simp, ?_, hst.walk, ho, h⟩
          obtain ⟨j, rfl⟩ : ∃ j, k = j + 1 := ⟨k - 1, by omega⟩
          simp
        · rcases ih ((d :: s).drop k) (by simp [List.length_drop]; omega) h with h | ⟨s1, x, s2, n, out, e, h⟩
          · left; exact List.mem_of_mem_drop h
          · refine Or.inr ⟨(d :: s).take k ++ s1, x, s2, n, out, ?_, h⟩
            rw [List.append_assoc, List.append_assoc, ← List.append_assoc s1, ← e, List.take_append_drop]

/-- C14, lower case: without ASCII capitals in the input, every katakana character of the
result was already there or is one of the table symbols ヵ ヶ ・ ー. -/
theorem C14_lower {std : Std} (hstd : std.Lawful) (s : Str) (o : Options)
    (h : ∀ c ∈ s, ¬ Spec.AsciiUpper c) :
    ∃ r, to_kana_with_opt std s o = .ok r ∧
      ∀ c ∈ r, Spec.Katakana c → c ∈ s ∨ c ∈ ['ヵ', 'ヶ', '・', 'ー'] := by
  refine ⟨_, to_kana_eq hstd s o, ?_⟩
  intro c hc hk
  rcases mem_kana_cases _ _ _ hc with hc | ⟨s1, x, s2, n, out, e, hne, hw, ho, hm⟩
  · exact Or.inl hc
  · right
    unfold styled at hm
    have hnu : x.all aUpper = false := by
      cases x with
      | nil => exact absurd rfl hne
      | cons y x =>
        have : aUpper y = false := by
          rw [Bool.eq_false_iff, Ne, ← asciiUpper_iff]
          apply h; rw [e]; simp
        simp [this]
    rw [hnu] at hm
    simp only [Bool.false_eq_true, if_false] at hm
    have := (walk_output hw ho).2.2 c hm
    rw [outChar_iff] at this
    rw [specKatakana_iff] at hk
    simp only [List.mem_cons, List.not_mem_nil, or_false, char_eq_iff, Char.reduceToNat] at *
    omega

example : ∀ c ∈ ['k', 'a', 'カ'], ¬ Spec.AsciiUpper c := by decide +kernel

/-- keys that produce hiragana consist of letters, except `n'` and, in IME mode, `n␣` -/
theorem walk_letters {m : Mode} {p : Str} {n : KNode} (hw : (tree m).walk p = some n) {out : Str}
    (ho : n.output = some out) : (∀ c ∈ p, aLower c = true) ∨ p = ['n', '\''] ∨
      (m = .ime ∧ p = ['n', ' ']) ∨ ∀ c ∈ out, ¬ Spec.HiraganaLetter c := by
  have h : allModes (fun m x => x.1.all aLower || decide (x.1 = ['n', '\'']) ||
    (decide (m = .ime) && decide (x.1 = ['n', ' '])) ||
    (match x.2.output with
    | none => true
    | some out => out.all fun c => decide (¬ Spec.HiraganaLetter c))) = true := by
    decide +kernel
  have := allModes_walk h hw
  simp only [ho, Bool.or_eq_true, Bool.and_eq_true, decide_eq_true_iff, List.all_eq_true] at this
  rcases this with ((h | h) | h) | h
  · exact Or.inl h
  · exact Or.inr (Or.inl h)
  · exact Or.inr (Or.inr (Or.inl h))
  · exact Or.inr (Or.inr (Or.inr h))

theorem low_pair {x : Str} {a b : Char} (h : low x = [a, b]) :
    ∃ a' b', x = [a', b'] ∧ toAsciiLowercase a' = a ∧ toAsciiLowercase b' = b := by
  match x, h with
  | [a', b'], h =>
    simp [low] at h
    exact ⟨a', b', rfl, h.1, h.2⟩

theorem low_eq_n {a' : Char} (h : toAsciiLowercase a' = 'n') : a' = 'n' ∨ a' = 'N' := by
  rw [char_eq_iff, toAsciiLowercase_toNat] at h
  simp only [char_eq_iff, Char.reduceToNat] at *
  split at h <;> omega

theorem low_eq_nonletter {b' b : Char} (hb : b.toNat < 65) (h : toAsciiLowercase b' = b) : b' = b := by
  rw [char_eq_iff, toAsciiLowercase_toNat] at h
  rw [char_eq_iff]
  split at h <;> omega

/-- C14, upper case: if all ASCII letters are capitals and there is no `N'` (nor, in IME mode,
`N␣`), every hiragana letter of the result was already there. -/
theorem C14_upper {std : Std} (hstd : std.Lawful) (s : Str) (o : Options)
    (h : ∀ c ∈ s, Spec.AsciiLetter c → Spec.AsciiUpper c) (h1 : ¬ ['N', '\''] <:+: s)
    (h2 : o.imemode = true → o.use_obsolete_kana = false → ¬ ['N', ' '] <:+: s) :
    ∃ r, to_kana_with_opt std s o = .ok r ∧ ∀ c ∈ r, Spec.HiraganaLetter c → c ∈ s := by
  refine ⟨_, to_kana_eq hstd s o, ?_⟩
  intro c hc hh
  rcases mem_kana_cases _ _ _ hc with hc | ⟨s1, x, s2, n, out, e, hne, hw, ho, hm⟩
  · exact hc
  exfalso
  have hx : ∀ y ∈ x, y ∈ s := by
    intro y hy; rw [e]; simp [hy]
  have hinf : x <:+: s := ⟨s1, s2, e.symm⟩
  rcases walk_letters hw ho with hl | hl | ⟨hm', hl⟩ | hl
  · -- all letters: katakana
    have hu : x.all aUpper = true := by
      rw [List.all_eq_true]
      intro y hy
      rw [← asciiUpper_iff]
      apply h y (hx y hy)
      have := hl (toAsciiLowercase y) (List.mem_map_of_mem hy)
      rw [aLower_iff, toAsciiLowercase_toNat] at this
      simp only [Spec.AsciiLetter, Spec.In]
      split at this <;> omega
    unfold styled at hm
    rw [if_pos hu] at hm
    obtain ⟨d, _, rfl⟩ := List.mem_map.1 hm
    simp only [Spec.HiraganaLetter, Spec.In, h2kP_toNat] at hh
    split at hh <;> omega
  · obtain ⟨a', b', rfl, ha, hb⟩ := low_pair hl
    have hb' := low_eq_nonletter (by decide) hb
    subst hb'
    rcases low_eq_n ha with rfl | rfl
    · have := h 'n' (hx _ (by simp)) (by decide)
      revert this; decide
    · exact h1 hinf
  · obtain ⟨a', b', rfl, ha, hb⟩ := low_pair hl
    have hb' := low_eq_nonletter (by decide) hb
    subst hb'
    rcases low_eq_n ha with rfl | rfl
    · have := h 'n' (hx _ (by simp)) (by decide)
      revert this; decide
    · rw [modeOf_ime] at hm'
      exact h2 hm'.1 hm'.2 hinf
  · unfold styled at hm
    split at hm
    · obtain ⟨d, hd, rfl⟩ := List.mem_map.1 hm
      simp only [Spec.HiraganaLetter, Spec.In, h2kP_toNat] at hh
      split at hh <;> omega
    · exact hl c hm hh

example : (∀ c ∈ ['K', 'A', 'あ', '!'], Spec.AsciiLetter c → Spec.AsciiUpper c)
    ∧ ¬ ['N', '\''] <:+: ['K', 'A', 'あ', '!'] := by decide +kernel
/-- the exclusions matter: `N'` gives hiragana -/
example : kana .normal ['N', '\''] = ['ん'] ∧ kana .ime ['N', ' '] = ['ん'] := by decide +kernel

/-! ## C15 to_kana never lengthens text -/

theorem kana_length (m : Mode) (s : Str) : (kana m s).length ≤ s.length := by
  induction s using list_strong with
  | _ s ih =>
    cases s with
    | nil => rw [kana_nil]; exact Nat.le_refl _
    | cons c s =>
      obtain ⟨n, k, hst⟩ := exists_stops (tree m) (c :: s)
      cases ho : n.output with
      | none =>
        rw [kana_miss hst ho]
        have := ih s (by simp)
        simpa using this
      | some out =>
        have hk := stops_pos hst ho
        have hle := hst.le
        have hl := (walk_output hst.walk ho).2.1
        have hlen : (low ((c :: s).take k)).length = k := by
          simp only [low, List.length_map, List.length_take]; omega
        have := ih ((c :: s).drop k) (by simp [List.length_drop]; omega)
        rw [kana_hit hst ho, List.length_append, styled_length]
        rw [List.length_drop] at this
        omega

/-- C15 -/
theorem C15_length {std : Std} (hstd : std.Lawful) (s : Str) (o : Options) :
    ∃ r, to_kana_with_opt std s o = .ok r ∧ r.length ≤ s.length :=
  ⟨_, to_kana_eq hstd s o, kana_length _ _⟩

/-- the bound is reached, also by text that is converted -/
example : (kana .normal ['v', 'a']).length = 2 := by decide +kernel

end WanaKana
