import Verif.Spec.KanaCut
import Verif.Props.ToKana3
import Verif.Proofs.StdConcrete
import Verif.Proofs.RomajiTable
/-! # C77 – C80: cutting romaji, what is left of it, typing by keys, typing every kana -/

namespace WanaKana
open KNode

/-! ## C77 cutting -/

theorem cut_of_not_adjacent {m : Mode} {a b : Str}
    (h : ∀ x y, a.getLast? = some x → b.head? = some y →
      ¬ Spec.Adjacent (tableOf m) (Spec.asciiLower x) (Spec.asciiLower y)) : Cut m a b := by
  intro a1 a2 n e hne hw d hd
  cases hf : n.find_transition_node (toAsciiLowercase d) with
  | none => rfl
  | some n' =>
    exfalso
    obtain ⟨x, hx⟩ : ∃ x, a2.getLast? = some x := by
      cases hl : a2.getLast? with
      | none => exact absurd (List.getLast?_eq_none_iff.1 hl) hne
      | some x => exact ⟨x, rfl⟩
    have hax : a.getLast? = some x := by rw [e, getLast?_append_ne _ hne, hx]
    apply h x d hax hd
    have hw2 : (tree m).walk (low a2 ++ [toAsciiLowercase d]) = some n' := by
      rw [walk_append, hw]
      show n.walk [toAsciiLowercase d] = some n'
      rw [walk_singleton, hf]
    obtain ⟨_, k, hk, hp⟩ := walk_table hw2 (by simp)
    refine ⟨k, hk, ?_⟩
    have hspl : a2 = a2.dropLast ++ [x] := by
      obtain ⟨ys, rfl⟩ := List.getLast?_eq_some_iff.1 hx
      simp
    refine List.IsInfix.trans ?_ hp.isInfix
    refine ⟨low a2.dropLast, [], ?_⟩
    rw [asciiLower_eq]
    conv => rhs; rw [hspl]
    simp [low]

/-- **C77** Romaji can be cut between two characters that do not stand side by side in any key. -/
theorem C77_cut {std : Std} (hstd : std.Lawful) (a b : Str) (o : Options)
    (h : ∀ x y, a.getLast? = some x → b.head? = some y →
      ¬ Spec.Adjacent (Spec.tableFor o.use_obsolete_kana o.imemode) (Spec.asciiLower x) (Spec.asciiLower y)) :
    ∃ ra rb, to_kana_with_opt std a o = .ok ra ∧ to_kana_with_opt std b o = .ok rb ∧
      to_kana_with_opt std (a ++ b) o = .ok (ra ++ rb) := by
  rw [tableFor_eq] at h
  exact ⟨_, _, to_kana_eq hstd _ _, to_kana_eq hstd _ _, by rw [to_kana_eq hstd, kana_append _ _ (cut_of_not_adjacent h)]⟩

/-- cut after a vowel: nothing is read across it -/
example : to_kana modernStd "kyaNtta".toList = .ok "きゃンった".toList ∧
    ¬ Spec.Adjacent Spec.normalTable 'a' 'n' := by
  refine ⟨by decide +kernel, ?_⟩
  rintro ⟨k, hk, p, q, e⟩
  have : (Spec.normalTable.all fun k => !k.1.dropLast.contains 'a') = true := by decide +kernel
  have := List.all_eq_true.1 this k hk
  rw [← e] at this
  simp at this

theorem table_lookup_of_mem {t : Spec.Table} {k : Str × Str} (h : k ∈ t) : (t.lookup k.1).isSome := by
  induction t with
  | nil => cases h
  | cons x t ih =>
    obtain ⟨a, b⟩ := x
    rw [List.lookup_cons]
    split
    · rfl
    · rcases List.mem_cons.1 h with rfl | h
      · simp_all
      · exact ih h

/-- a whole text that is a key -/
theorem kana_whole_key {m : Mode} {w : Str} {n : KNode} {out : Str} (hw : (tree m).walk (low w) = some n)
    (ho : n.output = some out) : kana m w = styled w out := by
  have hst : Stops (tree m) w n w.length := ⟨Nat.le_refl _, by rw [List.take_length]; exact hw, by simp⟩
  rw [kana_hit hst ho]
  simp [kana_nil]

/-- a key that cannot be continued -/
theorem kana_leaf {m : Mode} {w : Str} {n : KNode} {out : Str} (hw : (tree m).walk (low w) = some n)
    (ho : n.output = some out) (hl : n.transitions = []) (t : Str) :
    kana m (w ++ t) = styled w out ++ kana m t := by
  have hst : Stops (tree m) (w ++ t) n w.length :=
    ⟨by simp, by rw [List.take_left]; exact hw, fun c _ => find_none_of_leaf hl _⟩
  rw [kana_hit hst ho]
  simp

/-- `n` before a character it does not join -/
theorem n_pairs : ([Mode.normal, .obsolete].all fun m => ['n', 'N'].all fun x =>
    ['a', 'i', 'u', 'e', 'o', 'A', 'I', 'U', 'E', 'O', '\'', 'y', 'Y'].all fun y =>
      (fun b => kana m (x :: b) != kana m [x] ++ kana m b) (if y = 'y' ∨ y = 'Y' then [y, 'a'] else [y])) = true := by
  decide +kernel

theorem low_is_n {w : Str} (h : low w = ['n']) : w = ['n'] ∨ w = ['N'] := by
  cases w with
  | nil => cases h
  | cons c w =>
    simp only [low, List.map_cons, List.cons.injEq, List.map_eq_nil_iff] at h
    obtain ⟨h, rfl⟩ := h
    rw [char_eq_iff, toAsciiLowercase_toNat] at h
    simp only [List.cons.injEq, and_true, char_eq_iff, Char.reduceToNat] at *
    split at h <;> omega

theorem n_next (m : Mode) : (match (tree m).walk ['n'] with
    | none => false
    | some n => n.transitions.all fun x => ['a', 'i', 'u', 'e', 'o', '\'', 'y'].contains x.1 ||
        decide (m = .ime)) = true := by cases m <;> decide +kernel

theorem find_mem {n n' : KNode} {c : Char} (h : n.find_transition_node c = some n') : (c, n') ∈ n.transitions := by
  unfold find_transition_node at h
  obtain ⟨x, hx, e⟩ := Option.map_eq_some_iff.1 h
  have h1 := List.mem_of_find?_eq_some hx
  have h2 : x.1 = c := by simpa using List.find?_some hx
  rw [← h2, ← e]; exact h1

/-- the same characters in lower case -/
theorem low_case {c : Char} (h : toAsciiLowercase c ∈ ['a', 'i', 'u', 'e', 'o', '\'', 'y']) :
    c ∈ ['a', 'i', 'u', 'e', 'o', 'A', 'I', 'U', 'E', 'O', '\'', 'y', 'Y'] := by
  simp only [List.mem_cons, List.not_mem_nil, or_false, char_eq_iff, toAsciiLowercase_toNat, Char.reduceToNat] at h ⊢
  split at h <;> omega

theorem key_walk {m : Mode} {k : Str × Str} (hk : k ∈ tableOf m) :
    ∃ n out, (tree m).walk k.1 = some n ∧ n.output = some out := by
  obtain ⟨n, hw⟩ := walk_of_prefix hk (List.prefix_refl _)
  have := (walk_table hw (key_ne_nil hk)).1
  cases ho : n.output with
  | some out => exact ⟨n, out, hw, ho⟩
  | none =>
    have h2 := table_lookup_of_mem hk
    rw [← this, ho] at h2
    cases h2

/-- **C77** The condition is exact: characters that stand side by side in some key cannot be separated in every
text. -/
theorem C77_exact {std : Std} (hstd : std.Lawful) (x y : Char) (o : Options) :
    (∀ a b ra rb, a.getLast? = some x → b.head? = some y → to_kana_with_opt std a o = .ok ra →
      to_kana_with_opt std b o = .ok rb → to_kana_with_opt std (a ++ b) o = .ok (ra ++ rb)) ↔
    ¬ Spec.Adjacent (Spec.tableFor o.use_obsolete_kana o.imemode) (Spec.asciiLower x) (Spec.asciiLower y) := by
  constructor
  · intro h hadj
    rw [tableFor_eq, asciiLower_eq] at hadj
    have h' : ∀ a b, a.getLast? = some x → b.head? = some y →
        kana (modeOf o) (a ++ b) = kana (modeOf o) a ++ kana (modeOf o) b := by
      intro a b ha hb
      have := h a b _ _ ha hb (to_kana_eq hstd _ _) (to_kana_eq hstd _ _)
      rw [to_kana_eq hstd] at this
      exact Except.ok.inj this
    clear h
    generalize modeOf o = m at *
    obtain ⟨k, hk, p, q, e⟩ := hadj
    obtain ⟨n, out, hw, ho⟩ := key_walk hk
    have e2 : k.1 = (p ++ [toAsciiLowercase x]) ++ (toAsciiLowercase y :: q) := by rw [← e]; simp
    have hlow : low k.1 = k.1 := by
      have := walk_keyChar hw
      refine (List.map_congr_left fun c hc => ?_).trans (List.map_id _)
      have hc := this c hc
      rw [keyChar_iff] at hc
      apply toAsciiLowercase_of_not_upper
      rw [Bool.eq_false_iff, Ne, aUpper_iff]
      simp only [List.mem_cons, List.not_mem_nil, or_false] at hc
      omega
    have hlp : low p = p := by
      rw [e2, low, List.map_append, List.map_append] at hlow
      exact (List.append_inj_left (List.append_inj_left hlow (by simp)) (by simp))
    have hlq : low q = q := by
      rw [e2, low, List.map_append] at hlow
      have := List.append_inj_right hlow (by simp)
      rw [List.map_cons] at this
      exact (List.cons.inj this).2
    rw [e2, walk_append] at hw
    cases hw1 : (tree m).walk (p ++ [toAsciiLowercase x]) with
    | none => rw [hw1] at hw; cases hw
    | some n1 =>
      rw [hw1] at hw
      have hla : low (p ++ [x]) = p ++ [toAsciiLowercase x] := by
        rw [low, List.map_append]; show low p ++ _ = _; rw [hlp]; rfl
      have hlab : (tree m).walk (low (p ++ [x] ++ y :: q)) = some n := by
        rw [low, List.map_append, List.map_cons]
        show (tree m).walk (low (p ++ [x]) ++ _ :: low q) = _
        rw [hla, hlq, walk_append, hw1]; exact hw
      cases ho1 : n1.output with
      | none =>
        have h1 := h' (p ++ [x]) (y :: q) (by simp) rfl
        have hst : Stops (tree m) (p ++ [x]) n1 (p ++ [x]).length :=
          ⟨Nat.le_refl _, by rw [List.take_length, hla]; exact hw1, by simp⟩
        obtain ⟨c, r, hc⟩ : ∃ c r, p ++ [x] = c :: r := by
          cases p with
          | nil => exact ⟨_, _, rfl⟩
          | cons c p => exact ⟨c, p ++ [x], rfl⟩
        rw [kana_whole_key hlab ho] at h1
        rw [hc] at hst
        have hm := kana_miss hst ho1
        rw [hc, hm] at h1
        have hge := styled_ge hlab ho (c :: r ++ y :: q) c (by rw [h1]; simp)
        have hkc := walk_keyChar hw1 (toAsciiLowercase c) (by
          rw [← hla, hc]; simp [low])
        rw [keyChar_iff, toAsciiLowercase_toNat] at hkc
        simp only [List.mem_cons, List.not_mem_nil, or_false] at hkc
        split at hkc <;> omega
      | some o1 =>
        rcases walk_inner_output hw1 ho1 with hl | ⟨hn, hm⟩
        · have : n1.walk (toAsciiLowercase y :: q) = some n := hw
          rw [KNode.walk, find_none_of_leaf hl] at this
          cases this
        · have hx : [x] = ['n'] ∨ [x] = ['N'] := by
            apply low_is_n
            have := congrArg List.length hn
            simp at this
            subst this
            simpa [low] using hn
          have hfind : ∃ n', n1.find_transition_node (toAsciiLowercase y) = some n' := by
            have : n1.walk (toAsciiLowercase y :: q) = some n := hw
            rw [KNode.walk] at this
            cases hf : n1.find_transition_node (toAsciiLowercase y) with
            | none => rw [hf] at this; cases this
            | some n' => exact ⟨n', rfl⟩
          obtain ⟨n', hn'⟩ := hfind
          have hnn := n_next m
          rw [hn] at hw1
          simp only [hw1] at hnn
          have := List.all_eq_true.1 hnn _ (find_mem hn')
          simp only [Bool.or_eq_true, List.contains_iff_mem, decide_eq_true_iff, hm, or_false] at this
          have hy := low_case this
          have h3 := List.all_eq_true.1 n_pairs m (by cases m <;> simp_all)
          have h4 := List.all_eq_true.1 h3 x (by simpa using hx)
          have h5 := List.all_eq_true.1 h4 y hy
          simp only [bne_iff_ne, ne_eq] at h5
          apply h5
          have := h' [x] (if y = 'y' ∨ y = 'Y' then [y, 'a'] else [y]) rfl (by split <;> rfl)
          simpa using this
  · intro h a b ra rb ha hb hra hrb
    obtain ⟨ra', rb', h1, h2, h3⟩ := C77_cut hstd a b o (by
      intro x' y' hx' hy'
      rw [ha] at hx'; rw [hb] at hy'
      cases hx'; cases hy'; exact h)
    rw [hra] at h1; rw [hrb] at h2
    cases h1; cases h2; exact h3

/-- **C77** after a vowel, a digit, kana, a mark … any text may follow -/
theorem C77_after {std : Std} (hstd : std.Lawful) (a b : Str) (o : Options) (x : Char) (hx : a.getLast? = some x)
    (h : Spec.asciiLower x ∉ "bcdfghjklmnpqrstvwxyz".toList) :
    ∃ ra rb, to_kana_with_opt std a o = .ok ra ∧ to_kana_with_opt std b o = .ok rb ∧
      to_kana_with_opt std (a ++ b) o = .ok (ra ++ rb) := by
  rw [asciiLower_eq] at h
  exact ⟨_, _, to_kana_eq hstd _ _, to_kana_eq hstd _ _, by rw [to_kana_eq hstd, kana_append _ _ (cut_of_last hx h)]⟩

/-! ## C78 what can be left of the romaji -/

/-- every character of the result is copied or part of an output -/
theorem kana_mem {m : Mode} {s : Str} : ∀ d ∈ kana m s, d ∈ s ∨ ∃ w n out, (tree m).walk (low w) = some n ∧
    n.output = some out ∧ d ∈ styled w out := by
  induction s using list_strong with
  | _ s ih =>
    cases s with
    | nil => intro d hd; rw [kana_nil] at hd; cases hd
    | cons c s =>
      intro d hd
      obtain ⟨n, k, hst⟩ := exists_stops (tree m) (c :: s)
      cases ho : n.output with
      | none =>
        rw [kana_miss hst ho] at hd
        rcases List.mem_cons.1 hd with rfl | hd
        · exact Or.inl (by simp)
        · exact (ih s (by simp) d hd).imp (List.mem_cons_of_mem _) id
      | some out =>
        rw [kana_hit hst ho] at hd
        rcases List.mem_append.1 hd with hd | hd
        · exact Or.inr ⟨_, n, out, hst.walk, ho, hd⟩
        · have := stops_pos hst ho
          exact (ih _ (by simp [List.length_drop]; omega) d hd).imp List.mem_of_mem_drop id

theorem vowel_leaf (m : Mode) : (['a', 'i', 'u', 'e', 'o'].all fun v => match (tree m).walk [v] with
    | none => false
    | some n => n.output.isSome && n.transitions.isEmpty) = true := by cases m <;> decide +kernel

theorem latinVowels_low {c : Char} (h : c ∈ Spec.latinVowels) : toAsciiLowercase c ∈ ['a', 'i', 'u', 'e', 'o'] := by
  simp only [Spec.latinVowels, List.mem_cons, List.not_mem_nil, or_false, char_eq_iff, toAsciiLowercase_toNat,
    Char.reduceToNat] at h ⊢
  split <;> omega

theorem kana_no_vowel (m : Mode) (s : Str) : ∀ d ∈ kana m s, d ∉ Spec.latinVowels := by
  induction s using list_strong with
  | _ s ih =>
    cases s with
    | nil => intro d hd; rw [kana_nil] at hd; cases hd
    | cons c s =>
      intro d hd hv
      obtain ⟨n, k, hst⟩ := exists_stops (tree m) (c :: s)
      cases ho : n.output with
      | none =>
        rw [kana_miss hst ho] at hd
        rcases List.mem_cons.1 hd with rfl | hd
        · have hl := latinVowels_low hv
          have := List.all_eq_true.1 (vowel_leaf m) _ hl
          cases hw : (tree m).walk [toAsciiLowercase d] with
          | none => simp [hw] at this
          | some n' =>
            simp only [hw, Bool.and_eq_true, List.isEmpty_iff] at this
            have hst' : Stops (tree m) (d :: s) n' 1 := ⟨by simp, hw, fun c _ => find_none_of_leaf this.2 _⟩
            have e := (stops_unique _ hst).symm.trans (stops_unique _ hst')
            cases e
            rw [ho] at this
            cases this.1
        · exact ih s (by simp) d hd hv
      | some out =>
        rw [kana_hit hst ho] at hd
        rcases List.mem_append.1 hd with hd | hd
        · have := styled_ge hst.walk ho _ d hd
          simp only [Spec.latinVowels, List.mem_cons, List.not_mem_nil, or_false, char_eq_iff, Char.reduceToNat] at hv
          omega
        · have := stops_pos hst ho
          exact ih _ (by simp [List.length_drop]; omega) d hd hv

/-- **C78** No Latin vowel is left in the result of `to_kana`. -/
theorem C78_vowels {std : Std} (hstd : std.Lawful) (s r : Str) (o : Options) (h : to_kana_with_opt std s o = .ok r) :
    ∀ c ∈ r, c ∉ Spec.latinVowels := by
  rw [to_kana_eq hstd] at h
  cases h
  exact kana_no_vowel _ _

/-- **C78** No Latin vowel is left by `to_hiragana` and `to_katakana` in text they convert as romaji: text that is
romaji or mixed. -/
theorem C78_vowels_convert {std : Std} (hstd : std.Lawful) (s : Str) (o : Options) (ho : o.pass_romaji = false)
    (hs : is_romaji s = true ∨ is_mixed s = true) (r : Str)
    (h : to_hiragana_with_opt std s o = .ok r ∨ to_katakana_with_opt std s o = .ok r) :
    ∀ c ∈ r, c ∉ Spec.latinVowels := by
  rcases h with h | h
  · unfold to_hiragana_with_opt romaji_to_hiragana at h
    rw [if_neg (by simp [ho])] at h
    split at h
    · cases hk : katakana_to_hiragana std s with
      | error f => rw [hk] at h; cases h
      | ok x =>
        rw [hk, ok_bind] at h
        exact C78_vowels hstd _ _ _ h
    · rw [if_pos (by rw [Bool.or_eq_true]; rcases hs with hs | hs; exact Or.inl hs; contradiction)] at h
      exact C78_vowels hstd _ _ _ h
  · unfold to_katakana_with_opt romaji_to_hiragana at h
    rw [if_neg (by simp [ho]), if_pos (by rw [Bool.or_eq_true]; exact hs), to_kana_eq hstd, ok_bind,
      hiragana_to_katakana_eq] at h
    cases h
    intro c hc hv
    obtain ⟨d, hd, rfl⟩ := List.mem_map.1 hc
    have h1 := kana_no_vowel _ _ d hd
    apply h1
    simp only [Spec.latinVowels, List.mem_cons, List.not_mem_nil, or_false, char_eq_iff, Char.reduceToNat,
      h2kP_toNat] at hv ⊢
    split at hv <;> omega

/-- paths beginning with `n` that have no output; what follows them -/
theorem n_paths (m : Mode) : ((tree m).paths.all fun x => (x.1.head? != some 'n' || x.2.output.isSome ||
      x.1 == ['n', 'y'] || decide (m = .ime)) &&
    (match x.1, x.2.output with
      | 'y' :: d :: _, some out => ((tree m).walk ['n', 'y', d]).isSome || out.head? == some 'っ'
      | ['y'], some _ => false
      | _, _ => true)) = true := by
  cases m <;> decide +kernel

/-- **C78** Outside IME mode an `n` is left in the result only in front of `y` or a small っ. -/
theorem C78_n {std : Std} (hstd : std.Lawful) (s p q : Str) (c : Char) (o : Options)
    (ho : o.imemode = true → o.use_obsolete_kana = true)
    (h : to_kana_with_opt std s o = .ok (p ++ c :: q)) (hc : c = 'n' ∨ c = 'N') :
    ∃ d, q.head? = some d ∧ d ∈ ['y', 'Y', 'っ', 'ッ'] := by
  rw [to_kana_eq hstd] at h
  replace h := Except.ok.inj h
  have hm : modeOf o ≠ .ime := by
    unfold modeOf
    cases h1 : o.use_obsolete_kana <;> cases h2 : o.imemode <;> simp_all
  generalize modeOf o = m at h hm
  induction s using list_strong generalizing p with
  | _ s ih =>
    cases s with
    | nil => rw [kana_nil] at h; cases p <;> cases h
    | cons b s =>
      obtain ⟨n, k, hst⟩ := exists_stops (tree m) (b :: s)
      cases ho' : n.output with
      | some out =>
        rw [kana_hit hst ho'] at h
        rcases List.append_eq_append_iff.1 h with ⟨p', hp, hr⟩ | ⟨q', hp, hr⟩
        · have := stops_pos hst ho'
          exact ih _ (by simp [List.length_drop]; omega) p' hr
        · have hge := styled_ge hst.walk ho' ((b :: s).take k)
          cases q' with
          | nil =>
            have := stops_pos hst ho'
            refine ih ((b :: s).drop k) (by simp [List.length_drop]; omega) [] ?_
            simpa using hr.symm
          | cons e q' =>
            cases hr
            have := hge c (by rw [hp]; simp)
            rcases hc with rfl | rfl
            · exact absurd this (by decide)
            · exact absurd this (by decide)
      | none =>
        rw [kana_miss hst ho'] at h
        cases p with
        | cons e p =>
          exact ih s (by simp) p (List.cons.inj h).2
        | nil =>
          rw [List.nil_append] at h
          obtain ⟨rfl, rfl⟩ := List.cons.inj h
          have hlc : toAsciiLowercase b = 'n' := by rcases hc with rfl | rfl <;> decide
          -- the path read is `ny`
          have hk0 : k ≠ 0 := by
            rintro rfl
            have h1 := hst.walk
            simp only [List.take_zero, low, List.map_nil, KNode.walk, Option.some.injEq] at h1
            have h2 := hst.stop b (by simp)
            rw [← h1, hlc] at h2
            have : ([Mode.normal, .obsolete, .ime].all fun m => ((tree m).find_transition_node 'n').isSome) = true := by
              decide +kernel
            have := List.all_eq_true.1 this m (by cases m <;> simp)
            rw [h2] at this; cases this
          have h1 := walk_check (n_paths m) hst.walk
          obtain ⟨k, rfl⟩ : ∃ j, k = j + 1 := ⟨k - 1, by omega⟩
          have hhd : (low ((b :: s).take (k + 1))).head? = some 'n' := by simp [low, hlc]
          simp only [hhd, ho', Bool.and_eq_true, Bool.or_eq_true, bne_self_eq_false, Option.isSome_none, Bool.false_eq_true,
            false_or, beq_iff_eq, decide_eq_true_iff, hm, or_false] at h1
          have h1 := h1.1
          cases s with
          | nil => simp [low] at h1
          | cons y s =>
            simp only [List.take_succ_cons, low, List.map_cons, List.cons.injEq] at h1
            cases k with
            | zero => simp at h1
            | succ k =>
              simp only [List.take_succ_cons, List.map_cons, List.cons.injEq, List.map_eq_nil_iff] at h1
              obtain ⟨_, hy, hnil⟩ := h1
              have hyy : y = 'y' ∨ y = 'Y' := by
                rw [char_eq_iff, toAsciiLowercase_toNat] at hy
                simp only [char_eq_iff, Char.reduceToNat] at hy ⊢
                split at hy <;> omega
              obtain ⟨n2, k2, hst2⟩ := exists_stops (tree m) (y :: s)
              cases ho2 : n2.output with
              | none =>
                rw [kana_miss hst2 ho2]
                exact ⟨y, rfl, by rcases hyy with rfl | rfl <;> simp⟩
              | some out =>
                rw [kana_hit hst2 ho2]
                have h3 := walk_check (n_paths m) hst2.walk
                simp only [Bool.and_eq_true] at h3
                have h3 := h3.2
                have hp2 := stops_pos hst2 ho2
                obtain ⟨k2, rfl⟩ : ∃ j, k2 = j + 1 := ⟨k2 - 1, by omega⟩
                rw [List.take_succ_cons, low, List.map_cons, hy, ho2] at h3
                cases hs : s.take k2 with
                | nil => rw [hs] at h3; cases h3
                | cons d s2 =>
                  rw [hs] at h3
                  simp only [List.map_cons, Bool.or_eq_true, beq_iff_eq] at h3
                  obtain ⟨d', s', rfl⟩ : ∃ d' s', s = d' :: s' := by
                    cases s with
                    | nil => simp at hs
                    | cons d' s' => exact ⟨d', s', rfl⟩
                  have hd : d' = d := by
                    cases k2 with
                    | zero => simp at hs
                    | succ k2 => rw [List.take_succ_cons] at hs; exact (List.cons.inj hs).1
                  subst hd
                  rcases h3 with h3 | h3
                  · exfalso
                    obtain ⟨n3, hn3⟩ := Option.isSome_iff_exists.1 h3
                    have hkz : k = 0 := by
                      cases k with
                      | zero => rfl
                      | succ k => simp at hnil
                    subst hkz
                    have hw1 := hst.walk
                    have hs1 := hst.stop d' (by simp)
                    simp only [List.take_succ_cons, List.take_zero, low, List.map_cons, List.map_nil, hlc, hy] at hw1
                    have e : ['n', 'y', toAsciiLowercase d'] = ['n', 'y'] ++ [toAsciiLowercase d'] := rfl
                    rw [e, walk_append, hw1] at hn3
                    have : n.walk [toAsciiLowercase d'] = some n3 := hn3
                    rw [walk_singleton, hs1] at this
                    cases this
                  · cases out with
                    | nil => cases h3
                    | cons e out =>
                      cases h3
                      unfold styled
                      split
                      · exact ⟨h2kP 'っ', rfl, by decide⟩
                      · exact ⟨'っ', rfl, by decide⟩

/-- both cases occur -/
example : to_kana modernStd "nyyaNyk".toList = .ok "nっやNyk".toList := by decide +kernel

/-! ## C79 typing key by key -/

/-- a typed key is a path with an output -/
theorem isKey_walk {m : Mode} {w : Str} (h : Spec.IsKey (tableOf m) w) :
    ∃ n out, (tree m).walk (low w) = some n ∧ n.output = some out ∧ Spec.typed (tableOf m) w = styled w out ∧ w ≠ [] := by
  obtain ⟨out, ho⟩ := Option.isSome_iff_exists.1 h
  have hmem := mem_of_lookup ho
  obtain ⟨n, hw⟩ := walk_of_prefix hmem (List.prefix_refl _)
  have hne := key_ne_nil hmem
  have hout := (walk_table hw hne).1
  have hlow : w.map Spec.asciiLower = low w := by rw [asciiLower_eq]
  refine ⟨n, out, ?_, ?_, ?_, ?_⟩
  · rw [← hlow]; exact hw
  · rw [hout]; exact ho
  · unfold Spec.typed
    rw [ho, ← styled_spec]
  · rintro rfl; exact hne rfl

/-- the only key that can go on is `n` -/
theorem n_only {c : Char} (h : c ∉ ['a', 'i', 'u', 'e', 'o', 'A', 'I', 'U', 'E', 'O', '\'', 'y', 'Y']) {m : Mode}
    (hm : m ≠ .ime) {n : KNode} (hw : (tree m).walk ['n'] = some n) :
    n.find_transition_node (toAsciiLowercase c) = none := by
  cases hf : n.find_transition_node (toAsciiLowercase c) with
  | none => rfl
  | some n' =>
    exfalso
    have hnn := n_next m
    simp only [hw] at hnn
    have := List.all_eq_true.1 hnn _ (find_mem hf)
    simp only [Bool.or_eq_true, List.contains_iff_mem, decide_eq_true_iff, hm, or_false] at this
    exact h (low_case this)

theorem kana_keys {m : Mode} (ws : List Str) (hk : ∀ w ∈ ws, Spec.IsKey (tableOf m) w)
    (hn : ∀ p w w' q c, ws = p ++ w :: w' :: q → low w = ['n'] → m ≠ .ime → w'.head? = some c →
      c ∉ ['a', 'i', 'u', 'e', 'o', 'A', 'I', 'U', 'E', 'O', '\'', 'y', 'Y']) :
    kana m ws.flatten = (ws.map (Spec.typed (tableOf m))).flatten := by
  induction ws with
  | nil => exact kana_nil m
  | cons w ws ih =>
    have ih := ih (fun w hw => hk w (List.mem_cons_of_mem _ hw)) fun p w1 w2 q c e =>
      hn (w :: p) w1 w2 q c (by rw [e]; rfl)
    obtain ⟨n, out, hw, ho, ht, hne⟩ := isKey_walk (hk w (by simp))
    rw [List.flatten_cons, List.map_cons, List.flatten_cons, ← ih, ht]
    rcases walk_inner_output hw ho with hl | ⟨hwn, hm⟩
    · exact kana_leaf hw ho hl _
    · have hst : Stops (tree m) (w ++ ws.flatten) n w.length := by
        refine ⟨by simp, by rw [List.take_left]; exact hw, ?_⟩
        intro c hc
        rw [List.drop_left] at hc
        cases ws with
        | nil => cases hc
        | cons w' ws =>
          obtain ⟨_, _, _, _, _, hne'⟩ := isKey_walk (hk w' (by simp))
          have hc' : w'.head? = some c := by
            cases w' with
            | nil => exact absurd rfl hne'
            | cons d w' => simpa using hc
          rw [hwn] at hw
          exact n_only (hn [] w w' ws c rfl hwn hm hc') hm hw
      rw [kana_hit hst ho]
      simp

theorem ime_no_n : ¬ Spec.IsKey (tableOf .ime) ['n'] ∧ ¬ Spec.IsKey (tableOf .ime) ['N'] := by decide +kernel

/-- **C79** A text typed key by key is converted key by key, if no `n` is followed by a key beginning with a vowel,
`y` or an apostrophe. In IME mode, where `n` is no key, that is every such text. -/
theorem C79_keys {std : Std} (hstd : std.Lawful) (ws : List Str) (o : Options)
    (hk : ∀ w ∈ ws, Spec.IsKey (Spec.tableFor o.use_obsolete_kana o.imemode) w)
    (hn : ∀ p n w q c, ws = p ++ [n] :: w :: q → n = 'n' ∨ n = 'N' → w.head? = some c →
      c ∉ Spec.latinVowels ∧ c ∉ ['y', 'Y', '\'']) :
    to_kana_with_opt std ws.flatten o =
      .ok (ws.map (Spec.typed (Spec.tableFor o.use_obsolete_kana o.imemode))).flatten := by
  rw [tableFor_eq] at *
  rw [to_kana_eq hstd, kana_keys ws hk]
  intro p w w' q c e hw _ hc
  rcases low_is_n hw with rfl | rfl
  · obtain ⟨h1, h2⟩ := hn p _ w' q c e (Or.inl rfl) hc
    simp only [Spec.latinVowels, List.mem_cons, List.not_mem_nil, or_false, not_or] at h1 h2 ⊢
    simp_all
  · obtain ⟨h1, h2⟩ := hn p _ w' q c e (Or.inr rfl) hc
    simp only [Spec.latinVowels, List.mem_cons, List.not_mem_nil, or_false, not_or] at h1 h2 ⊢
    simp_all

/-- **C79** in IME mode -/
theorem C79_keys_ime {std : Std} (hstd : std.Lawful) (ws : List Str) (o : Options) (hi : o.imemode = true)
    (ho : o.use_obsolete_kana = false) (hk : ∀ w ∈ ws, Spec.IsKey Spec.imeTable w) :
    to_kana_with_opt std ws.flatten o = .ok (ws.map (Spec.typed Spec.imeTable)).flatten := by
  have e : Spec.tableFor o.use_obsolete_kana o.imemode = Spec.imeTable := by rw [hi, ho]; rfl
  rw [← e] at hk ⊢
  apply C79_keys hstd ws o hk
  intro p n w q c ews hn _
  exfalso
  have : Spec.IsKey Spec.imeTable [n] := by
    rw [← e]; exact hk _ (by rw [ews]; simp)
  rcases hn with rfl | rfl
  · exact ime_no_n.1 this
  · exact ime_no_n.2 this

/-- **C79** and the keys typed can be read off the text -/
theorem C79_unique_ime (ws ws' : List Str) (hk : ∀ w ∈ ws, Spec.IsKey Spec.imeTable w)
    (hk' : ∀ w ∈ ws', Spec.IsKey Spec.imeTable w) (h : ws.flatten = ws'.flatten) : ws = ws' := by
  have pre : ∀ w w' : Str, Spec.IsKey Spec.imeTable w → Spec.IsKey Spec.imeTable w' → w <+: w' → w = w' := by
    intro w w' h1 h2 ⟨t, e⟩
    obtain ⟨n, out, hw, ho, _, _⟩ := isKey_walk (m := .ime) h1
    obtain ⟨n', out', hw', ho', _, _⟩ := isKey_walk (m := .ime) h2
    cases t with
    | nil => simpa using e
    | cons c t =>
      exfalso
      rcases walk_inner_output hw ho with hl | ⟨_, hm⟩
      · rw [← e, low, List.map_append, walk_append] at hw'
        have hw : (tree .ime).walk (w.map toAsciiLowercase) = some n := hw
        rw [hw, List.map_cons] at hw'
        have : n.walk (toAsciiLowercase c :: t.map toAsciiLowercase) = some n' := hw'
        rw [KNode.walk, find_none_of_leaf hl] at this
        cases this
      · exact hm rfl
  induction ws generalizing ws' with
  | nil =>
    cases ws' with
    | nil => rfl
    | cons w' ws' =>
      obtain ⟨_, _, _, _, _, hne⟩ := isKey_walk (m := .ime) (hk' w' (by simp))
      have h : [] = w' ++ ws'.flatten := h
      exact absurd (List.append_eq_nil_iff.1 h.symm).1 hne
  | cons w ws ih =>
    cases ws' with
    | nil =>
      obtain ⟨_, _, _, _, _, hne⟩ := isKey_walk (m := .ime) (hk w (by simp))
      have h : w ++ ws.flatten = [] := h
      exact absurd (List.append_eq_nil_iff.1 h).1 hne
    | cons w' ws' =>
      rw [List.flatten_cons, List.flatten_cons] at h
      have e : w = w' := by
        rcases Nat.le_total w.length w'.length with hle | hle
        · exact pre w w' (hk w (by simp)) (hk' w' (by simp))
            (List.prefix_of_prefix_length_le (List.prefix_append _ _) (by rw [h]; exact List.prefix_append _ _) hle)
        · exact (pre w' w (hk' w' (by simp)) (hk w (by simp))
            (List.prefix_of_prefix_length_le (List.prefix_append _ _) (by rw [← h]; exact List.prefix_append _ _) hle)).symm
      subst e
      rw [ih ws' (fun w hw => hk w (List.mem_cons_of_mem _ hw)) (fun w hw => hk' w (List.mem_cons_of_mem _ hw))
        (List.append_cancel_left h)]

/-- keys in both cases, with an `n` before a consonant -/
example : (∀ w ∈ ["Ka", "n", "JI", "n'", "xtu"].map String.toList, Spec.IsKey Spec.normalTable w) ∧
    (["Ka", "n", "JI", "n'", "xtu"].map fun w => Spec.typed Spec.normalTable w.toList) =
      ["か", "ん", "ジ", "ん", "っ"].map String.toList := by decide +kernel

/-- keys beginning with a vowel are that vowel; keys beginning with `y` are `yy…` or go on with a letter that can
also follow `ny`, and end there -/
theorem y_keys (m : Mode) : ((tree m).paths.all fun x => x.2.output.isNone || match x.1 with
    | 'a' :: t | 'i' :: t | 'u' :: t | 'e' :: t | 'o' :: t => t.isEmpty && (match (tree m).walk ('n' :: x.1) with
      | some n => n.output.isSome && n.transitions.isEmpty
      | none => false)
    | 'y' :: d :: t => d == 'y' || t.isEmpty && (match (tree m).walk ('n' :: x.1) with
      | some n => n.output.isSome && n.transitions.isEmpty
      | none => false)
    | 'y' :: [] => false
    | '\'' :: _ => false
    | _ => true) = true := by cases m <;> decide +kernel

/-- **C79** A text made of table keys is converted completely, whatever the keys, unless it contains `nyy`: every
character of the result is produced by a key. -/
theorem C79_complete {std : Std} (hstd : std.Lawful) (ws : List Str) (o : Options)
    (hk : ∀ w ∈ ws, Spec.IsKey (Spec.tableFor o.use_obsolete_kana o.imemode) w)
    (hn : o.imemode = true ∧ o.use_obsolete_kana = false ∨
      ¬ ['n', 'y', 'y'] <:+: ws.flatten.map Spec.asciiLower) :
    ∃ vs : List Str, to_kana_with_opt std ws.flatten o =
        .ok (vs.map (Spec.typed (Spec.tableFor o.use_obsolete_kana o.imemode))).flatten ∧
      vs.flatten = ws.flatten ∧ ∀ v ∈ vs, Spec.IsKey (Spec.tableFor o.use_obsolete_kana o.imemode) v := by
  rw [tableFor_eq] at *
  rw [to_kana_eq hstd]
  replace hn : modeOf o = .ime ∨ ¬ ['n', 'y', 'y'] <:+: ws.flatten.map Spec.asciiLower := by
    refine hn.imp (fun h => ?_) id
    unfold modeOf; rw [h.1, h.2]; rfl
  generalize modeOf o = m at *
  suffices h : ∃ vs : List Str, kana m ws.flatten = (vs.map (Spec.typed (tableOf m))).flatten ∧ vs.flatten = ws.flatten ∧
      ∀ v ∈ vs, Spec.IsKey (tableOf m) v by
    obtain ⟨vs, h1, h2⟩ := h
    exact ⟨vs, by rw [h1], h2⟩
  induction ws using list_strong with
  | _ ws ih =>
    cases ws with
    | nil => exact ⟨[], kana_nil m, rfl, by simp⟩
    | cons w ws =>
      have hsub : ∀ l : List Str, (∃ a, a ++ l.flatten = (w :: ws).flatten) →
          (m = .ime ∨ ¬ ['n', 'y', 'y'] <:+: l.flatten.map Spec.asciiLower) := by
        rintro l ⟨a, ha⟩
        refine hn.imp id fun h h' => h ?_
        rw [← ha, List.map_append]
        exact h'.trans (List.suffix_append _ _).isInfix
      obtain ⟨n, out, hw, ho, ht, hne⟩ := isKey_walk (hk w (by simp))
      have ihw := ih ws (by simp) (fun w hw => hk w (List.mem_cons_of_mem _ hw)) (hsub ws ⟨w, rfl⟩)
      obtain ⟨vs, hv1, hv2, hv3⟩ := ihw
      -- the key `w` alone is read
      have easy : kana m (w ++ ws.flatten) = styled w out ++ kana m ws.flatten →
          ∃ vs : List Str, kana m (w :: ws).flatten = (vs.map (Spec.typed (tableOf m))).flatten ∧ vs.flatten = (w :: ws).flatten ∧
            ∀ v ∈ vs, Spec.IsKey (tableOf m) v := by
        intro e
        refine ⟨w :: vs, ?_, by rw [List.flatten_cons, hv2]; rfl, ?_⟩
        · rw [List.flatten_cons, e, List.map_cons, List.flatten_cons, ht, hv1]
        · intro v hv
          rcases List.mem_cons.1 hv with rfl | hv
          · exact hk _ (by simp)
          · exact hv3 v hv
      rcases walk_inner_output hw ho with hl | ⟨hwn, hm⟩
      · exact easy (kana_leaf hw ho hl _)
      · by_cases hnext : ∀ c, (ws.flatten).head? = some c → n.find_transition_node (toAsciiLowercase c) = none
        · apply easy
          have hst : Stops (tree m) (w ++ ws.flatten) n w.length :=
            ⟨by simp, by rw [List.take_left]; exact hw, by rw [List.drop_left]; exact hnext⟩
          rw [kana_hit hst ho]
          simp
        · cases ws with
          | nil => exfalso; apply hnext; intro c hc; cases hc
          | cons w' ws =>
            obtain ⟨n', out', hw', ho', ht', hne'⟩ := isKey_walk (hk w' (by simp))
            cases w' with
            | nil => exact absurd rfl hne'
            | cons c w' =>
              obtain ⟨n1, hn1⟩ : ∃ n1, n.find_transition_node (toAsciiLowercase c) = some n1 := by
                cases hf : n.find_transition_node (toAsciiLowercase c) with
                | some n1 => exact ⟨n1, rfl⟩
                | none =>
                  exfalso; apply hnext
                  intro d hd
                  have : c = d := by simpa using hd
                  rw [← this]; exact hf
              have hnn := n_next m
              have hw0 := hw
              rw [hwn] at hw0
              simp only [hw0] at hnn
              have hcc := List.all_eq_true.1 hnn _ (find_mem hn1)
              simp only [Bool.or_eq_true, List.contains_iff_mem, decide_eq_true_iff, hm, or_false] at hcc
              have hy := walk_check (y_keys m) hw'
              have hlc : low (c :: w') = toAsciiLowercase c :: low w' := rfl
              simp only [ho', Option.isNone_some, Bool.false_or, hlc] at hy
              -- `n` and the next key are one key
              have join : (match (tree m).walk ('n' :: low (c :: w')) with
                  | some n => n.output.isSome && n.transitions.isEmpty
                  | none => false) = true →
                  ∃ vs : List Str, kana m (w :: (c :: w') :: ws).flatten = (vs.map (Spec.typed (tableOf m))).flatten ∧
                    vs.flatten = (w :: (c :: w') :: ws).flatten ∧ ∀ v ∈ vs, Spec.IsKey (tableOf m) v := by
                intro hj
                have hlw : low (w ++ c :: w') = 'n' :: low (c :: w') := by
                  rw [low, List.map_append]; show low w ++ _ = _; rw [hwn]; rfl
                rw [← hlw] at hj
                cases hwj : (tree m).walk (low (w ++ c :: w')) with
                | none => rw [hwj] at hj; cases hj
                | some nj =>
                  simp only [hwj, Bool.and_eq_true, List.isEmpty_iff] at hj
                  obtain ⟨oj, hoj⟩ := Option.isSome_iff_exists.1 hj.1
                  obtain ⟨vs2, h1, h2, h3⟩ := ih ws (by simp only [List.length_cons]; omega) (fun w hw => hk w (by simp [hw]))
                    (hsub ws ⟨w ++ c :: w', by simp⟩)
                  have hkey : Spec.IsKey (tableOf m) (w ++ c :: w') := by
                    have := (walk_table hwj (by rw [hlw]; simp)).1
                    unfold Spec.IsKey
                    rw [asciiLower_eq]
                    show ((tableOf m).lookup (low (w ++ c :: w'))).isSome
                    rw [← this]; exact hj.1
                  obtain ⟨nk, ok, hwk, hok, htk, _⟩ := isKey_walk hkey
                  rw [hwj] at hwk; cases hwk
                  rw [hoj] at hok; cases hok
                  refine ⟨(w ++ c :: w') :: vs2, ?_, ?_, ?_⟩
                  · have := kana_leaf hwj hoj hj.2 ws.flatten
                    have e : (w :: (c :: w') :: ws).flatten = w ++ c :: w' ++ ws.flatten := by simp
                    rw [e, this, List.map_cons, List.flatten_cons, htk, ← h1]
                  · rw [List.flatten_cons, h2]; simp
                  · intro v hv
                    rcases List.mem_cons.1 hv with rfl | hv
                    · exact hkey
                    · exact h3 v hv
              simp only [List.mem_cons, List.not_mem_nil, or_false] at hcc
              rcases hcc with h | h | h | h | h | h | h
              · simp only [h, Bool.and_eq_true] at hy; apply join; rw [hlc, h]; exact hy.2
              · simp only [h, Bool.and_eq_true] at hy; apply join; rw [hlc, h]; exact hy.2
              · simp only [h, Bool.and_eq_true] at hy; apply join; rw [hlc, h]; exact hy.2
              · simp only [h, Bool.and_eq_true] at hy; apply join; rw [hlc, h]; exact hy.2
              · simp only [h, Bool.and_eq_true] at hy; apply join; rw [hlc, h]; exact hy.2
              · simp only [h] at hy; cases hy
              · rw [h] at hy
                cases w' with
                | nil => cases hy
                | cons d w' =>
                  have hld : low (d :: w') = toAsciiLowercase d :: low w' := rfl
                  simp only [hld, Bool.or_eq_true, beq_iff_eq, Bool.and_eq_true] at hy
                  rcases hy with hy | hy
                  · exfalso
                    rcases hn with hn | hn
                    · exact hm hn
                    · apply hn
                      rw [asciiLower_eq]
                      refine ⟨[], low (w' ++ ws.flatten), ?_⟩
                      have : w.map toAsciiLowercase = ['n'] := hwn
                      simp [low, this, h, hy]
                  · apply join
                    rw [hlc, h, hld]
                    exact hy.2

/-- `nyy` must be excluded: its parts `n` and `yya` are keys, but the text is not converted completely -/
theorem C79_needed : Spec.IsKey Spec.normalTable "n".toList ∧ Spec.IsKey Spec.normalTable "yya".toList ∧
    to_kana modernStd "nyya".toList = .ok "nっや".toList := by decide +kernel

/-- a text where the keys read are not the keys the text is made of -/
example : (∀ w ∈ ["ko", "n", "ya", "ku"].map String.toList, Spec.IsKey Spec.normalTable w) ∧
    to_kana modernStd (["ko", "n", "ya", "ku"].map String.toList).flatten = .ok "こにゃく".toList := by decide +kernel

/-! ## C80 typing every kana -/

/-- one way to type each kana -/
def typeKeys : List (Char × Str) :=
  [('ぁ', ['l', 'a']), ('あ', ['a']), ('ぃ', ['l', 'i']), ('い', ['i']), ('ぅ', ['l', 'u']), ('う', ['u']),
   ('ぇ', ['l', 'e']), ('え', ['e']), ('ぉ', ['l', 'o']), ('お', ['o']), ('か', ['k', 'a']), ('が', ['g', 'a']),
   ('き', ['k', 'i']), ('ぎ', ['g', 'i']), ('く', ['k', 'u']), ('ぐ', ['g', 'u']), ('け', ['k', 'e']),
   ('げ', ['g', 'e']), ('こ', ['k', 'o']), ('ご', ['g', 'o']), ('さ', ['s', 'a']), ('ざ', ['z', 'a']),
   ('し', ['s', 'i']), ('じ', ['z', 'i']), ('す', ['s', 'u']), ('ず', ['z', 'u']), ('せ', ['s', 'e']),
   ('ぜ', ['z', 'e']), ('そ', ['s', 'o']), ('ぞ', ['z', 'o']), ('た', ['t', 'a']), ('だ', ['d', 'a']),
   ('ち', ['t', 'i']), ('ぢ', ['d', 'i']), ('っ', ['l', 't', 'u']), ('つ', ['t', 'u']), ('づ', ['d', 'u']),
   ('て', ['t', 'e']), ('で', ['d', 'e']), ('と', ['t', 'o']), ('ど', ['d', 'o']), ('な', ['n', 'a']),
   ('に', ['n', 'i']), ('ぬ', ['n', 'u']), ('ね', ['n', 'e']), ('の', ['n', 'o']), ('は', ['h', 'a']),
   ('ば', ['b', 'a']), ('ぱ', ['p', 'a']), ('ひ', ['h', 'i']), ('び', ['b', 'i']), ('ぴ', ['p', 'i']),
   ('ふ', ['h', 'u']), ('ぶ', ['b', 'u']), ('ぷ', ['p', 'u']), ('へ', ['h', 'e']), ('べ', ['b', 'e']),
   ('ぺ', ['p', 'e']), ('ほ', ['h', 'o']), ('ぼ', ['b', 'o']), ('ぽ', ['p', 'o']), ('ま', ['m', 'a']),
   ('み', ['m', 'i']), ('む', ['m', 'u']), ('め', ['m', 'e']), ('も', ['m', 'o']), ('ゃ', ['l', 'y', 'a']),
   ('や', ['y', 'a']), ('ゅ', ['l', 'y', 'u']), ('ゆ', ['y', 'u']), ('ょ', ['l', 'y', 'o']), ('よ', ['y', 'o']),
   ('ら', ['r', 'a']), ('り', ['r', 'i']), ('る', ['r', 'u']), ('れ', ['r', 'e']), ('ろ', ['r', 'o']),
   ('ゎ', ['l', 'w', 'a']), ('わ', ['w', 'a']), ('ゐ', ['w', 'i']), ('ゑ', ['w', 'e']), ('を', ['w', 'o']),
   ('ん', ['x', 'n']), ('ゔ', ['v', 'u']), ('ー', ['-']), ('・', ['/']), ('ヵ', ['l', 'k', 'a']),
   ('ヶ', ['l', 'k', 'e'])]

/-- obsolete kana are available -/
def hasObs (m : Mode) : Bool := decide (m = .obsolete)

theorem typeKeys_check (m : Mode) : (typeKeys.all fun x => !hasObs m && ['ゐ', 'ゑ'].contains x.1 ||
    ([x.2, x.2.map Spec.asciiUpper].all fun w => (w.all fun d => decide (d.toNat < 128)) &&
      match (tree m).walk (low w) with
      | some n => n.transitions.isEmpty && decide (n.output = some [x.1])
      | none => false) && ((x.2.map Spec.asciiUpper).all aUpper || h2kP x.1 == x.1) &&
      (!x.2.all aUpper || h2kP x.1 == x.1)) = true := by
  cases m <;> decide +kernel

theorem typeable_listed : ((List.range 0xC0).map fun i => Char.ofNat (0x3040 + i)).all (fun c => [false, true].all fun b =>
    !decide (Spec.Typeable b c) || typeKeys.any fun x => (x.1 == c || h2kP x.1 == c) &&
      (b || !['ゐ', 'ゑ'].contains x.1)) = true := by decide +kernel

theorem typeable_range {b : Bool} {c : Char} (h : Spec.Typeable b c) :
    c ∈ (List.range 0xC0).map fun i => Char.ofNat (0x3040 + i) := by
  have : 0x3040 ≤ c.toNat ∧ c.toNat < 0x3040 + 0xC0 := by
    rcases h with ⟨h, _⟩ | h
    · unfold Spec.In at h; omega
    · simp only [List.mem_cons, List.not_mem_nil, or_false, char_eq_iff, Char.reduceToNat] at h
      omega
  rw [List.mem_map]
  refine ⟨c.toNat - 0x3040, by rw [List.mem_range]; omega, ?_⟩
  rw [show 0x3040 + (c.toNat - 0x3040) = c.toNat by omega]
  exact Char.ofNat_toNat c

/-- every typeable kana has a key -/
theorem typeable_key {m : Mode} {c : Char} (h : Spec.Typeable (hasObs m) c) : ∃ w n out, (∀ d ∈ w, d.toNat < 128) ∧
    (tree m).walk (low w) = some n ∧ n.output = some out ∧ n.transitions = [] ∧ styled w out = [c] := by
  have h1 := List.all_eq_true.1 typeable_listed c (typeable_range h)
  have h2 := List.all_eq_true.1 h1 (hasObs m) (by cases hasObs m <;> simp)
  rw [decide_eq_true h, Bool.not_true, Bool.false_or, List.any_eq_true] at h2
  obtain ⟨x, hx, h3⟩ := h2
  have h4 := List.all_eq_true.1 (typeKeys_check m) x hx
  rw [Bool.and_eq_true] at h3
  have hobs : (!hasObs m && ['ゐ', 'ゑ'].contains x.1) = false := by
    cases hb : hasObs m
    · have := h3.2
      rw [hb] at this
      simpa using this
    · rfl
  rw [hobs, Bool.false_or, Bool.and_eq_true, Bool.and_eq_true, List.all_eq_true] at h4
  have key : ∀ w ∈ [x.2, x.2.map Spec.asciiUpper], ∃ n, (∀ d ∈ w, d.toNat < 128) ∧
      (tree m).walk (low w) = some n ∧ n.output = some [x.1] ∧ n.transitions = [] := by
    intro w hw
    have := h4.1.1 w hw
    rw [Bool.and_eq_true] at this
    cases hwk : (tree m).walk (low w) with
    | none => rw [hwk] at this; cases this.2
    | some n =>
      rw [hwk] at this
      simp only [Bool.and_eq_true, List.isEmpty_iff, decide_eq_true_iff, List.all_eq_true] at this
      exact ⟨n, this.1, rfl, this.2.2, this.2.1⟩
  have h5 := h3.1
  rw [Bool.or_eq_true, beq_iff_eq, beq_iff_eq] at h5
  rcases h5 with e | e
  · obtain ⟨n, k1, k2, k3, k4⟩ := key x.2 (by simp)
    refine ⟨x.2, n, [x.1], k1, k2, k3, k4, ?_⟩
    unfold styled
    have := h4.2
    rw [Bool.or_eq_true, Bool.not_eq_true', beq_iff_eq] at this
    split
    · rcases this with h | h
      · simp_all
      · rw [List.map_cons, h, e]; rfl
    · rw [e]
  · obtain ⟨n, k1, k2, k3, k4⟩ := key (x.2.map Spec.asciiUpper) (by simp)
    refine ⟨_, n, [x.1], k1, k2, k3, k4, ?_⟩
    unfold styled
    have := h4.1.2
    rw [Bool.or_eq_true, beq_iff_eq] at this
    split
    · rw [List.map_cons, e]; rfl
    · rcases this with h | h
      · contradiction
      · rw [← e, h]

theorem outputs_typeable (m : Mode) : ((tree m).paths.all fun x => match x.2.output with
    | none => true
    | some out => out.all fun c => (!decide (Spec.Kana c) || decide (Spec.Typeable (hasObs m) c)) &&
        (!decide (Spec.Kana (h2kP c)) || decide (Spec.Typeable (hasObs m) (h2kP c)))) = true := by
  cases m <;> decide +kernel

theorem hasObs_modeOf (o : Options) : hasObs (modeOf o) = o.use_obsolete_kana := by
  unfold hasObs modeOf
  cases o.use_obsolete_kana <;> cases o.imemode <;> rfl

/-- **C80** A kana text can be typed in ASCII exactly if it consists of the letters ぁ … ゔ, ァ … ヴ (with ゐ ゑ ヰ ヱ
only for obsolete kana) and ー ・ ヵ ヶ. -/
theorem C80_typeable {std : Std} (hstd : std.Lawful) (s : Str) (o : Options) (hs : ∀ c ∈ s, Spec.Kana c) :
    (∃ r, (∀ d ∈ r, d.toNat < 128) ∧ to_kana_with_opt std r o = .ok s) ↔
      ∀ c ∈ s, Spec.Typeable o.use_obsolete_kana c := by
  rw [← hasObs_modeOf]
  constructor
  · rintro ⟨r, hr, h⟩ c hc
    rw [to_kana_eq hstd] at h
    replace h := Except.ok.inj h
    rw [← h] at hc
    have hkc := hs c (by rw [← h]; exact hc)
    rcases kana_mem c hc with hcr | ⟨w, n, out, hw, ho, hd⟩
    · exfalso
      have := hr c hcr
      unfold Spec.Kana Spec.HiraganaLetter Spec.KatakanaLetter Spec.MiddleDot Spec.LongMark Spec.In at hkc
      simp only [char_eq_iff, Char.reduceToNat] at hkc
      omega
    · have h1 := walk_check (outputs_typeable _) hw
      simp only [ho, List.all_eq_true, Bool.and_eq_true, Bool.or_eq_true, Bool.not_eq_true', decide_eq_true_iff,
        decide_eq_false_iff_not] at h1
      unfold styled at hd
      split at hd
      · obtain ⟨d, hd', rfl⟩ := List.mem_map.1 hd
        exact (h1 d hd').2.resolve_left fun h => h hkc
      · exact (h1 c hd).1.resolve_left fun h => h hkc
  · intro h
    clear hs
    induction s with
    | nil => exact ⟨[], by simp, by rw [to_kana_eq hstd, kana_nil]⟩
    | cons c s ih =>
      obtain ⟨r, hr, h1⟩ := ih fun d hd => h d (List.mem_cons_of_mem _ hd)
      obtain ⟨w, n, out, hw1, hw2, ho, hl, hst⟩ := typeable_key (h c (by simp))
      refine ⟨w ++ r, ?_, ?_⟩
      · intro d hd
        rcases List.mem_append.1 hd with hd | hd
        · exact hw1 d hd
        · exact hr d hd
      · rw [to_kana_eq hstd] at h1 ⊢
        rw [kana_leaf hw2 ho hl, hst, Except.ok.inj h1]; rfl

/-- the hypothesis and both sides hold for a text with small letters, ン before a vowel, and both scripts -/
example : (∀ c ∈ "ンアっヴぁーヶ".toList, Spec.Kana c) ∧ (∀ c ∈ "ンアっヴぁーヶ".toList, Spec.Typeable false c) ∧
    to_kana modernStd "XNAltuVUla-LKE".toList = .ok "ンアっヴぁーヶ".toList ∧ ¬ Spec.Typeable true 'ヺ' := by decide +kernel

end WanaKana
