import Verif.Props.ToKana2
import Verif.Spec.ConversionTable
/-! # Properties of `to_kana`: pending n, doubled consonants, table rows (C19–C21) -/

namespace WanaKana
open KNode

theorem getLast?_append_ne {α : Type} (a : List α) {b : List α} (h : b ≠ []) :
    (a ++ b).getLast? = b.getLast? := by
  rw [List.getLast?_append]
  cases hb : b.getLast? with
  | none => exact absurd (List.getLast?_eq_none_iff.1 hb) h
  | some c => rfl

/-! ## C19 IME mode keeps a pending n -/

/-- a text equal to a finished key is replaced whatever follows -/
theorem kana_key {m : Mode} {x t : Str} {n : KNode} {out : Str} (hw : (tree m).walk (low x) = some n)
    (ho : n.output = some out) (hl : n.transitions = []) : kana m (x ++ t) = styled x out ++ kana m t := by
  have hst : Stops (tree m) (x ++ t) n x.length := by
    refine ⟨by simp, by rw [List.take_left]; exact hw, fun c _ => find_none_of_leaf hl _⟩
  rw [kana_hit hst ho, List.take_left, List.drop_left]

/-- decidable form: the key `p` is finished and has the given output -/
def isKey (m : Mode) (p out : Str) : Bool := match (tree m).walk p with
  | some n => decide (n.output = some out) && n.transitions.isEmpty
  | none => false

theorem kana_isKey {m : Mode} {p x t out : Str} (h : isKey m p out = true) (hx : low x = p) :
    kana m (x ++ t) = styled x out ++ kana m t := by
  unfold isKey at h
  cases hw : (tree m).walk p with
  | none => rw [hw] at h; cases h
  | some n =>
    rw [hw] at h
    simp only [Bool.and_eq_true, decide_eq_true_iff, List.isEmpty_iff] at h
    exact kana_key (by rw [hx, hw]) h.1 h.2

/-- the text `a` does not end in `n` or `x` (in any case), which could combine with an `n` -/
def NoPending (a : Str) : Prop := ∀ c, a.getLast? = some c → c ∉ ['n', 'N', 'x', 'X']

theorem cut_n {a b : Str} {c : Char} (ha : NoPending a) (hc : toAsciiLowercase c = 'n') :
    Cut .ime a (c :: b) := by
  intro a1 a2 n e hne hw d hd
  simp at hd; subst hd
  rw [hc]
  cases hf : n.find_transition_node 'n' with
  | none => rfl
  | some k =>
    exfalso
    have hw2 : (tree .ime).walk (low a2 ++ ['n']) = some k := by
      rw [walk_append, hw]
      show n.walk _ = _
      rw [walk_singleton, hf]
    have h : ((tree .ime).paths.all fun x => decide (x.1.length ≤ 1) || !(decide (x.1.getLast? = some 'n')) ||
        decide (x.1 = ['n', 'n']) || decide (x.1 = ['x', 'n'])) = true := by decide +kernel
    have h1 := walk_check h hw2
    simp only [Bool.or_eq_true, decide_eq_true_iff, Bool.not_eq_true', decide_eq_false_iff_not] at h1
    have hl : a.getLast? = a2.getLast? := by rw [e, getLast?_append_ne _ hne]
    have hfin : ∀ z, z ∈ ['n', 'x'] → low a2 = [z] → False := by
      intro z hz hz2
      match a2, hz2 with
      | [y], hz2 =>
        have hy : toAsciiLowercase y = z := by simpa [low] using hz2
        apply ha y (by rw [hl]; rfl)
        rw [char_eq_iff, toAsciiLowercase_toNat] at hy
        simp only [List.mem_cons, List.not_mem_nil, or_false, char_eq_iff, Char.reduceToNat] at hz ⊢
        split at hy <;> omega
    rcases h1 with ((h1 | h1) | h1) | h1
    · rw [List.length_append] at h1
      have : 0 < a2.length := List.length_pos_iff.2 hne
      simp [low] at h1; exact hne h1
    · simp at h1
    · exact hfin 'n' (by simp) (List.append_inj' (s₂ := ['n']) (t₂ := ['n']) h1 rfl).1
    · exact hfin 'x' (by simp) (List.append_inj' (s₂ := ['x']) (t₂ := ['n']) h1 rfl).1

theorem ime_n_node : ∃ n, (tree .ime).walk ['n'] = some n ∧ n.output = none ∧
    ∀ c, c ∉ ['n', '\'', ' ', 'y', 'a', 'i', 'u', 'e', 'o'] → n.find_transition_node c = none := by
  have h : (match (tree .ime).walk ['n'] with
    | some n => n.output.isNone && n.transitions.all fun t =>
        ['n', '\'', ' ', 'y', 'a', 'i', 'u', 'e', 'o'].contains t.1
    | none => false) = true := by decide +kernel
  cases hw : (tree .ime).walk ['n'] with
  | none => rw [hw] at h; cases h
  | some n =>
    simp only [hw, Bool.and_eq_true, Option.isNone_iff_eq_none] at h
    refine ⟨n, rfl, h.1, ?_⟩
    intro c hc
    cases hf : n.find_transition_node c with
    | none => rfl
    | some k =>
      exfalso
      unfold find_transition_node at hf
      cases hfi : n.transitions.find? (fun t => t.1 == c) with
      | none => rw [hfi] at hf; cases hf
      | some a =>
        have hm := List.mem_of_find?_eq_some hfi
        have hac : a.1 = c := by simpa using List.find?_some hfi
        have := List.all_eq_true.1 h.2 a hm
        rw [hac, List.contains_iff_mem] at this
        exact hc this

theorem low_n {c : Char} (h : c = 'n' ∨ c = 'N') : toAsciiLowercase c = 'n' := by
  rcases h with rfl | rfl <;> decide

/-- C19: a trailing `n`/`N` is kept. -/
theorem C19_pending {std : Std} (hstd : std.Lawful) (a : Str) (n' : Char) (o : Options)
    (h1 : o.imemode = true) (h2 : o.use_obsolete_kana = false)
    (hn : n' = 'n' ∨ n' = 'N') (ha : NoPending a) :
    ∃ ra, to_kana_with_opt std a o = .ok ra ∧ to_kana_with_opt std (a ++ [n']) o = .ok (ra ++ [n']) := by
  refine ⟨_, to_kana_eq hstd a o, ?_⟩
  rw [to_kana_eq hstd, modeOf_ime.2 ⟨h1, h2⟩, kana_append _ _ (cut_n ha (low_n hn))]
  rcases hn with rfl | rfl
  · rw [show kana .ime ['n'] = ['n'] by decide +kernel]
  · rw [show kana .ime ['N'] = ['N'] by decide +kernel]

/-- C19: another `n`, an apostrophe or a space turns it into exactly one ん and is consumed
(ン for `NN`). -/
theorem C19_resolved {std : Std} (hstd : std.Lawful) (a : Str) (n' x : Char) (t : Str) (o : Options)
    (h1 : o.imemode = true) (h2 : o.use_obsolete_kana = false)
    (hn : n' = 'n' ∨ n' = 'N') (ha : NoPending a) (hx : x ∈ ['n', 'N', '\'', ' ']) :
    ∃ ra rt, to_kana_with_opt std a o = .ok ra ∧ to_kana_with_opt std t o = .ok rt ∧
      to_kana_with_opt std (a ++ n' :: x :: t) o =
        .ok (ra ++ (if n' = 'N' ∧ x = 'N' then 'ン' else 'ん') :: rt) := by
  refine ⟨_, _, to_kana_eq hstd a o, to_kana_eq hstd t o, ?_⟩
  rw [to_kana_eq hstd, modeOf_ime.2 ⟨h1, h2⟩, kana_append _ _ (cut_n ha (low_n hn))]
  have hkey : isKey .ime ['n', 'n'] ['ん'] = true ∧ isKey .ime ['n', '\''] ['ん'] = true
      ∧ isKey .ime ['n', ' '] ['ん'] = true := by decide +kernel
  have step : ∀ p : Str, isKey .ime p ['ん'] = true → low [n', x] = p →
      kana .ime (n' :: x :: t) = styled [n', x] ['ん'] ++ kana .ime t :=
    fun p hp hx => kana_isKey (x := [n', x]) hp hx
  simp only [List.mem_cons, List.not_mem_nil, or_false] at hx
  rcases hn with rfl | rfl <;> rcases hx with rfl | rfl | rfl | rfl
  all_goals first
    | (rw [step _ hkey.1 (by decide)]; rfl)
    | (rw [step _ hkey.2.1 (by decide)]; rfl)
    | (rw [step _ hkey.2.2 (by decide)]; rfl)

/-- the syllables beginning with n, hiragana and katakana -/
def nSyllables : List (Str × Str × Str) :=
  [(['n', 'a'], ['な'], ['ナ']), (['n', 'i'], ['に'], ['ニ']), (['n', 'u'], ['ぬ'], ['ヌ']),
   (['n', 'e'], ['ね'], ['ネ']), (['n', 'o'], ['の'], ['ノ']),
   (['n', 'y', 'a'], ['に', 'ゃ'], ['ニ', 'ャ']), (['n', 'y', 'i'], ['に', 'ぃ'], ['ニ', 'ィ']),
   (['n', 'y', 'u'], ['に', 'ゅ'], ['ニ', 'ュ']), (['n', 'y', 'e'], ['に', 'ぇ'], ['ニ', 'ェ']),
   (['n', 'y', 'o'], ['に', 'ょ'], ['ニ', 'ョ'])]

/-- C19: completing a syllable of the na-row (in any case; katakana iff all in capitals). -/
theorem C19_syllable {std : Std} (hstd : std.Lawful) (a x t : Str) (row : Str × Str × Str) (o : Options)
    (h1 : o.imemode = true) (h2 : o.use_obsolete_kana = false) (ha : NoPending a)
    (hr : row ∈ nSyllables) (hx : x.map Spec.asciiLower = row.1) :
    ∃ ra rt, to_kana_with_opt std a o = .ok ra ∧ to_kana_with_opt std t o = .ok rt ∧
      to_kana_with_opt std (a ++ (x ++ t)) o =
        .ok (ra ++ ((if ∀ c ∈ x, Spec.AsciiUpper c then row.2.2 else row.2.1) ++ rt)) := by
  refine ⟨_, _, to_kana_eq hstd a o, to_kana_eq hstd t o, ?_⟩
  rw [asciiLower_eq] at hx
  have hkey : (nSyllables.all fun row => isKey .ime row.1 row.2.1 && decide (row.2.1.map h2kP = row.2.2) &&
      decide (row.1.head? = some 'n')) = true := by decide +kernel
  have hk := List.all_eq_true.1 hkey row hr
  simp only [Bool.and_eq_true, decide_eq_true_iff] at hk
  have hne : ∃ c x', x = c :: x' ∧ toAsciiLowercase c = 'n' := by
    cases x with
    | nil => rw [← hx] at hk; simp at hk
    | cons c x' =>
      refine ⟨c, x', rfl, ?_⟩
      have := hk.2
      rw [← hx] at this
      simpa using this
  obtain ⟨c, x', rfl, hc⟩ := hne
  rw [to_kana_eq hstd, modeOf_ime.2 ⟨h1, h2⟩, kana_append a _ (by
    rw [List.cons_append]; exact cut_n ha hc), kana_isKey hk.1.1 hx, ← styled_spec, toKata_eq, hk.1.2]

/-- C19: followed by anything else, the `n` stays and the rest is converted on its own. -/
theorem C19_other {std : Std} (hstd : std.Lawful) (a : Str) (n' x : Char) (t : Str) (o : Options)
    (h1 : o.imemode = true) (h2 : o.use_obsolete_kana = false)
    (hn : n' = 'n' ∨ n' = 'N') (ha : NoPending a)
    (hx : Spec.asciiLower x ∉ ['n', '\'', ' ', 'y', 'a', 'i', 'u', 'e', 'o']) :
    ∃ ra rt, to_kana_with_opt std a o = .ok ra ∧ to_kana_with_opt std (x :: t) o = .ok rt ∧
      to_kana_with_opt std (a ++ n' :: x :: t) o = .ok (ra ++ n' :: rt) := by
  refine ⟨_, _, to_kana_eq hstd a o, to_kana_eq hstd _ o, ?_⟩
  rw [asciiLower_eq] at hx
  obtain ⟨n, hw, ho, hf⟩ := ime_n_node
  have hst : Stops (tree .ime) (n' :: x :: t) n 1 := by
    refine ⟨by simp, by simpa [low, low_n hn] using hw, ?_⟩
    intro c hc
    simp at hc; subst hc
    exact hf _ hx
  rw [to_kana_eq hstd, modeOf_ime.2 ⟨h1, h2⟩, kana_append _ _ (cut_n ha (low_n hn)), kana_miss hst ho]

instance (a : Str) : Decidable (NoPending a) := by
  unfold NoPending
  cases a.getLast? with
  | none => exact isTrue (by intro c h; cases h)
  | some d => exact decidable_of_iff (d ∉ ['n', 'N', 'x', 'X']) (by simp)
example : NoPending ['s', 'h', 'i'] ∧ ¬ NoPending ['x'] := by decide
example : kana .ime ['s', 'h', 'i', 'n'] = ['し', 'n'] := by decide +kernel
example : kana .ime ['s', 'h', 'i', 'n', ' ', 'y', 'o', 'u'] = ['し', 'ん', 'よ', 'う'] := by decide +kernel

/-! ## C20 Doubling a consonant prefixes a small tsu -/

/-- both halves of a doubled row are finished keys -/
def doubleCheck (m : Mode) : Bool := (tableOf m).all fun x => match x.1 with
  | c :: rest =>
    !("bcdfghjkmpqrstvwyz".toList.contains c) || decide (rest.head? = some c) ||
    (decide (m = .obsolete) && (decide (x.1 = ['w', 'i']) || decide (x.1 = ['w', 'e']))) ||
    (match (tree m).walk x.1, (tree m).walk (c :: x.1) with
      | some n1, some n2 => n1.transitions.isEmpty && n2.transitions.isEmpty &&
        (match n1.output with
          | some out => decide (n2.output = some ('っ' :: out))
          | none => false)
      | _, _ => false) && x.1.all aLower
  | [] => false

theorem doubleCheck_all (m : Mode) : doubleCheck m = true := by cases m <;> decide +kernel

theorem double_row {m : Mode} {c : Char} {rest out : Str} (h : (c :: rest, out) ∈ tableOf m)
    (hc : c ∈ "bcdfghjkmpqrstvwyz".toList) (hd : rest.head? ≠ some c)
    (hw : m = .obsolete → c :: rest ≠ ['w', 'i'] ∧ c :: rest ≠ ['w', 'e']) :
    ∃ o, isKey m (c :: rest) o = true ∧ isKey m (c :: c :: rest) ('っ' :: o) = true ∧
      ∀ x ∈ c :: rest, aLower x = true := by
  have h1 := List.all_eq_true.1 (doubleCheck_all m) _ h
  have hc' : ("bcdfghjkmpqrstvwyz".toList.contains c) = true := List.contains_iff_mem.2 hc
  simp only [hc', Bool.or_eq_true, Bool.not_true, Bool.false_eq_true, false_or, Bool.and_eq_true,
    decide_eq_true_iff, List.all_eq_true] at h1
  rcases h1 with (h1 | h1) | h1
  · exact absurd h1 hd
  · rcases h1.2 with h3 | h3
    · exact absurd h3 (hw h1.1).1
    · exact absurd h3 (hw h1.1).2
  · obtain ⟨h1, hall⟩ := h1
    cases hw1 : (tree m).walk (c :: rest) with
    | none => simp [hw1] at h1
    | some n1 =>
      cases hw2 : (tree m).walk (c :: c :: rest) with
      | none => simp [hw1, hw2] at h1
      | some n2 =>
        simp only [hw1, hw2, Bool.and_eq_true] at h1
        cases ho : n1.output with
        | none => simp [ho] at h1
        | some o =>
          simp only [ho, decide_eq_true_iff] at h1
          refine ⟨o, ?_, ?_, hall⟩
          · simp [isKey, hw1, ho, h1.1.1]
          · simp [isKey, hw2, h1.2, h1.1.2]

theorem low_of_lower {s : Str} (h : ∀ x ∈ s, aLower x = true) : low s = s := by
  unfold low
  conv => rhs; rw [← List.map_id s]
  apply List.map_congr_left
  intro x hx
  have := aLower_iff.1 (h x hx)
  apply char_ext
  rw [toAsciiLowercase_toNat, if_neg (by omega)]; rfl

theorem not_upper_of_lower {s : Str} (hne : s ≠ []) (h : ∀ x ∈ s, aLower x = true) : s.all aUpper = false := by
  cases s with
  | nil => exact absurd rfl hne
  | cons x s =>
    have := aLower_iff.1 (h x (by simp))
    have : aUpper x = false := by
      rw [Bool.eq_false_iff, Ne, aUpper_iff]; omega
    simp [this]

theorem asciiUpper_toNat (c : Char) : (Spec.asciiUpper c).toNat =
    if 97 ≤ c.toNat ∧ c.toNat ≤ 122 then c.toNat - 32 else c.toNat := by
  unfold Spec.asciiUpper
  by_cases h : Spec.In 97 122 c
  · rw [if_pos h]
    have h' : 97 ≤ c.toNat ∧ c.toNat ≤ 122 := h
    rw [if_pos h', toNat_ofNat_lt (by omega)]
  · rw [if_neg h]
    have h' : ¬ (97 ≤ c.toNat ∧ c.toNat ≤ 122) := h
    rw [if_neg h']

theorem low_asciiUpper {s : Str} (h : ∀ x ∈ s, aLower x = true) : low (s.map Spec.asciiUpper) = s := by
  unfold low
  rw [List.map_map]
  conv => rhs; rw [← List.map_id s]
  apply List.map_congr_left
  intro x hx
  have := aLower_iff.1 (h x hx)
  apply char_ext
  simp only [Function.comp, toAsciiLowercase_toNat, asciiUpper_toNat, id]
  repeat' split
  all_goals omega

theorem all_asciiUpper {s : Str} (h : ∀ x ∈ s, aLower x = true) : (s.map Spec.asciiUpper).all aUpper = true := by
  rw [List.all_eq_true]
  intro y hy
  obtain ⟨x, hx, rfl⟩ := List.mem_map.1 hy
  have := aLower_iff.1 (h x hx)
  rw [aUpper_iff, asciiUpper_toNat, if_pos this]; omega

/-- C20: doubling the first consonant of a syllable `r` of the table prefixes っ, whatever
follows.  (With obsolete kana `wi`/`we` are ゐ/ゑ but `wwi`/`wwe` stay っうぃ/っうぇ, hence the
exclusion.) -/
theorem C20_double {std : Std} (hstd : std.Lawful) (c : Char) (rest out t : Str) (o : Options)
    (h : (c :: rest, out) ∈ Spec.tableFor o.use_obsolete_kana o.imemode)
    (hc : c ∈ "bcdfghjkmpqrstvwyz".toList) (hd : rest.head? ≠ some c)
    (hw : o.use_obsolete_kana = true → c :: rest ≠ ['w', 'i'] ∧ c :: rest ≠ ['w', 'e']) :
    ∃ r, to_kana_with_opt std (c :: rest ++ t) o = .ok r ∧
      to_kana_with_opt std (c :: c :: rest ++ t) o = .ok ('っ' :: r) := by
  rw [tableFor_eq] at h
  have hob : modeOf o = .obsolete → o.use_obsolete_kana = true := by
    unfold modeOf; cases o.use_obsolete_kana <;> cases o.imemode <;> simp
  obtain ⟨out', k1, k2, hl⟩ := double_row h hc hd (fun h => hw (hob h))
  have hl2 : ∀ x ∈ c :: c :: rest, aLower x = true := by
    intro x hx; rcases List.mem_cons.1 hx with rfl | hx
    · exact hl _ (by simp)
    · exact hl x hx
  refine ⟨_, to_kana_eq hstd _ o, ?_⟩
  rw [to_kana_eq hstd, kana_isKey k1 (low_of_lower hl), kana_isKey k2 (low_of_lower hl2)]
  unfold styled
  rw [not_upper_of_lower (by simp) hl, not_upper_of_lower (by simp) hl2]
  rfl

/-- C20 in capitals: ッ. -/
theorem C20_double_upper {std : Std} (hstd : std.Lawful) (c : Char) (rest out t : Str) (o : Options)
    (h : (c :: rest, out) ∈ Spec.tableFor o.use_obsolete_kana o.imemode)
    (hc : c ∈ "bcdfghjkmpqrstvwyz".toList) (hd : rest.head? ≠ some c)
    (hw : o.use_obsolete_kana = true → c :: rest ≠ ['w', 'i'] ∧ c :: rest ≠ ['w', 'e']) :
    ∃ r, to_kana_with_opt std ((c :: rest).map Spec.asciiUpper ++ t) o = .ok r ∧
      to_kana_with_opt std ((c :: c :: rest).map Spec.asciiUpper ++ t) o = .ok ('ッ' :: r) := by
  rw [tableFor_eq] at h
  have hob : modeOf o = .obsolete → o.use_obsolete_kana = true := by
    unfold modeOf; cases o.use_obsolete_kana <;> cases o.imemode <;> simp
  obtain ⟨out', k1, k2, hl⟩ := double_row h hc hd (fun h => hw (hob h))
  have hl2 : ∀ x ∈ c :: c :: rest, aLower x = true := by
    intro x hx; rcases List.mem_cons.1 hx with rfl | hx
    · exact hl _ (by simp)
    · exact hl x hx
  refine ⟨_, to_kana_eq hstd _ o, ?_⟩
  rw [to_kana_eq hstd, kana_isKey k1 (low_asciiUpper hl), kana_isKey k2 (low_asciiUpper hl2)]
  unfold styled
  rw [all_asciiUpper hl, all_asciiUpper hl2]
  simp only [if_true, List.map_cons, List.cons_append, Except.ok.injEq, List.cons.injEq, and_true]
  decide

/-- the hypotheses hold e.g. for `sha`; 229 rows in all -/
example : (['s', 'h', 'a'], ['し', 'ゃ']) ∈ Spec.tableFor false false := by decide +kernel
/-- why `wi` is excluded with obsolete kana -/
example : kana .obsolete ['w', 'w', 'i'] = ['っ', 'う', 'ぃ'] ∧ kana .obsolete ['w', 'i'] = ['ゐ'] := by
  decide +kernel

/-! ## C21 Every row of the published conversion table holds in every context -/

/-- C21: every published row, followed by anything that starts at a word boundary, lower and
upper case. -/
theorem C21_row {std : Std} (hstd : std.Lawful) (row : String × String × String) (t : Str)
    (hr : row ∈ Spec.romaToHiraKata) (ht : ∀ c, t.head? = some c → ¬ Continues {} c) :
    ∃ r, to_kana std t = .ok r ∧ to_kana std (row.1.toList ++ t) = .ok (row.2.1.toList ++ r) ∧
      to_kana std (row.1.toList.map Spec.asciiUpper ++ t) = .ok (row.2.2.toList ++ r) := by
  have hall : (Spec.romaToHiraKata.all fun row => decide (kana .normal row.1.toList = row.2.1.toList) &&
      decide (kana .normal (row.1.toList.map Spec.asciiUpper) = row.2.2.toList)) = true := by decide +kernel
  have h := List.all_eq_true.1 hall row hr
  simp only [Bool.and_eq_true, decide_eq_true_iff] at h
  have hcut : ∀ a, Cut .normal a t := fun a => cut_of_not_tail fun c hc => by
    rw [Bool.eq_false_iff, Ne]
    intro h'
    exact ht c hc ((tailChar_low_iff (o := {})).1 h')
  unfold to_kana
  refine ⟨_, to_kana_eq hstd t {}, ?_, ?_⟩
  · rw [to_kana_eq hstd, ← h.1]
    exact congrArg _ (kana_append _ _ (hcut _))
  · rw [to_kana_eq hstd, ← h.2]
    exact congrArg _ (kana_append _ _ (hcut _))

/-- no path goes on after a vowel or a non-letter -/
theorem cut_of_last {m : Mode} {a t : Str} {c : Char} (hl : a.getLast? = some c)
    (hc : toAsciiLowercase c ∉ "bcdfghjklmnpqrstvwxyz".toList) : Cut m a t := by
  intro a1 a2 n e hne hw d _
  have hl2 : a2.getLast? = some c := by
    rw [← hl, e, getLast?_append_ne _ hne]
  have h : allModes (fun _ x => (match x.1.getLast? with
      | some c => "bcdfghjklmnpqrstvwxyz".toList.contains c
      | none => true) || x.2.transitions.isEmpty) = true := by decide +kernel
  have := allModes_walk h hw
  have hl3 : (low a2).getLast? = some (toAsciiLowercase c) := by
    simp [low, List.getLast?_map, hl2]
  simp only [hl3, Bool.or_eq_true, List.contains_iff_mem, List.isEmpty_iff] at this
  rcases this with h | h
  · exact absurd h hc
  · exact find_none_of_leaf h _

/-- C21 for any following text: all rows but `n`, `nn`, `xn` are independent of what follows. -/
theorem C21_any {std : Std} (hstd : std.Lawful) (row : String × String × String) (t : Str)
    (hr : row ∈ Spec.romaToHiraKata) (hn : row.1 ∉ ["n", "nn", "xn"]) :
    ∃ r, to_kana std t = .ok r ∧ to_kana std (row.1.toList ++ t) = .ok (row.2.1.toList ++ r) ∧
      to_kana std (row.1.toList.map Spec.asciiUpper ++ t) = .ok (row.2.2.toList ++ r) := by
  have hall : (Spec.romaToHiraKata.all fun row => decide (row.1 ∈ ["n", "nn", "xn"]) ||
      decide (kana .normal row.1.toList = row.2.1.toList) &&
      decide (kana .normal (row.1.toList.map Spec.asciiUpper) = row.2.2.toList) &&
      [row.1.toList, row.1.toList.map Spec.asciiUpper].all fun a => match a.getLast? with
        | some c => !("bcdfghjklmnpqrstvwxyz".toList.contains (toAsciiLowercase c))
        | none => false) = true := by decide +kernel
  have h := List.all_eq_true.1 hall row hr
  rw [decide_eq_false hn] at h
  simp only [Bool.false_or, Bool.and_eq_true, decide_eq_true_iff, List.all_cons, List.all_nil,
    and_true] at h
  have hcut : ∀ a : Str, (match a.getLast? with
        | some c => !("bcdfghjklmnpqrstvwxyz".toList.contains (toAsciiLowercase c))
        | none => false) = true → Cut .normal a t := by
    intro a ha
    cases hl : a.getLast? with
    | none => rw [hl] at ha; cases ha
    | some c =>
      rw [hl] at ha
      refine cut_of_last hl ?_
      intro hm
      have h2 := List.contains_iff_mem.2 hm
      simp only [h2] at ha
      cases ha
  unfold to_kana
  refine ⟨_, to_kana_eq hstd t {}, ?_, ?_⟩
  · rw [to_kana_eq hstd, ← h.1.1]
    exact congrArg _ (kana_append _ _ (hcut _ h.2.1))
  · rw [to_kana_eq hstd, ← h.1.2]
    exact congrArg _ (kana_append _ _ (hcut _ h.2.2))

example : ("kya", "きゃ", "キャ") ∈ Spec.romaToHiraKata := by decide +kernel

end WanaKana
