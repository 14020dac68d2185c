import Verif.Props.ToKana
/-! # Properties of `to_kana`: idempotence, options, incremental IME mode (C16–C18) -/

namespace WanaKana
open KNode

/-! ## Stability of unfinished text -/

/-- unfinished paths through "n" outside IME mode: only "ny" -/
theorem walk_ny {m : Mode} {p : Str} {n : KNode} (hw : (tree m).walk ('n' :: p) = some n)
    (hp : p ≠ []) (hm : m ≠ .ime) (ho : n.output = none) : p = ['y'] := by
  have h : allModes (fun m x => decide (m = .ime) || x.2.output.isSome ||
      (match x.1 with
      | 'n' :: q => q.isEmpty || decide (q = ['y'])
      | _ => true)) = true := by decide +kernel
  have := allModes_walk h hw
  simp only [ho, Bool.or_eq_true, decide_eq_true_iff, List.isEmpty_iff] at this
  rcases this with (h | h) | h | h
  · exact absurd h hm
  · cases h
  · exact absurd h hp
  · exact h

/-- what can follow "y": "y" itself or a character that can follow "ny" -/
theorem y_children (m : Mode) (hm : m ≠ .ime) {y : KNode} (hy : (tree m).walk ['y'] = some y) {ny : KNode}
    (hny : (tree m).walk ['n', 'y'] = some ny) {c : Char} (hc : c ≠ 'y')
    (hf : ny.find_transition_node c = none) : y.output = none ∧ y.find_transition_node c = none := by
  have h : ([Mode.normal, .obsolete].all fun m => match (tree m).walk ['y'], (tree m).walk ['n', 'y'] with
    | some y, some ny => y.output.isNone &&
        y.transitions.all fun t => t.1 == 'y' || (ny.find_transition_node t.1).isSome
    | _, _ => true) = true := by decide +kernel
  have h1 := List.all_eq_true.1 h m (by cases m <;> simp_all)
  simp only [hy, hny, Bool.and_eq_true, Option.isNone_iff_eq_none] at h1
  refine ⟨h1.1, ?_⟩
  cases hff : y.find_transition_node c with
  | none => rfl
  | some k =>
    unfold find_transition_node at hff
    cases hfi : y.transitions.find? (fun t => t.1 == c) with
    | none => rw [hfi] at hff; cases hff
    | some a =>
      have hm := List.mem_of_find?_eq_some hfi
      have hac : a.1 = c := by simpa using List.find?_some hfi
      have := List.all_eq_true.1 h1.2 a hm
      rw [hac, hf] at this
      simp [hc] at this

/-- the text has no "nyy" (in any case) -/
def NoNyy (s : Str) : Prop := ¬ ['n', 'y', 'y'] <:+: low s

theorem NoNyy.suffix {a b : Str} (h : NoNyy (a ++ b)) : NoNyy b := by
  intro hb
  apply h
  have : low (a ++ b) = low a ++ low b := by simp [low]
  rw [this]
  exact hb.trans (List.suffix_append _ _).isInfix

theorem take_low (s : Str) (k : Nat) : low (s.take k) = (low s).take k := List.map_take

/-- The situation in which a passed `n` is reconsidered: "ny" where the y is converted. -/
def Reopened (m : Mode) (c : Char) (s : Str) : Prop :=
  toAsciiLowercase c = 'n' ∧ ∃ y s' n, s = y :: s' ∧ toAsciiLowercase y = 'y' ∧ Stops (tree m) (c :: s) n 2 ∧
    ∃ d r, kana m s = d :: r ∧ 0x2100 ≤ d.toNat

/-- A character that is passed through at `c :: s` is also passed through when the rest has
already been converted. -/
theorem miss_again' {m : Mode} {c : Char} {s b : Str} {n : KNode} {k : Nat}
    (hst : Stops (tree m) (c :: s) n k) (ho : n.output = none)
    (hb : k = (c :: s).length → b = []) (hm : m = .ime ∨ ¬ Reopened m c s) :
    kana m (c :: (kana m s ++ b)) = c :: kana m (kana m s ++ b) := by
  obtain ⟨j, rest, hsh, hj, hrest⟩ := kana_shape m s
  have hte : c :: (kana m s ++ b) = (c :: s.take j) ++ (rest ++ b) := by rw [hsh]; simp
  have hlen : (c :: s.take j).length = j + 1 := by simp; omega
  by_cases hkj : k ≤ j + 1
  · -- the walk ends at the same node
    have hst2 : Stops (tree m) (c :: (kana m s ++ b)) n k := by
      refine ⟨?_, ?_, ?_⟩
      · rw [hte, List.length_append, hlen]; omega
      · rw [hte, List.take_append_of_le_length (by omega)]
        have : (c :: s.take j).take k = (c :: s).take k := by
          rw [show c :: s.take j = (c :: s).take (j + 1) from rfl, List.take_take]
          congr 1; omega
        rw [this]; exact hst.walk
      · intro d hd
        rw [hte] at hd
        by_cases hlt : k < j + 1
        · rw [List.drop_append_of_le_length (by omega)] at hd
          have hne : (c :: s.take j).drop k ≠ [] := by
            intro e; have := congrArg List.length e
            simp only [List.length_drop, hlen, List.length_nil] at this; omega
          apply hst.stop d
          cases hx : (c :: s.take j).drop k with
          | nil => exact absurd hx hne
          | cons x xs =>
            rw [hx] at hd
            simp at hd; subst hd
            have : (c :: s).drop k = (c :: s.take j).drop k ++ s.drop j := by
              rw [← List.drop_append_of_le_length (by omega)]
              simp
            rw [this, hx]; rfl
        · have hk : k = j + 1 := by omega
          have e : List.drop k (c :: List.take j s ++ (rest ++ b)) = rest ++ b := by
            rw [hk, ← hlen, List.drop_left]
          rw [e] at hd
          rcases hrest with ⟨h1, h2⟩ | ⟨x, r, h2, hge⟩
          · rw [h2, hb (by simp; omega)] at hd
            cases hd
          · rw [h2] at hd
            simp at hd; subst hd
            exact (inert_of_ge hge).find hst.walk
    exact kana_miss hst2 ho
  · -- the walk now ends earlier
    have hkl := hst.le
    have hjs : j < s.length := by simp at hkl; omega
    obtain ⟨d, r, hr, hge⟩ : ∃ d r, rest = d :: r ∧ 0x2100 ≤ d.toNat := by
      rcases hrest with ⟨h1, _⟩ | h
      · omega
      · exact h
    have hp := hst.walk
    have hsplit : low ((c :: s).take k) = low ((c :: s).take (j + 1)) ++ low (((c :: s).take k).drop (j + 1)) := by
      rw [← List.map_append]
      congr 1
      rw [show (c :: s).take (j + 1) = ((c :: s).take k).take (j + 1) by
        rw [List.take_take]; congr 1; omega, List.take_append_drop]
    rw [hsplit, walk_append] at hp
    cases hn1 : (tree m).walk (low ((c :: s).take (j + 1))) with
    | none => rw [hn1] at hp; cases hp
    | some n1 =>
      rw [hn1] at hp
      have hst2 : Stops (tree m) (c :: (kana m s ++ b)) n1 (j + 1) := by
        refine ⟨?_, ?_, ?_⟩
        · rw [hte, List.length_append, hlen]; omega
        · rw [hte, ← hlen, List.take_left]
          exact hn1
        · intro x hx
          rw [hte, ← hlen, List.drop_left, hr] at hx
          simp at hx; subst hx
          exact (inert_of_ge hge).find hn1
      have hne2 : low (((c :: s).take k).drop (j + 1)) ≠ [] := by
        intro e
        have := congrArg List.length e
        simp only [low, List.length_map, List.length_drop, List.length_take, List.length_nil] at this
        simp at hkl this; omega
      cases ho1 : n1.output with
      | none => exact kana_miss hst2 ho1
      | some out =>
        exfalso
        rcases walk_inner_output hn1 ho1 with hl | ⟨hpn, hmi⟩
        · -- a leaf cannot be continued
          cases hx : low (((c :: s).take k).drop (j + 1)) with
          | nil => exact hne2 hx
          | cons x xs =>
            rw [hx] at hp
            simp only [Option.bind, KNode.walk, find_none_of_leaf hl] at hp
            cases hp
        · have hm' : ¬ Reopened m c s := by
            rcases hm with h | h
            · exact absurd h hmi
            · exact h
          have hj0 : j = 0 := by
            have := congrArg List.length hpn
            simp only [low, List.length_map, List.length_take, List.length_cons,
              List.length_nil] at this
            omega
          subst hj0
          have hc : toAsciiLowercase c = 'n' := by simpa [low] using hpn
          have hw := hst.walk
          have hp2 : low ((c :: s).take k) = 'n' :: low (((c :: s).take k).drop 1) := by
            rw [hsplit, hpn]; rfl
          have hy : low (((c :: s).take k).drop 1) = ['y'] := by
            rw [hp2] at hw
            exact walk_ny hw hne2 hmi ho
          -- so k = 2
          have hk2 : k = 2 := by
            have := congrArg List.length hy
            simp only [low, List.length_map, List.length_drop, List.length_take, List.length_cons,
              List.length_nil] at this
            simp at hkl; omega
          subst hk2
          cases s with
          | nil => simp at hjs
          | cons y s' =>
            have hy' : toAsciiLowercase y = 'y' := by simpa [low] using hy
            exact hm' ⟨hc, y, s', n, rfl, hy', hst, d, r, by rw [hsh, hr]; simp, hge⟩

/-- without "nyy" the y of "ny" is not converted -/
theorem noNyy_not_reopened {m : Mode} (hmi : m ≠ .ime) {c : Char} {s : Str} (hm' : NoNyy (c :: s)) :
    ¬ Reopened m c s := by
  rintro ⟨hc, y, s', n, rfl, hy', hst, d, r, hsh, hge⟩
  have hwny : (tree m).walk ['n', 'y'] = some n := by
    have := hst.walk
    simpa [low, hc, hy'] using this
  have hwy : ∃ yn, (tree m).walk ['y'] = some yn := by
    have h : ([Mode.normal, .obsolete, .ime].all fun m => ((tree m).walk ['y']).isSome) = true := by
      decide +kernel
    exact Option.isSome_iff_exists.1 (List.all_eq_true.1 h m (by cases m <;> simp))
  obtain ⟨yn, hwy⟩ := hwy
  have hsty : Stops (tree m) (y :: s') yn 1 := by
    refine ⟨by simp, by simpa [low, hy'] using hwy, ?_⟩
    intro x hx
    have hx2 := hst.stop x (by simpa using hx)
    refine (y_children m hmi hwy hwny ?_ hx2).2
    intro hxy
    apply hm'
    cases s' with
    | nil => simp at hx
    | cons z s'' =>
      simp at hx; subst hx
      refine ⟨[], low s'', ?_⟩
      simp [low, hc, hy', hxy]
  have hyo : yn.output = none := by
    have h : ([Mode.normal, .obsolete, .ime].all fun m => match (tree m).walk ['y'] with
      | some y => y.output.isNone
      | none => true) = true := by decide +kernel
    have := List.all_eq_true.1 h m (by cases m <;> simp)
    rw [hwy] at this
    simpa using this
  have := kana_miss hsty hyo
  rw [hsh] at this
  simp at this
  rw [this.1] at hge
  have := congrArg Char.toNat hy'
  rw [toAsciiLowercase_toNat] at this
  simp only [Char.reduceToNat] at this
  split at this <;> omega

theorem miss_again {m : Mode} {c : Char} {s b : Str} {n : KNode} {k : Nat}
    (hst : Stops (tree m) (c :: s) n k) (ho : n.output = none)
    (hb : k = (c :: s).length → b = []) (hm : m = .ime ∨ NoNyy (c :: s)) :
    kana m (c :: (kana m s ++ b)) = c :: kana m (kana m s ++ b) := by
  refine miss_again' hst ho hb ?_
  by_cases hmi : m = .ime
  · exact Or.inl hmi
  · exact Or.inr (noNyy_not_reopened hmi (hm.resolve_left hmi))

/-! ## C16 to_kana is idempotent -/

theorem kana_idem (m : Mode) (s : Str) (h : m = .ime ∨ NoNyy s) : kana m (kana m s) = kana m s := by
  induction s using list_strong with
  | _ s ih =>
    cases s with
    | nil => rw [kana_nil, kana_nil]
    | cons c s =>
      obtain ⟨n, k, hst⟩ := exists_stops (tree m) (c :: s)
      cases ho : n.output with
      | none =>
        rw [kana_miss hst ho]
        have := miss_again (b := []) hst ho (fun _ => rfl) h
        rw [List.append_nil] at this
        rw [this, ih s (by simp) (h.imp_right fun h => h.suffix (a := [c]))]
      | some out =>
        have hk := stops_pos hst ho
        rw [kana_hit hst ho, kana_of_ge (styled_ge hst.walk ho _),
          ih _ (by simp [List.length_drop]; omega) (h.imp_right fun h =>
            NoNyy.suffix (a := (c :: s).take k) (by rwa [List.take_append_drop]))]

theorem noNyy_iff {s : Str} : NoNyy s ↔ ¬ ['n', 'y', 'y'] <:+: s.map Spec.asciiLower := by
  rw [asciiLower_eq]; rfl

/-- C16 (partial): converting twice is the same as converting once for every text without
`nyy` (in any letter case).  Missing: texts with `nyy`, for which the claim is false, see
`C16_false`. -/
theorem C16_idempotent_partial {std : Std} (hstd : std.Lawful) (s : Str) (o : Options)
    (h : ¬ ['n', 'y', 'y'] <:+: s.map Spec.asciiLower) :
    ∃ r, to_kana_with_opt std s o = .ok r ∧ to_kana_with_opt std r o = .ok r := by
  refine ⟨_, to_kana_eq hstd s o, ?_⟩
  rw [to_kana_eq hstd, kana_idem _ _ (Or.inr (noNyy_iff.2 h))]

/-- C16 in IME mode: always. -/
theorem C16_idempotent_ime {std : Std} (hstd : std.Lawful) (s : Str) (o : Options)
    (h1 : o.imemode = true) (h2 : o.use_obsolete_kana = false) :
    ∃ r, to_kana_with_opt std s o = .ok r ∧ to_kana_with_opt std r o = .ok r := by
  refine ⟨_, to_kana_eq hstd s o, ?_⟩
  rw [to_kana_eq hstd, kana_idem _ _ (Or.inl (modeOf_ime.2 ⟨h1, h2⟩))]

/-- C16 is false in general: `nyya` becomes `nっや`, then `んっや`. -/
theorem C16_false {std : Std} (hstd : std.Lawful) :
    ∃ s r, to_kana std s = .ok r ∧ to_kana std r ≠ .ok r := by
  refine ⟨['n', 'y', 'y', 'a'], ['n', 'っ', 'や'], ?_, ?_⟩
  · unfold to_kana; rw [to_kana_eq hstd]; decide +kernel
  · unfold to_kana; rw [to_kana_eq hstd]; decide +kernel

example : ¬ ['n', 'y', 'y'] <:+: (['n', 'y', 'k', 'o', 'n', 'Y'].map Spec.asciiLower) := by decide +kernel

/-! ## C17 Options affect only what they document -/

/-- C17: pass_romaji and upcase_katakana have no effect. -/
theorem C17_ignored (std : Std) (s : Str) (o : Options) (p u : Bool) :
    to_kana_with_opt std s { o with pass_romaji := p, upcase_katakana := u } = to_kana_with_opt std s o := by
  unfold to_kana_with_opt
  have : ∀ fuel pos out, toKanaLoop std { o with pass_romaji := p, upcase_katakana := u } s s.length fuel pos out
      = toKanaLoop std o s s.length fuel pos out := by
    intro fuel
    induction fuel with
    | zero => intros; rfl
    | succ fuel ih =>
      intro pos out
      simp only [toKanaLoop, toKanaLookup, ih]
  exact this _ _ _

/-- C17: imemode is ignored together with use_obsolete_kana. -/
theorem C17_obsolete_wins {std : Std} (hstd : std.Lawful) (s : Str) (o o' : Options)
    (h : o.use_obsolete_kana = true) (h' : o'.use_obsolete_kana = true) :
    to_kana_with_opt std s o = to_kana_with_opt std s o' := by
  rw [to_kana_eq hstd, to_kana_eq hstd]
  have e : ∀ o : Options, o.use_obsolete_kana = true → modeOf o = .obsolete := by
    intro o h; unfold modeOf; rw [if_pos h]
  rw [e o h, e o' h']

/-- two modes agree on a text if they agree on all paths occurring in it -/
theorem kana_agree {m m' : Mode} {s : Str}
    (h : ∀ p n, p <:+: low s → (tree m).walk p = some n →
      ∃ n', (tree m').walk p = some n' ∧ n'.output = n.output)
    (h' : ∀ p n, p <:+: low s → (tree m').walk p = some n →
      ∃ n', (tree m).walk p = some n' ∧ n'.output = n.output) : kana m s = kana m' s := by
  induction s using list_strong with
  | _ s ih =>
    have hsub : ∀ (a b : Str), s = a ++ b → ∀ p : Str, p <:+: low b → p <:+: low s := by
      intro a b e p hp
      rw [e]
      have : low (a ++ b) = low a ++ low b := by simp [low]
      rw [this]
      exact hp.trans (List.suffix_append _ _).isInfix
    cases s with
    | nil => rw [kana_nil, kana_nil]
    | cons c s =>
      obtain ⟨n, k, hst⟩ := exists_stops (tree m) (c :: s)
      have hpre : low ((c :: s).take k) <:+: low (c :: s) := by
        rw [take_low]; exact (List.take_prefix _ _).isInfix
      obtain ⟨n', hn', ho'⟩ := h _ n hpre hst.walk
      have hst' : Stops (tree m') (c :: s) n' k := by
        refine ⟨hst.le, hn', ?_⟩
        intro d hd
        cases hf : n'.find_transition_node (toAsciiLowercase d) with
        | none => rfl
        | some x =>
          exfalso
          have hw2 : (tree m').walk (low ((c :: s).take k) ++ [toAsciiLowercase d]) = some x := by
            rw [walk_append, hn']
            show n'.walk _ = _
            rw [walk_singleton, hf]
          have hin : low ((c :: s).take k) ++ [toAsciiLowercase d] <:+: low (c :: s) := by
            cases hdr : (c :: s).drop k with
            | nil => rw [hdr] at hd; cases hd
            | cons y ys =>
              rw [hdr] at hd
              simp at hd; subst hd
              refine ⟨[], low ys, ?_⟩
              conv => rhs; rw [← List.take_append_drop k (c :: s), hdr]
              simp [low]
          obtain ⟨z, hz, _⟩ := h' _ x hin hw2
          rw [walk_append, hst.walk] at hz
          have hz' : n.walk [toAsciiLowercase d] = some z := hz
          rw [walk_singleton, hst.stop d hd] at hz'
          cases hz'
      cases ho : n.output with
      | none =>
        rw [kana_miss hst ho, kana_miss hst' (by rw [ho', ho])]
        rw [ih s (by simp) (fun p n hp => h p n (hsub [c] s rfl p hp))
          (fun p n hp => h' p n (hsub [c] s rfl p hp))]
      | some out =>
        have hk := stops_pos hst ho
        rw [kana_hit hst ho, kana_hit hst' (by rw [ho', ho])]
        rw [ih _ (by simp [List.length_drop]; omega)
          (fun p n hp => h p n (hsub _ _ (List.take_append_drop k _).symm p hp))
          (fun p n hp => h' p n (hsub _ _ (List.take_append_drop k _).symm p hp))]

/-- all paths of `m` except `bad` ones exist in `m'` with the same output -/
def agreeCheck (m m' : Mode) (bad : Str → Bool) : Bool :=
  (tree m).paths.all fun x => bad x.1 || match (tree m').walk x.1 with
    | some n => decide (n.output = x.2.output)
    | none => false

theorem agree_of_check {m m' : Mode} {bad : Str → Bool} (h : agreeCheck m m' bad = true) {p : Str}
    {n : KNode} (hb : bad p = false) (hw : (tree m).walk p = some n) :
    ∃ n', (tree m').walk p = some n' ∧ n'.output = n.output := by
  have := walk_check h hw
  rw [hb] at this
  cases hx : (tree m').walk p with
  | none => simp [hx] at this
  | some n' => simp [hx] at this; exact ⟨n', rfl, this⟩

/-- C17: use_obsolete_kana matters only if `w` is followed by `i` or `e` (in any case). -/
theorem C17_obsolete {std : Std} (hstd : std.Lawful) (s : Str) (o o' : Options)
    (ho : o.imemode = false) (ho' : o'.imemode = false)
    (h1 : ¬ ['w', 'i'] <:+: s.map Spec.asciiLower) (h2 : ¬ ['w', 'e'] <:+: s.map Spec.asciiLower) :
    to_kana_with_opt std s o = to_kana_with_opt std s o' := by
  rw [asciiLower_eq] at h1 h2
  have key : kana .normal s = kana .obsolete s := by
    have hb : ∀ p : Str, p <:+: low s → (decide (p = ['w', 'i']) || decide (p = ['w', 'e'])) = false := by
      intro p hp
      rw [Bool.or_eq_false_iff, decide_eq_false_iff_not, decide_eq_false_iff_not]
      exact ⟨fun e => h1 (e ▸ hp), fun e => h2 (e ▸ hp)⟩
    apply kana_agree
    · intro p n hp hw
      exact agree_of_check (bad := fun p => decide (p = ['w', 'i']) || decide (p = ['w', 'e']))
        (by decide +kernel) (hb p hp) hw
    · intro p n hp hw
      exact agree_of_check (bad := fun p => decide (p = ['w', 'i']) || decide (p = ['w', 'e']))
        (by decide +kernel) (hb p hp) hw
  have e : ∀ o : Options, o.imemode = false → kana (modeOf o) s = kana .normal s := by
    intro o h
    unfold modeOf
    rw [h]
    cases o.use_obsolete_kana with
    | true => exact key.symm
    | false => rfl
  rw [to_kana_eq hstd, to_kana_eq hstd, e o ho, e o' ho']

/-- C17: imemode matters only if the text contains `n` or `N`. -/
theorem C17_ime {std : Std} (hstd : std.Lawful) (s : Str) (o : Options) (b : Bool)
    (h1 : 'n' ∉ s) (h2 : 'N' ∉ s) :
    to_kana_with_opt std s { o with imemode := b } = to_kana_with_opt std s o := by
  have hn : 'n' ∉ low s := by
    intro h
    obtain ⟨c, hc, e⟩ := List.mem_map.1 h
    rcases low_eq_n e with rfl | rfl
    · exact h1 hc
    · exact h2 hc
  have key : kana .normal s = kana .ime s := by
    have hb : ∀ p : Str, p <:+: low s → (p.contains 'n') = false := by
      intro p hp
      rw [Bool.eq_false_iff, Ne, List.contains_iff_mem]
      exact fun h => hn (hp.subset h)
    apply kana_agree
    · intro p n hp hw
      exact agree_of_check (bad := fun p => p.contains 'n') (by decide +kernel) (hb p hp) hw
    · intro p n hp hw
      exact agree_of_check (bad := fun p => p.contains 'n') (by decide +kernel) (hb p hp) hw
  rw [to_kana_eq hstd, to_kana_eq hstd]
  unfold modeOf
  cases o.use_obsolete_kana <;> cases o.imemode <;> cases b <;> simp [key]

/-- both options do have an effect where the theorems do not apply -/
example : kana .obsolete ['W', 'i'] ≠ kana .normal ['W', 'i'] ∧ kana .ime ['n'] ≠ kana .normal ['n'] := by
  decide +kernel

/-! ## C18 IME mode is incremental -/

/-- in IME mode no key is hidden inside an unfinished path -/
theorem ime_unfinished {p : Str} {n : KNode} (hw : (tree .ime).walk p = some n) (ho : n.output = none) :
    kana .ime p = p := by
  have h : ((tree .ime).paths.all fun x => x.2.output.isSome || decide (kana .ime x.1 = x.1)) = true := by
    decide +kernel
  have := walk_check h hw
  simpa [ho] using this

/-- the same for text in any case: an unfinished path is passed through unchanged -/
theorem ime_unfinished' {s : Str} : ∀ {n : KNode}, (tree .ime).walk (low s) = some n → n.output = none →
    kana .ime s = s := by
  intro n hw ho
  have hp := ime_unfinished hw ho
  -- the scan of `low s` never hits, hence neither does that of `s`
  have : ∀ s : Str, kana .ime (low s) = low s → kana .ime s = s := by
    intro s
    induction s with
    | nil => intro _; rw [kana_nil]
    | cons c s ih =>
      intro h
      obtain ⟨n, k, hst⟩ := exists_stops (tree .ime) (c :: s)
      have hst' := stops_congr_low (s' := low (c :: s)) hst (low_low _).symm
      cases ho : n.output with
      | none =>
        have h2 : kana .ime (low (c :: s)) = toAsciiLowercase c :: kana .ime (low s) := kana_miss hst' ho
        rw [h2] at h
        have h3 : kana .ime (low s) = low s := by
          have : toAsciiLowercase c :: kana .ime (low s) = toAsciiLowercase c :: low s := h
          simpa using this
        rw [kana_miss hst ho, ih h3]
      | some out =>
        exfalso
        have h2 := kana_hit hst' ho
        rw [h] at h2
        have hw := hst.walk
        have hge := styled_ge hst'.walk ho ((low (c :: s)).take k)
        have hne := styled_ne_nil (x := (low (c :: s)).take k) (walk_output hst'.walk ho).1
        cases hs : styled ((low (c :: s)).take k) out with
        | nil => exact hne hs
        | cons d r =>
          rw [hs] at h2 hge
          have hd : toAsciiLowercase c = d := by
            simp [low] at h2; exact h2.1
          have h3 := hge d (by simp)
          have hk := stops_pos hst ho
          have h4 : headChar (toAsciiLowercase c) = true := walk_head hst.walk _ (by
            obtain ⟨j, rfl⟩ : ∃ j, k = j + 1 := ⟨k - 1, by omega⟩
            simp [low])
          have h5 := (inert_of_ge (m := .ime) h3).1
          rw [← hd, toAsciiLowercase_idem, h4] at h5
          cases h5
  exact this s hp

theorem ime_incremental (a b : Str) : kana .ime (kana .ime a ++ b) = kana .ime (a ++ b) := by
  induction a using list_strong with
  | _ a ih =>
    cases a with
    | nil => rw [kana_nil]
    | cons c a =>
      obtain ⟨n, k, hst⟩ := exists_stops (tree .ime) (c :: a)
      cases ho : n.output with
      | some out =>
        have hk := stops_pos hst ho
        have hleaf : n.transitions = [] := by
          rcases walk_inner_output hst.walk ho with h | ⟨_, h⟩
          · exact h
          · exact absurd rfl h
        have hst2 : Stops (tree .ime) (c :: a ++ b) n k := hst.append fun _ d _ => find_none_of_leaf hleaf _
        have hle := hst.le
        rw [kana_hit hst ho, kana_hit hst2 ho, List.append_assoc, kana_of_ge (styled_ge hst.walk ho _),
          List.take_append_of_le_length hle, List.drop_append_of_le_length hle,
          ih _ (by simp [List.length_drop]; omega)]
      | none =>
        by_cases hk : k = (c :: a).length
        · have hw := hst.walk
          rw [hk, List.take_length] at hw
          rw [ime_unfinished' hw ho]
        · have hst2 : Stops (tree .ime) (c :: a ++ b) n k := hst.append fun h => absurd h hk
          rw [kana_miss hst ho, List.cons_append, List.cons_append, kana_miss (s := a ++ b) hst2 ho,
            miss_again hst ho (fun h => absurd h hk) (Or.inl rfl), ih a (by simp)]

/-- C18: in IME mode, converting what was typed so far and going on typing gives the same text
as converting everything at once. -/
theorem C18_incremental {std : Std} (hstd : std.Lawful) (a b : Str) (o : Options)
    (h1 : o.imemode = true) (h2 : o.use_obsolete_kana = false) :
    ∃ ra, to_kana_with_opt std a o = .ok ra ∧
      to_kana_with_opt std (ra ++ b) o = to_kana_with_opt std (a ++ b) o := by
  refine ⟨_, to_kana_eq hstd a o, ?_⟩
  rw [to_kana_eq hstd, to_kana_eq hstd, modeOf_ime.2 ⟨h1, h2⟩, ime_incremental]

/-- Typing key by key, converting after each key, gives the conversion of the whole text. -/
theorem C18_typing {std : Std} (hstd : std.Lawful) (s : Str) (o : Options)
    (h1 : o.imemode = true) (h2 : o.use_obsolete_kana = false) :
    s.foldlM (fun buffer key => to_kana_with_opt std (buffer ++ [key]) o) [] = to_kana_with_opt std s o := by
  have hm := modeOf_ime.2 ⟨h1, h2⟩
  have key : ∀ (s a : Str), s.foldlM (fun buffer key => to_kana_with_opt std (buffer ++ [key]) o)
      (kana .ime a) = (Except.ok (kana .ime (a ++ s)) : Res Str) := by
    intro s
    induction s with
    | nil => intro a; rw [List.append_nil]; rfl
    | cons c s ih =>
      intro a
      rw [List.foldlM_cons, to_kana_eq hstd, hm, ime_incremental, ok_bind, ih (a ++ [c])]
      simp
  rw [to_kana_eq hstd, hm]
  have := key s []
  rw [kana_nil] at this
  simpa using this

/-- not so without IME mode: `n`, then `a` -/
example : kana .normal (kana .normal ['n'] ++ ['a']) ≠ kana .normal ['n', 'a'] := by decide +kernel

end WanaKana
