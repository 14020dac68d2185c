import Verif.Props.ToKana2
import Verif.Proofs.StdConcrete
/-! # `to_kana` applied twice, exactly (C66) -/

namespace WanaKana
open KNode

theorem settleN_cons_of {c : Char} {s : Str} (h : ∀ d, s.head? = some d → d = 'っ' ∨ d = 'ッ' → Spec.nKana c = c) :
    Spec.settleN (c :: s) = c :: Spec.settleN s := by
  cases s with
  | nil => rfl
  | cons d s =>
    show (if _ then _ else _) :: _ = _
    by_cases hd : d = 'っ' ∨ d = 'ッ'
    · rw [if_pos hd, h d rfl hd]
    · rw [if_neg hd]

theorem nKana_of_ge {c : Char} (h : 0x2100 ≤ c.toNat) : Spec.nKana c = c := by
  have h1 : c ≠ 'n' := fun e => by rw [e] at h; exact absurd h (by decide)
  have h2 : c ≠ 'N' := fun e => by rw [e] at h; exact absurd h (by decide)
  rw [Spec.nKana, if_neg h1, if_neg h2]

theorem settleN_append_ge {a : Str} (h : ∀ c ∈ a, 0x2100 ≤ c.toNat) (s : Str) :
    Spec.settleN (a ++ s) = a ++ Spec.settleN s := by
  induction a with
  | nil => rfl
  | cons c a ih =>
    rw [List.cons_append, settleN_cons_of (fun _ _ _ => nKana_of_ge (h c (by simp))),
      ih fun d hd => h d (by simp [hd])]
    rfl

theorem nKana_ne (c : Char) : Spec.nKana c ≠ 'n' ∧ Spec.nKana c ≠ 'N' := by
  unfold Spec.nKana
  split
  · decide
  · split
    · decide
    · exact ⟨‹_›, ‹_›⟩

theorem nKana_nKana (c : Char) : Spec.nKana (Spec.nKana c) = Spec.nKana c := by
  have := nKana_ne c
  rw [Spec.nKana, if_neg this.1, if_neg this.2]

theorem nKana_tsu {c : Char} (h : Spec.nKana c = 'っ' ∨ Spec.nKana c = 'ッ') : Spec.nKana c = c := by
  unfold Spec.nKana at h ⊢
  by_cases h1 : c = 'n'
  · rw [if_pos h1] at h; exact absurd h (by decide)
  · rw [if_neg h1] at h ⊢
    by_cases h2 : c = 'N'
    · rw [if_pos h2] at h; exact absurd h (by decide)
    · rw [if_neg h2]

theorem settleN_settleN (s : Str) : Spec.settleN (Spec.settleN s) = Spec.settleN s := by
  induction s with
  | nil => rfl
  | cons c s ih =>
    cases s with
    | nil => rfl
    | cons d s =>
      show Spec.settleN ((if _ then _ else _) :: _) = (if _ then _ else _) :: _
      rw [settleN_cons_of, ih]
      intro e he h
      split
      · exact nKana_nKana c
      · rename_i hd
        exfalso
        apply hd
        cases s with
        | nil => simp [Spec.settleN] at he; subst he; exact h
        | cons x s =>
          simp only [Spec.settleN, List.head?_cons, Option.some.injEq] at he
          split at he
          · subst he
            rwa [nKana_tsu h] at h
          · subst he; exact h

theorem settleN_eq_iff {s : Str} : Spec.settleN s = s ↔
    ∀ n ∈ ['n', 'N'], ∀ t ∈ ['っ', 'ッ'], ¬ [n, t] <:+: s := by
  induction s with
  | nil => simp [Spec.settleN]
  | cons c s ih =>
    cases s with
    | nil =>
      simp only [Spec.settleN, true_iff]
      intro n _ t _ h
      have := h.length_le
      simp at this
    | cons d s =>
      have e : Spec.settleN (c :: d :: s) = c :: d :: s ↔
          ((d = 'っ' ∨ d = 'ッ') → Spec.nKana c = c) ∧ Spec.settleN (d :: s) = d :: s := by
        show (if _ then _ else _) :: _ = _ ↔ _
        by_cases hd : d = 'っ' ∨ d = 'ッ'
        · simp [hd]
        · simp [hd]
      have hn : Spec.nKana c = c ↔ c ≠ 'n' ∧ c ≠ 'N' := by
        constructor
        · intro h; rw [← h]; exact nKana_ne c
        · intro h; rw [Spec.nKana, if_neg h.1, if_neg h.2]
      rw [e, ih, hn]
      constructor
      · clear hn
        rintro ⟨h1, h2⟩ n hn t ht hi
        rcases List.infix_cons_iff.1 hi with hp | hp
        · obtain ⟨r, hr⟩ := hp
          simp at hr
          obtain ⟨rfl, rfl, _⟩ := hr
          simp at hn ht
          have := h1 ht
          rcases hn with rfl | rfl
          · exact this.1 rfl
          · exact this.2 rfl
        · exact h2 n hn t ht hp
      · intro h
        refine ⟨fun hd => ⟨?_, ?_⟩, fun n hn t ht hi => h n hn t ht (List.infix_cons_iff.2 (Or.inr hi))⟩
        · rintro rfl
          exact h 'n' (by simp) d (by simpa using hd) ⟨[], s, rfl⟩
        · rintro rfl
          exact h 'N' (by simp) d (by simpa using hd) ⟨[], s, rfl⟩

theorem lower_n {c : Char} (h : toAsciiLowercase c = 'n') : c = 'n' ∨ c = 'N' := by
  have := congrArg Char.toNat h
  rw [toAsciiLowercase_toNat] at this
  simp only [char_eq_iff, Char.reduceToNat] at this ⊢
  split at this <;> omega

/-- a path of two `y` with an output: the output starts with っ -/
theorem walk_yy {m : Mode} {p : Str} {n : KNode} (hm : m ≠ .ime) (hw : (tree m).walk ('y' :: 'y' :: p) = some n)
    {out : Str} (ho : n.output = some out) : ∃ r, out = 'っ' :: r := by
  have h : allModes (fun m x => decide (m = .ime) || (match x.1, x.2.output with
      | 'y' :: 'y' :: _, some out => decide (out.head? = some 'っ')
      | _, _ => true)) = true := by decide +kernel
  have := allModes_walk h hw
  simp only [ho, Bool.or_eq_true, decide_eq_true_iff] at this
  rcases this with h | h
  · exact absurd h hm
  · cases out with
    | nil => cases h
    | cons x r => simp at h; subst h; exact ⟨r, rfl⟩

/-- the node of "n" outside IME mode -/
theorem walk_n {m : Mode} (hm : m ≠ .ime) : ∃ n, (tree m).walk ['n'] = some n ∧ n.output = some ['ん'] := by
  have h : ([Mode.normal, .obsolete].all fun m => match (tree m).walk ['n'] with
    | some n => decide (n.output = some ['ん'])
    | none => false) = true := by decide +kernel
  have := List.all_eq_true.1 h m (by cases m <;> simp_all)
  cases hw : (tree m).walk ['n'] with
  | none => rw [hw] at this; cases this
  | some n => rw [hw] at this; exact ⟨n, rfl, by simpa using this⟩

theorem h2kP_tsu : h2kP 'っ' = 'ッ' := by decide +kernel
theorem h2kP_n : h2kP 'ん' = 'ン' := by decide +kernel

/-- where an `n` was passed and the following `y` was converted, the conversion starts with っ -/
theorem reopened_tsu {m : Mode} (hmi : m ≠ .ime) {c : Char} {s : Str} (h : Reopened m c s) :
    ∃ d r, kana m s = d :: r ∧ (d = 'っ' ∨ d = 'ッ') := by
  obtain ⟨hc, y, s', n, rfl, hy, hst, d, r, hk, hge⟩ := h
  refine ⟨d, r, hk, ?_⟩
  have hny : (tree m).walk ['n', 'y'] = some n := by
    have := hst.walk
    simpa [low, hc, hy] using this
  obtain ⟨n2, k2, hst2⟩ := exists_stops (tree m) (y :: s')
  cases ho : n2.output with
  | none =>
    exfalso
    have := kana_miss hst2 ho
    rw [hk] at this
    simp at this
    rw [this.1] at hge
    have := congrArg Char.toNat hy
    rw [toAsciiLowercase_toNat] at this
    simp only [Char.reduceToNat] at this
    split at this <;> omega
  | some out =>
    have hw := hst2.walk
    have hpos := stops_pos hst2 ho
    have hwy : ∃ yn, (tree m).walk ['y'] = some yn ∧ yn.output = none := by
      have h : ([Mode.normal, .obsolete, .ime].all fun m => match (tree m).walk ['y'] with
        | some y => y.output.isNone
        | none => false) = true := by decide +kernel
      have := List.all_eq_true.1 h m (by cases m <;> simp)
      cases hw : (tree m).walk ['y'] with
      | none => rw [hw] at this; cases this
      | some n => rw [hw] at this; exact ⟨n, rfl, by simpa using this⟩
    obtain ⟨yn, hwy, hyo⟩ := hwy
    match k2, hst2, hw, hpos with
    | 1, hst2, hw, _ =>
      have : (tree m).walk ['y'] = some n2 := by simpa [low, hy] using hw
      rw [hwy] at this
      cases this
      rw [hyo] at ho; cases ho
    | k + 2, hst2, hw, _ =>
      cases s' with
      | nil => have := hst2.le; simp at this
      | cons z s'' =>
        have e : low ((y :: z :: s'').take (k + 2)) = 'y' :: toAsciiLowercase z :: low (s''.take k) := by
          simp [low, hy]
        rw [e] at hw
        have hz : toAsciiLowercase z = 'y' := by
          refine Classical.byContradiction fun hne => ?_
          have hst' := hst.stop z rfl
          have hf := (y_children m hmi hwy hny hne hst').2
          rw [show 'y' :: toAsciiLowercase z :: low (s''.take k) = ['y'] ++ toAsciiLowercase z :: low (s''.take k) from rfl,
            walk_append, hwy] at hw
          simp only [Option.bind, KNode.walk, hf] at hw
          cases hw
        rw [hz] at hw
        obtain ⟨r', rfl⟩ := walk_yy hmi hw ho
        have hh := kana_hit hst2 ho
        rw [hk, styled] at hh
        split at hh
        · simp [h2kP_tsu] at hh
          exact Or.inr hh.1
        · simp at hh
          exact Or.inl hh.1

/-- `n` before a full width character is converted -/
theorem kana_n_full {m : Mode} (hmi : m ≠ .ime) {c : Char} (hc : toAsciiLowercase c = 'n') {d : Char} (hd : 0x2100 ≤ d.toNat)
    (r : Str) : kana m (c :: d :: r) = Spec.nKana c :: kana m (d :: r) := by
  obtain ⟨n, hw, ho⟩ := walk_n hmi
  have hst : Stops (tree m) (c :: d :: r) n 1 := by
    refine ⟨by simp, by simpa [low, hc] using hw, ?_⟩
    intro x hx
    simp at hx; subst hx
    exact (inert_of_ge hd).find hw
  rw [kana_hit hst ho]
  rcases lower_n hc with rfl | rfl
  · rfl
  · show styled ['N'] ['ん'] ++ _ = _
    have : styled ['N'] ['ん'] = ['ン'] := by decide +kernel
    rw [this]; rfl

/-- a passed `n` is followed by an unfinished "y" -/
theorem miss_n {m : Mode} (hmi : m ≠ .ime) {c : Char} {s : Str} {n : KNode} {k : Nat}
    (hst : Stops (tree m) (c :: s) n k) (ho : n.output = none) (hc : toAsciiLowercase c = 'n') :
    k = 2 ∧ ∃ y s', s = y :: s' ∧ toAsciiLowercase y = 'y' := by
  obtain ⟨n1, hw1, ho1⟩ := walk_n hmi
  have hw := hst.walk
  match k, hst with
  | 0, hst =>
    have := hst.stop c rfl
    have hw := hst.walk
    simp only [List.take_zero, low, List.map_nil, KNode.walk, Option.some.injEq] at hw
    subst hw
    rw [hc] at this
    simp only [KNode.walk, this] at hw1
    cases hw1
  | 1, hst =>
    have hw := hst.walk
    have : (tree m).walk ['n'] = some n := by simpa [low, hc] using hw
    rw [hw1] at this
    cases this
    rw [ho] at ho1; cases ho1
  | k + 2, hst =>
    have hw := hst.walk
    cases s with
    | nil => have := hst.le; simp at this
    | cons y s' =>
      have e : low ((c :: y :: s').take (k + 2)) = 'n' :: (toAsciiLowercase y :: low (s'.take k)) := by
        simp [low, hc]
      rw [e] at hw
      have := walk_ny hw (by simp) hmi ho
      simp only [List.cons.injEq] at this
      have hl := hst.le
      have h0 := congrArg List.length this.2
      simp [low] at h0 hl
      refine ⟨?_, y, s', rfl, this.1⟩
      rcases h0 with h0 | h0
      · omega
      · subst h0; simp at hl; omega

theorem kana_kana {m : Mode} (hmi : m ≠ .ime) (s : Str) : kana m (kana m s) = Spec.settleN (kana m s) := by
  induction s using list_strong with
  | _ s ih =>
    cases s with
    | nil => rw [kana_nil, kana_nil]; rfl
    | cons c s =>
      obtain ⟨n, k, hst⟩ := exists_stops (tree m) (c :: s)
      cases ho : n.output with
      | none =>
        rw [kana_miss hst ho]
        by_cases hR : Reopened m c s
        · obtain ⟨d, r, hk, hd⟩ := reopened_tsu hmi hR
          have ih := ih s (by simp)
          rw [hk] at ih ⊢
          rw [kana_n_full hmi hR.1 (by rcases hd with rfl | rfl <;> decide), ih]
          show _ = (if _ then _ else _) :: _
          rw [if_pos hd]
        · have := miss_again' (b := []) hst ho (fun _ => rfl) (Or.inr hR)
          rw [List.append_nil] at this
          rw [this, ih s (by simp), settleN_cons_of]
          intro d hd hts
          by_cases hc : toAsciiLowercase c = 'n'
          · exfalso
            apply hR
            obtain ⟨rfl, y, s', rfl, hy⟩ := miss_n hmi hst ho hc
            refine ⟨hc, y, s', n, rfl, hy, hst, d, (kana m (y :: s')).tail, ?_, ?_⟩
            · cases hk : kana m (y :: s') with
              | nil => rw [hk] at hd; cases hd
              | cons x r => rw [hk] at hd; simp at hd; subst hd; rfl
            · rcases hts with rfl | rfl <;> decide
          · have h1 : c ≠ 'n' := fun e => hc (by rw [e]; decide)
            have h2 : c ≠ 'N' := fun e => hc (by rw [e]; decide)
            rw [Spec.nKana, if_neg h1, if_neg h2]
      | some out =>
        have hk := stops_pos hst ho
        rw [kana_hit hst ho, kana_of_ge (styled_ge hst.walk ho _),
          ih _ (by simp [List.length_drop]; omega), settleN_append_ge (styled_ge hst.walk ho _)]

/-! ## C66 Exactly when and how converting twice differs from converting once -/

/-- C66: outside IME mode, converting the result again replaces each `n` (`N`) that stands directly
before っ or ッ by ん (ン) and changes nothing else. -/
theorem C66_twice {std : Std} (hstd : std.Lawful) (s : Str) (o : Options)
    (ho : o.use_obsolete_kana = true ∨ o.imemode = false) :
    ∃ r, to_kana_with_opt std s o = .ok r ∧ to_kana_with_opt std r o = .ok (Spec.settleN r) := by
  refine ⟨_, to_kana_eq hstd s o, ?_⟩
  rw [to_kana_eq hstd, kana_kana]
  intro e
  have := modeOf_ime.1 e
  rcases ho with h | h <;> simp_all

/-- C66: the result is stable exactly if no `n` in it stands before っ or ッ. -/
theorem C66_stable_iff {std : Std} (hstd : std.Lawful) {s r : Str} {o : Options}
    (ho : o.use_obsolete_kana = true ∨ o.imemode = false) (h : to_kana_with_opt std s o = .ok r) :
    to_kana_with_opt std r o = .ok r ↔ ∀ n ∈ ['n', 'N'], ∀ t ∈ ['っ', 'ッ'], ¬ [n, t] <:+: r := by
  obtain ⟨r', h1, h2⟩ := C66_twice hstd s o ho
  rw [h] at h1
  cases h1
  rw [h2, ← settleN_eq_iff, Except.ok.injEq]

/-- C66: a third conversion never changes anything. -/
theorem C66_third {std : Std} (hstd : std.Lawful) {s r r' : Str} {o : Options}
    (h : to_kana_with_opt std s o = .ok r) (h' : to_kana_with_opt std r o = .ok r') :
    to_kana_with_opt std r' o = .ok r' := by
  rw [to_kana_eq hstd, Except.ok.injEq] at h h'
  subst h; subst h'
  rw [to_kana_eq hstd]
  by_cases hm : modeOf o = .ime
  · rw [kana_idem _ _ (Or.inl hm)]
  · rw [kana_kana hm (kana _ s), kana_kana hm, settleN_settleN]

example : to_kana modernStd ['n', 'y', 'y', 'a', 'N', 'Y', 'Y', 'O'] = .ok ['n', 'っ', 'や', 'N', 'ッ', 'ヨ'] := by
  decide +kernel
example : Spec.settleN ['n', 'っ', 'や', 'N', 'ッ', 'ヨ'] = ['ん', 'っ', 'や', 'ン', 'ッ', 'ヨ'] := by decide

end WanaKana
