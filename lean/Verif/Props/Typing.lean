import Verif.Spec.Typing
import Verif.Props.Convert4
import Verif.Props.Convert2
import Verif.Props.ToKana3
/-! # C87, C88: converting while typing -/

namespace WanaKana
open KNode

/-- a path that is not a key hides no key (outside IME mode) -/
theorem plain_unfinished {m : Mode} (hmi : m ≠ .ime) {s : Str} {n : KNode} (hw : (tree m).walk (low s) = some n)
    (ho : n.output = none) : kana m s = s := by
  have h : ([Mode.normal, .obsolete].all fun m => (tree m).paths.all fun x =>
      x.2.output.isSome || decide (kana m x.1 = x.1)) = true := by decide +kernel
  have := walk_check (List.all_eq_true.1 h m (by cases m <;> simp_all)) hw
  have hp : kana m (low s) = low s := by simpa [ho] using this
  clear this h
  have : ∀ s : Str, kana m (low s) = low s → kana m s = s := by
    intro s
    induction s with
    | nil => intro _; rw [kana_nil]
    | cons c s ih =>
      intro h
      obtain ⟨n, k, hst⟩ := exists_stops (tree m) (c :: s)
      have hst' := stops_congr_low (s' := low (c :: s)) hst (low_low _).symm
      cases ho : n.output with
      | none =>
        have h2 : kana m (low (c :: s)) = toAsciiLowercase c :: kana m (low s) := kana_miss hst' ho
        rw [h2] at h
        have h3 : kana m (low s) = low s := by
          have : toAsciiLowercase c :: kana m (low s) = toAsciiLowercase c :: low s := h
          simpa using this
        rw [kana_miss hst ho, ih h3]
      | some out =>
        exfalso
        have h2 := kana_hit hst' ho
        rw [h] at h2
        have hge := styled_ge hst'.walk ho ((low (c :: s)).take k)
        have hne := styled_ne_nil (x := (low (c :: s)).take k) (walk_output hst'.walk ho).1
        cases hs : styled ((low (c :: s)).take k) out with
        | nil => exact hne hs
        | cons d r =>
          rw [hs] at h2 hge
          have hd : toAsciiLowercase c = d := by
            simp [low] at h2; exact h2.1
          have h3 := hge d (by simp)
          have hk := stops_pos hst ho
          have h4 : headChar (toAsciiLowercase c) = true := walk_head hst.walk _ (by
            obtain ⟨j, rfl⟩ : ∃ j, k = j + 1 := ⟨k - 1, by omega⟩
            simp [low])
          have h5 := (inert_of_ge (m := m) h3).1
          rw [← hd, toAsciiLowercase_idem, h4] at h5
          cases h5
  exact this s hp

/-- facts about the paths with `n` and `x` outside IME mode -/
theorem n_branches {m : Mode} (hmi : m ≠ .ime) {p : Str} {n : KNode} (hw : (tree m).walk p = some n) :
    (p.getLast? = some 'n' → p = ['n'] ∨ p = ['x', 'n']) ∧
    (n.output.isSome = true → p.getLast? ≠ some 'x') ∧
    (p = ['x', 'n'] → n.output.isSome = true) ∧
    (∀ x, n.output.isSome = true → x ∈ n.transitions → p = ['n']) ∧
    (p.head? = some 'n' → 2 ≤ p.length → ∀ out, n.output = some out → (p = ['n', '\''] ∧ out = ['ん']) ∨
      ∀ d, out.head? = some d → d ≠ 'ん' ∧ d ≠ 'ン' ∧ h2kP d ≠ 'ん' ∧ h2kP d ≠ 'ン') := by
  have h : ([Mode.normal, .obsolete].all fun m => (tree m).paths.all fun x =>
      (!decide (x.1.getLast? = some 'n') || decide (x.1 = ['n']) || decide (x.1 = ['x', 'n'])) &&
      (!x.2.output.isSome || !decide (x.1.getLast? = some 'x')) &&
      (!decide (x.1 = ['x', 'n']) || x.2.output.isSome) &&
      (!x.2.output.isSome || x.2.transitions.isEmpty || decide (x.1 = ['n'])) &&
      (!decide (x.1.head? = some 'n') || decide (x.1.length < 2) || match x.2.output with
        | none => true
        | some out => (decide (x.1 = ['n', '\'']) && decide (out = ['ん'])) || match out with
          | [] => true
          | d :: _ => decide (d ≠ 'ん' ∧ d ≠ 'ン' ∧ h2kP d ≠ 'ん' ∧ h2kP d ≠ 'ン'))) = true := by decide +kernel
  have := walk_check (List.all_eq_true.1 h m (by cases m <;> simp_all)) hw
  simp only [Bool.and_eq_true, Bool.or_eq_true, Bool.not_eq_true', decide_eq_true_iff, decide_eq_false_iff_not,
    List.isEmpty_iff] at this
  obtain ⟨⟨⟨⟨h1, h2⟩, h3⟩, h4⟩, h5⟩ := this
  refine ⟨fun hp => ?_, fun hp => ?_, fun hp => ?_, fun x hp hx => ?_, fun hh hl out ho => ?_⟩
  · rcases h1 with (h1 | h1) | h1
    · exact absurd hp h1
    · exact Or.inl h1
    · exact Or.inr h1
  · rcases h2 with h2 | h2
    · rw [hp] at h2; cases h2
    · exact h2
  · rcases h3 with h3 | h3
    · exact absurd hp h3
    · exact h3
  · rcases h4 with (h4 | h4) | h4
    · rw [hp] at h4; cases h4
    · rw [h4] at hx; cases hx
    · exact h4
  · rcases h5 with (h5 | h5) | h5
    · exact absurd hh h5
    · omega
    · rw [ho] at h5
      simp only [Bool.or_eq_true, Bool.and_eq_true, decide_eq_true_iff] at h5
      rcases h5 with h5 | h5
      · exact Or.inl h5
      · right
        intro d hd
        cases out with
        | nil => cases hd
        | cons e r =>
          simp at hd; subst hd
          simpa using h5

/-- `xn` is always read as a key -/
theorem xn_stop {m : Mode} (hmi : m ≠ .ime) {c e : Char} {t : Str} {n : KNode} {k : Nat}
    (hst : Stops (tree m) (c :: e :: t) n k) (hc : toAsciiLowercase c = 'x') (he : toAsciiLowercase e = 'n') :
    n.output.isSome = true := by
  obtain ⟨nx, hwx⟩ : ∃ nx, (tree m).walk ['x', 'n'] = some nx := by
    have h : ([Mode.normal, .obsolete].all fun m => ((tree m).walk ['x', 'n']).isSome) = true := by decide +kernel
    exact Option.isSome_iff_exists.1 (List.all_eq_true.1 h m (by cases m <;> simp_all))
  have hox := (n_branches hmi hwx).2.2.1 rfl
  have hleaf : nx.transitions = [] := by
    refine Classical.byContradiction fun hne => ?_
    obtain ⟨x, hx⟩ := List.exists_mem_of_ne_nil _ hne
    have := (n_branches hmi hwx).2.2.2.1 x hox hx
    simp at this
  have hst2 : Stops (tree m) (c :: e :: t) nx 2 :=
    ⟨by simp, by simpa [low, hc, he] using hwx, fun d _ => find_none_of_leaf hleaf _⟩
  have h1 := stops_unique _ hst
  rw [stops_unique _ hst2, Prod.mk.injEq] at h1
  rwa [h1.1] at hox

/-- the junction condition, as used in the induction -/
def NoOpen (a b : Str) : Prop :=
  ∀ p c d, a = p ++ [c] → toAsciiLowercase c = 'n' → b.head? = some d →
    toAsciiLowercase d ∈ ['a', 'i', 'u', 'e', 'o', 'y', '\''] → ∃ x, p.getLast? = some x ∧ toAsciiLowercase x = 'x'

theorem low_getLast {s : Str} {c : Char} (h : s.getLast? = some c) : (low s).getLast? = some (toAsciiLowercase c) := by
  rw [low, List.getLast?_map, h]; rfl

/-- the children of the `n` node -/
theorem n_child {m : Mode} (hmi : m ≠ .ime) {n n' : KNode} (hw : (tree m).walk ['n'] = some n) {c : Char}
    (hf : n.find_transition_node c = some n') : c ∈ ['a', 'i', 'u', 'e', 'o', 'y', '\''] := by
  have h : ([Mode.normal, .obsolete].all fun m => match (tree m).walk ['n'] with
    | none => true
    | some n => n.transitions.all fun x => ['a', 'i', 'u', 'e', 'o', 'y', '\''].contains x.1) = true := by decide +kernel
  have := List.all_eq_true.1 h m (by cases m <;> simp_all)
  rw [hw] at this
  have hm : (c, n') ∈ n.transitions := by
    unfold find_transition_node at hf
    obtain ⟨x, hx, e⟩ := Option.map_eq_some_iff.1 hf
    have h1 := List.mem_of_find?_eq_some hx
    have h2 : x.1 = c := by simpa using List.find?_some hx
    rw [← h2, ← e]; exact h1
  simpa using List.all_eq_true.1 this _ hm

/-- what converting the first part beforehand does: all but an unfinished rest is final, apart from `n` before っ -/
theorem kana_pre {m : Mode} (hmi : m ≠ .ime) (a b : Str) (hJ : NoOpen a b) :
    ∃ X z, kana m a = X ++ z ∧ kana m (a ++ b) = X ++ kana m (z ++ b) ∧
      kana m (kana m a ++ b) = Spec.settleN X ++ kana m (z ++ b) ∧
      Spec.settleN (kana m a) = Spec.settleN X ++ z ∧ ∀ x ∈ z, x ≠ 'っ' ∧ x ≠ 'ッ' := by
  induction a using list_strong with
  | _ a ih =>
    cases a with
    | nil => exact ⟨[], [], by simp [kana_nil], by simp, by simp [kana_nil, Spec.settleN], by simp [kana_nil, Spec.settleN], by simp⟩
    | cons c s =>
      obtain ⟨n, k, hst⟩ := exists_stops (tree m) (c :: s)
      cases ho : n.output with
      | some out =>
        have hk := stops_pos hst ho
        have hle := hst.le
        have hos : n.output.isSome = true := by rw [ho]; rfl
        have hst2 : Stops (tree m) (c :: s ++ b) n k := by
          refine hst.append fun hkl d hd => ?_
          cases hf : n.find_transition_node (toAsciiLowercase d) with
          | none => rfl
          | some n' =>
            exfalso
            have hw := hst.walk
            rw [hkl, List.take_length] at hw
            have hmem : n.transitions ≠ [] := by
              intro e
              rw [find_none_of_leaf e] at hf; cases hf
            obtain ⟨x, hx⟩ := List.exists_mem_of_ne_nil _ hmem
            have hp := (n_branches hmi hw).2.2.2.1 x hos hx
            cases s with
            | cons e s => simp [low] at hp
            | nil =>
              have hc : toAsciiLowercase c = 'n' := by simpa [low] using hp
              rw [hp] at hw
              obtain ⟨x, hx, _⟩ := hJ [] c d rfl hc hd (n_child hmi hw hf)
              cases hx
        have hJ2 : NoOpen ((c :: s).drop k) b := by
          intro p e d hp he hd hm
          obtain ⟨x, hx, hx2⟩ := hJ ((c :: s).take k ++ p) e d
            (by rw [List.append_assoc, ← hp, List.take_append_drop]) he hd hm
          cases p with
          | nil =>
            exfalso
            rw [List.append_nil] at hx
            have := low_getLast hx
            rw [hx2] at this
            exact (n_branches hmi hst.walk).2.1 hos this
          | cons y p =>
            refine ⟨x, ?_, hx2⟩
            rwa [getLast?_append_ne _ (by simp)] at hx
        obtain ⟨X, z, h1, h2, h3, h4, h5⟩ := ih _ (by simp [List.length_drop]; omega) hJ2
        have hge := styled_ge hst.walk ho ((c :: s).take k)
        refine ⟨styled ((c :: s).take k) out ++ X, z, ?_, ?_, ?_, ?_, h5⟩
        · rw [kana_hit hst ho, h1, List.append_assoc]
        · rw [kana_hit hst2 ho, List.take_append_of_le_length hle, List.drop_append_of_le_length hle, h2, List.append_assoc]
        · rw [kana_hit hst ho, List.append_assoc, kana_of_ge hge, h3, settleN_append_ge hge, List.append_assoc]
        · rw [kana_hit hst ho, settleN_append_ge hge, settleN_append_ge hge, h4, List.append_assoc]
      | none =>
        by_cases hk : k = (c :: s).length
        · have hw := hst.walk
          rw [hk, List.take_length] at hw
          have hu := plain_unfinished hmi hw ho
          have hz : ∀ x ∈ c :: s, x ≠ 'っ' ∧ x ≠ 'ッ' := by
            intro x hx
            have := walk_keyChar hw (toAsciiLowercase x) (List.mem_map_of_mem hx)
            constructor
            · rintro rfl; revert this; decide
            · rintro rfl; revert this; decide
          refine ⟨[], c :: s, by rw [hu]; rfl, rfl, by rw [hu]; rfl, ?_, hz⟩
          rw [hu]
          refine (settleN_eq_iff.2 fun n _ t ht hi => ?_)
          have hm : t ∈ c :: s := hi.subset (by simp)
          have := hz t hm
          simp at ht
          rcases ht with rfl | rfl
          · exact this.1 rfl
          · exact this.2 rfl
        · have hst2 : Stops (tree m) (c :: s ++ b) n k := hst.append fun h => absurd h hk
          have hJ2 : NoOpen s b := by
            intro p e d hp he hd hm
            obtain ⟨x, hx, hx2⟩ := hJ (c :: p) e d (by rw [hp]; rfl) he hd hm
            cases p with
            | nil =>
              exfalso
              simp at hx; subst hx
              rw [hp] at hst
              have := xn_stop hmi hst hx2 he
              rw [ho] at this; cases this
            | cons y p =>
              refine ⟨x, ?_, hx2⟩
              rwa [List.getLast?_cons_cons] at hx
          obtain ⟨X, z, h1, h2, h3, h4, h5⟩ := ih s (by simp) hJ2
          have e1 : kana m (c :: s ++ b) = c :: X ++ kana m (z ++ b) := by
            rw [List.cons_append, kana_miss (s := s ++ b) hst2 ho, h2]; rfl
          by_cases hR : Reopened m c s
          · obtain ⟨d, r, hkd, hd⟩ := reopened_tsu hmi hR
            obtain ⟨X', rfl⟩ : ∃ X', X = d :: X' := by
              rw [hkd] at h1
              cases X with
              | nil =>
                exfalso
                have := h5 d (by rw [List.nil_append] at h1; rw [← h1]; simp)
                rcases hd with h | h
                · exact this.1 h
                · exact this.2 h
              | cons x X' => simp at h1; exact ⟨X', by rw [h1.1]⟩
            have e2 : Spec.settleN (c :: d :: X') = Spec.nKana c :: Spec.settleN (d :: X') := by
              show (if _ then _ else _) :: _ = _
              rw [if_pos hd]
            refine ⟨c :: d :: X', z, ?_, e1, ?_, ?_, h5⟩
            · rw [kana_miss hst ho, h1]; rfl
            · rw [kana_miss hst ho, e2]
              rw [hkd] at h3 ⊢
              rw [List.cons_append, List.cons_append,
                kana_n_full hmi hR.1 (by rcases hd with rfl | rfl <;> decide)]
              rw [List.cons_append] at h3
              rw [h3]; rfl
            · rw [kana_miss hst ho, e2]
              rw [hkd] at h4 ⊢
              show (if _ then _ else _) :: _ = _
              rw [if_pos hd, h4]; rfl
          · have hnk : ∀ d, (kana m s).head? = some d → d = 'っ' ∨ d = 'ッ' → Spec.nKana c = c := by
              intro d hd hts
              by_cases hc : toAsciiLowercase c = 'n'
              · exfalso
                apply hR
                obtain ⟨rfl, y, s', rfl, hy⟩ := miss_n hmi hst ho hc
                refine ⟨hc, y, s', n, rfl, hy, hst, d, (kana m (y :: s')).tail, ?_, ?_⟩
                · cases hk : kana m (y :: s') with
                  | nil => rw [hk] at hd; cases hd
                  | cons x r => rw [hk] at hd; simp at hd; subst hd; rfl
                · rcases hts with rfl | rfl <;> decide
              · have h1 : c ≠ 'n' := fun e => hc (by rw [e]; decide)
                have h2 : c ≠ 'N' := fun e => hc (by rw [e]; decide)
                rw [Spec.nKana, if_neg h1, if_neg h2]
            have e2 : Spec.settleN (c :: X) = c :: Spec.settleN X := settleN_cons_of fun d hd hts => by
              refine hnk d ?_ hts
              rw [h1]
              cases X with
              | nil => cases hd
              | cons x X => exact hd
            refine ⟨c :: X, z, ?_, e1, ?_, ?_, h5⟩
            · rw [kana_miss hst ho, h1]; rfl
            · rw [kana_miss hst ho, List.cons_append, miss_again' hst ho (fun h => absurd h hk) (Or.inr hR), h3, e2]; rfl
            · rw [kana_miss hst ho, settleN_cons_of hnk, h4, e2]; rfl

/-- what comes before an open `n` is converted separately -/
theorem cut_open {m : Mode} (hmi : m ≠ .ime) {p : Str} {c : Char} (hc : toAsciiLowercase c = 'n')
    (hp : ∀ x, p.getLast? = some x → toAsciiLowercase x ≠ 'x') (t : Str) : Cut m p (c :: t) := by
  intro a1 a2 n e hne hw x hx
  simp at hx; subst hx
  cases hf : n.find_transition_node (toAsciiLowercase c) with
  | none => rfl
  | some n' =>
    exfalso
    have hw2 : (tree m).walk (low a2 ++ [toAsciiLowercase c]) = some n' := by
      rw [walk_append, hw]
      show n.walk [toAsciiLowercase c] = some n'
      rw [walk_singleton, hf]
    rw [hc] at hw2
    rcases (n_branches hmi hw2).1 (by simp) with h | h
    · have := congrArg List.length h
      simp [low] at this
      exact hne this
    · have h' : low a2 = ['x'] := (List.append_inj' (s₂ := ['x']) (t₂ := ['n']) h rfl).1
      cases a2 with
      | nil => cases h'
      | cons y a2 =>
        simp only [low, List.map_cons, List.cons.injEq, List.map_eq_nil_iff] at h'
        obtain ⟨h', rfl⟩ := h'
        exact hp y (by rw [e]; simp) h'

theorem kana_openN {m : Mode} (hmi : m ≠ .ime) {c : Char} (hc : toAsciiLowercase c = 'n') : kana m [c] = [Spec.nKana c] := by
  obtain ⟨n1, hw1, ho1⟩ := walk_n hmi
  have hst : Stops (tree m) [c] n1 1 := ⟨by simp, by simpa [low, hc] using hw1, by simp⟩
  rw [kana_hit hst ho1]
  rcases lower_n hc with rfl | rfl
  · simp [kana_nil]; decide +kernel
  · simp [kana_nil]; decide +kernel

theorem nKana_ge {c : Char} (hc : toAsciiLowercase c = 'n') : 0x2100 ≤ (Spec.nKana c).toNat := by
  rcases lower_n hc with rfl | rfl <;> decide

theorem quote_not_head {m : Mode} (s : Str) : kana m ('\'' :: s) = '\'' :: kana m s :=
  kana_cons_not_head (by decide) s

/-- an `n` and what continues it do not become ん and something else, except for `n'` -/
theorem kana_n_cont {m : Mode} (hmi : m ≠ .ime) {b r : Str} {c d : Char} (hc : toAsciiLowercase c = 'n')
    (hm : toAsciiLowercase d ∈ ['a', 'i', 'u', 'e', 'o', 'y', '\''])
    (h : Spec.nKana c :: r = kana m (c :: d :: b)) : d = '\'' ∧ r = kana m b := by
  obtain ⟨n1, hw1, ho1⟩ := walk_n hmi
  obtain ⟨n, k, hst⟩ := exists_stops (tree m) (c :: d :: b)
  have hch : (n1.find_transition_node (toAsciiLowercase d)).isSome = true := by
    have h : ([Mode.normal, .obsolete].all fun m => match (tree m).walk ['n'] with
      | none => true
      | some n => ['a', 'i', 'u', 'e', 'o', 'y', '\''].all fun c => (n.find_transition_node c).isSome) = true := by
      decide +kernel
    have := List.all_eq_true.1 h m (by cases m <;> simp_all)
    rw [hw1] at this
    exact List.all_eq_true.1 this _ hm
  have hk2 : 2 ≤ k := by
    rcases Nat.lt_or_ge k 2 with hk | hk
    · exfalso
      have hk2 : k = 0 ∨ k = 1 := by omega
      rcases hk2 with rfl | rfl
      · have hw := hst.walk
        have := hst.stop c rfl
        simp only [List.take_zero, low, List.map_nil, KNode.walk, Option.some.injEq] at hw
        subst hw
        rw [hc] at this
        simp only [KNode.walk, this] at hw1
        cases hw1
      · have hw := hst.walk
        have hw' : (tree m).walk ['n'] = some n := by simpa [low, hc] using hw
        rw [hw1] at hw'
        cases hw'
        rw [hst.stop d rfl] at hch
        cases hch
    · exact hk
  cases ho : n.output with
  | none =>
    exfalso
    rw [kana_miss hst ho] at h
    simp only [List.cons.injEq] at h
    have := nKana_ne c
    rw [h.1] at this
    rcases lower_n hc with rfl | rfl
    · exact this.1 rfl
    · exact this.2 rfl
  | some out =>
    have hle := hst.le
    obtain ⟨j, rfl⟩ : ∃ j, k = j + 2 := ⟨k - 2, by omega⟩
    have hw := hst.walk
    rcases (n_branches hmi hw).2.2.2.2 (by simp [low, hc]) (by simp [low]) out ho with ⟨hp', rfl⟩ | hf
    · -- n'
      have hj : j = 0 := by
        have := congrArg List.length hp'
        rw [low, List.length_map, List.length_take_of_le hle] at this
        simp at this
        exact this
      subst hj
      have hd' : d = '\'' := by
        have : toAsciiLowercase d = '\'' := by simpa [low, hc] using hp'
        exact low_eq_nonletter (by decide) this
      refine ⟨hd', ?_⟩
      rw [kana_hit hst ho] at h
      have h2 := congrArg List.tail h
      rw [List.tail_cons] at h2
      rw [h2]
      unfold styled
      split <;> simp
    · exfalso
      rw [kana_hit hst ho] at h
      have hne := (walk_output hw ho).1
      cases out with
      | nil => exact hne rfl
      | cons x out =>
        have hx := hf x rfl
        have hnk : Spec.nKana c = 'ん' ∨ Spec.nKana c = 'ン' := by
          rcases lower_n hc with rfl | rfl
          · exact Or.inl (by decide)
          · exact Or.inr (by decide)
        unfold styled at h
        split at h
        · simp only [List.map_cons, List.cons_append, List.cons.injEq] at h
          rw [h.1] at hnk
          rcases hnk with h | h
          · exact hx.2.2.1 h
          · exact hx.2.2.2 h
        · simp only [List.cons_append, List.cons.injEq] at h
          rw [h.1] at hnk
          rcases hnk with h | h
          · exact hx.1 h
          · exact hx.2.1 h

/-- an open `n` cannot be converted before what continues it -/
theorem kana_open {m : Mode} (hmi : m ≠ .ime) {p b : Str} {c d : Char} (hc : toAsciiLowercase c = 'n')
    (hp : ∀ x, p.getLast? = some x → toAsciiLowercase x ≠ 'x') (hd : b.head? = some d)
    (hm : toAsciiLowercase d ∈ ['a', 'i', 'u', 'e', 'o', 'y', '\'']) :
    kana m (kana m (p ++ [c]) ++ b) ≠ kana m (p ++ [c] ++ b) := by
  rw [kana_append p [c] (cut_open hmi hc hp []), kana_openN hmi hc, List.append_assoc, List.singleton_append,
    kana_append_inert _ (inert_of_ge (nKana_ge hc)), List.append_assoc, List.singleton_append,
    kana_append p (c :: b) (cut_open hmi hc hp b)]
  intro h
  have hl : (kana m (kana m p)).length = (kana m p).length := by rw [kana_kana hmi, settleN_length]
  obtain ⟨_, h⟩ := List.append_inj h hl
  cases b with
  | nil => cases hd
  | cons d' b =>
    simp at hd; subst hd
    obtain ⟨rfl, h⟩ := kana_n_cont hmi hc hm h
    rw [quote_not_head] at h
    have := congrArg List.length h
    simp at this

theorem lower_x {c : Char} : toAsciiLowercase c = 'x' ↔ c = 'x' ∨ c = 'X' := by
  rw [char_eq_iff, toAsciiLowercase_toNat]
  simp only [char_eq_iff, Char.reduceToNat]
  split <;> omega

/-- **C87** Outside IME mode, converting what was typed so far and going on typing gives the same text as converting
everything at once exactly if no `n` of the first result stands before っ and an `n` at the end of the first part is
not continued by the second. -/
theorem C87_exact {std : Std} (hstd : std.Lawful) (a b ra : Str) (o : Options)
    (ho : o.use_obsolete_kana = true ∨ o.imemode = false) (h : to_kana_with_opt std a o = .ok ra) :
    to_kana_with_opt std (ra ++ b) o = to_kana_with_opt std (a ++ b) o ↔
      (∀ n ∈ ['n', 'N'], ∀ t ∈ ['っ', 'ッ'], ¬ [n, t] <:+: ra) ∧
      ¬ (Spec.OpenN a ∧ ∃ d, b.head? = some d ∧ Spec.ContinuesN d) := by
  have hmi : modeOf o ≠ .ime := by
    intro e
    have := modeOf_ime.1 e
    rcases ho with h | h <;> simp_all
  rw [to_kana_eq hstd, Except.ok.injEq] at h
  subst h
  rw [to_kana_eq hstd, to_kana_eq hstd, Except.ok.injEq, ← settleN_eq_iff]
  by_cases hO : Spec.OpenN a ∧ ∃ d, b.head? = some d ∧ Spec.ContinuesN d
  · obtain ⟨⟨p, c, rfl, hc, hp⟩, d, hd, hm⟩ := hO
    constructor
    · intro h
      exfalso
      refine kana_open hmi (low_n hc) (fun x hx e => ?_) hd ?_ h
      · rcases lower_x.1 e with rfl | rfl
        · exact (hp _ hx).1 rfl
        · exact (hp _ hx).2 rfl
      · unfold Spec.ContinuesN at hm
        rwa [asciiLower_eq] at hm
    · rintro ⟨_, hn⟩
      exact absurd ⟨⟨p, c, rfl, hc, hp⟩, d, hd, hm⟩ hn
  · have hJ : NoOpen a b := by
      intro p c d e hc hd hm
      refine Classical.byContradiction fun hn => hO ⟨⟨p, c, e, lower_n hc, fun x hx => ?_⟩, d, hd, ?_⟩
      · have : ¬ toAsciiLowercase x = 'x' := fun h => hn ⟨x, hx, h⟩
        rw [lower_x] at this
        exact not_or.1 this
      · unfold Spec.ContinuesN
        rwa [asciiLower_eq]
    obtain ⟨X, z, h1, h2, h3, h4, _⟩ := kana_pre hmi a b hJ
    rw [h2, h3, h4, h1]
    simp [hO]

/-! ## key by key -/

/-- typing `s` key by key, converting after each key -/
def keyed (m : Mode) (acc s : Str) : Str := s.foldl (fun buffer key => kana m (buffer ++ [key])) acc

theorem keyed_eq {std : Std} (hstd : std.Lawful) (o : Options) (s : Str) : ∀ acc : Str,
    s.foldlM (fun buffer key => to_kana_with_opt std (buffer ++ [key]) o) acc =
      (.ok (keyed (modeOf o) acc s) : Res Str) := by
  induction s with
  | nil => intro acc; rfl
  | cons c s ih =>
    intro acc
    rw [List.foldlM_cons, to_kana_eq hstd, ok_bind, ih]
    rfl

/-- no open `n` is continued -/
def NoOpenAll (s : Str) : Prop :=
  ∀ p c d q, s = p ++ c :: d :: q → toAsciiLowercase c = 'n' →
    toAsciiLowercase d ∈ ['a', 'i', 'u', 'e', 'o', 'y', '\''] → ∃ x, p.getLast? = some x ∧ toAsciiLowercase x = 'x'

/-- then no `n` is left before っ -/
theorem NoOpenAll.stable {m : Mode} (hmi : m ≠ .ime) {s : Str} (h : NoOpenAll s) :
    Spec.settleN (kana m s) = kana m s := by
  induction s using list_strong with
  | _ s ih =>
    cases s with
    | nil => rw [kana_nil]; rfl
    | cons c s =>
      obtain ⟨n, k, hst⟩ := exists_stops (tree m) (c :: s)
      cases ho : n.output with
      | some out =>
        have hk := stops_pos hst ho
        have hs : NoOpenAll ((c :: s).drop k) := by
          intro p e d q hp he hd
          obtain ⟨x, hx, hx2⟩ := h ((c :: s).take k ++ p) e d q
            (by rw [List.append_assoc, ← hp, List.take_append_drop]) he hd
          cases p with
          | nil =>
            exfalso
            rw [List.append_nil] at hx
            have := low_getLast hx
            rw [hx2] at this
            exact (n_branches hmi hst.walk).2.1 (by rw [ho]; rfl) this
          | cons y p =>
            refine ⟨x, ?_, hx2⟩
            rwa [getLast?_append_ne _ (by simp)] at hx
        rw [kana_hit hst ho, settleN_append_ge (styled_ge hst.walk ho _), ih _ (by simp [List.length_drop]; omega) hs]
      | none =>
        have hs : NoOpenAll s := by
          intro p e d q hp he hd
          obtain ⟨x, hx, hx2⟩ := h (c :: p) e d q (by rw [hp]; rfl) he hd
          cases p with
          | nil =>
            exfalso
            simp at hx; subst hx
            rw [hp] at hst
            have := xn_stop hmi hst hx2 he
            rw [ho] at this; cases this
          | cons y p =>
            refine ⟨x, ?_, hx2⟩
            rwa [List.getLast?_cons_cons] at hx
        rw [kana_miss hst ho, settleN_cons_of, ih s (by simp) hs]
        intro d hd hts
        by_cases hc : toAsciiLowercase c = 'n'
        · exfalso
          obtain ⟨rfl, y, s', rfl, hy⟩ := miss_n hmi hst ho hc
          obtain ⟨x, hx, _⟩ := h [] c y s' rfl hc (by rw [hy]; simp)
          cases hx
        · have h1 : c ≠ 'n' := fun e => hc (by rw [e]; decide)
          have h2 : c ≠ 'N' := fun e => hc (by rw [e]; decide)
          rw [Spec.nKana, if_neg h1, if_neg h2]

/-- converting the first part beforehand is harmless -/
theorem kana_pre_stable {m : Mode} (hmi : m ≠ .ime) {a b : Str} (h1 : NoOpenAll a) (h2 : NoOpen a b) :
    kana m (kana m a ++ b) = kana m (a ++ b) := by
  obtain ⟨X, z, e1, e2, e3, e4, _⟩ := kana_pre hmi a b h2
  rw [h1.stable hmi, e1, List.append_left_inj] at e4
  rw [e2, e3, ← e4]

theorem keyed_settled {m : Mode} (hmi : m ≠ .ime) (b : Str) : ∀ a, NoOpenAll (a ++ b) →
    keyed m (kana m a) b = kana m (a ++ b) := by
  induction b with
  | nil => intro a _; rw [List.append_nil]; rfl
  | cons c b ih =>
    intro a h
    have h1 : NoOpenAll a := by
      intro p e d q hp
      exact h p e d (q ++ c :: b) (by rw [hp]; simp)
    have h2 : NoOpen a [c] := by
      intro p e d hp he hd hm
      simp at hd; subst hd
      exact h p e c b (by rw [hp]; simp) he hm
    show keyed m (kana m (kana m a ++ [c])) b = _
    rw [kana_pre_stable hmi h1 h2, ih (a ++ [c]) (by simpa using h)]
    simp

/-- a finished text that ends in a Japanese character is not touched any more -/
theorem keyed_after {m : Mode} {Y : Str} {c : Char} (hY : kana m (Y ++ [c]) = Y ++ [c]) (hc : 0x2100 ≤ c.toNat) (b : Str) :
    ∀ w, keyed m (Y ++ [c] ++ w) b = Y ++ [c] ++ keyed m w b := by
  induction b with
  | nil => intro w; rfl
  | cons d b ih =>
    intro w
    show keyed m (kana m (Y ++ [c] ++ w ++ [d])) b = _
    have : Cut m (Y ++ [c]) (w ++ [d]) := by
      intro a1 a2 n e hne hw
      exfalso
      have hm : c ∈ a2 := by
        have : a2.getLast? = some c := by
          have := congrArg List.getLast? e
          rw [getLast?_append_ne _ hne] at this
          simpa using this.symm
        exact List.mem_of_getLast? this
      have hk := walk_keyChar hw (toAsciiLowercase c) (List.mem_map_of_mem hm)
      have hl : (toAsciiLowercase c).toNat = c.toNat := by
        rw [toAsciiLowercase_toNat, if_neg (by omega)]
      rw [keyChar_iff, hl] at hk
      simp only [List.mem_cons, List.not_mem_nil, or_false] at hk
      omega
    rw [List.append_assoc (Y ++ [c]), kana_append _ _ this, hY, ih]
    rfl

theorem keyed_quote {m : Mode} (b : Str) : ∀ w, keyed m ('\'' :: w) b = '\'' :: keyed m w b := by
  induction b with
  | nil => intro w; rfl
  | cons d b ih =>
    intro w
    show keyed m (kana m ('\'' :: (w ++ [d]))) b = _
    rw [quote_not_head, ih]
    rfl

theorem keyed_quote_ne {m : Mode} (b : Str) : '\'' :: keyed m [] b ≠ kana m b := by
  induction b with
  | nil => rw [kana_nil]; simp
  | cons c b ih =>
    intro h
    have hc : c = '\'' := by
      obtain ⟨n, k, hst⟩ := exists_stops (tree m) (c :: b)
      cases ho : n.output with
      | none =>
        rw [kana_miss hst ho] at h
        simp only [List.cons.injEq] at h
        exact h.1.symm
      | some out =>
        exfalso
        have hge := styled_ge hst.walk ho ((c :: b).take k)
        have hne := styled_ne_nil (x := (c :: b).take k) (walk_output hst.walk ho).1
        rw [kana_hit hst ho] at h
        cases hs : styled ((c :: b).take k) out with
        | nil => exact hne hs
        | cons d r =>
          rw [hs] at h hge
          simp only [List.cons_append, List.cons.injEq] at h
          have := hge d (by simp)
          rw [← h.1] at this
          revert this; decide
    subst hc
    rw [quote_not_head, List.cons.injEq] at h
    apply ih
    rw [← h.2]
    show _ = keyed m (kana m ['\'']) b
    rw [quote_not_head, kana_nil, keyed_quote]

/-- **C87** Outside IME mode, typing key by key and converting after each key gives the conversion of the whole text
exactly if no `n` (other than in `xn`) is followed by a vowel, `y` or an apostrophe. -/
theorem C87_typing {std : Std} (hstd : std.Lawful) (s : Str) (o : Options)
    (ho : o.use_obsolete_kana = true ∨ o.imemode = false) :
    s.foldlM (fun buffer key => to_kana_with_opt std (buffer ++ [key]) o) [] = to_kana_with_opt std s o ↔
      ∀ a d b, s = a ++ d :: b → Spec.ContinuesN d → ¬ Spec.OpenN a := by
  have hmi : modeOf o ≠ .ime := by
    intro e
    have := modeOf_ime.1 e
    rcases ho with h | h <;> simp_all
  have hall : ∀ s : Str, (∀ a d b, s = a ++ d :: b → Spec.ContinuesN d → ¬ Spec.OpenN a) → NoOpenAll s := by
    intro s h p c d q e hc hm
    refine Classical.byContradiction fun hn => h (p ++ [c]) d q (by rw [e]; simp) ?_
      ⟨p, c, rfl, lower_n hc, fun x hx => ?_⟩
    · unfold Spec.ContinuesN
      rwa [asciiLower_eq]
    · have : ¬ toAsciiLowercase x = 'x' := fun h => hn ⟨x, hx, h⟩
      rw [lower_x] at this
      exact not_or.1 this
  rw [keyed_eq hstd, to_kana_eq hstd, Except.ok.injEq]
  generalize modeOf o = m at hmi
  constructor
  · intro h
    -- the shortest open text that is continued
    have hmin : ∀ k a d b, a.length = k → s = a ++ d :: b → Spec.ContinuesN d → ¬ Spec.OpenN a := by
      intro k
      induction k using Nat.strongRecOn with
      | _ k ih =>
        rintro a d b rfl rfl hd ⟨p, c, rfl, hc, hp⟩
        have hc' := low_n hc
        have hp' : ∀ x, p.getLast? = some x → toAsciiLowercase x ≠ 'x' := by
          intro x hx e
          rcases lower_x.1 e with rfl | rfl
          · exact (hp _ hx).1 rfl
          · exact (hp _ hx).2 rfl
        have hs : NoOpenAll (p ++ [c]) := hall _ fun a' d' b' e hd' =>
          ih a'.length (by rw [e]; simp) a' d' (b' ++ d :: b) rfl (by rw [e]; simp) hd'
        have hk : kana m (p ++ [c]) = kana m p ++ [Spec.nKana c] := by
          rw [kana_append p [c] (cut_open hmi hc' hp' []), kana_openN hmi hc']
        have h1 : keyed m [] (p ++ [c] ++ d :: b) = kana m p ++ [Spec.nKana c] ++ keyed m [] (d :: b) := by
          have : keyed m [] (p ++ [c] ++ d :: b) = keyed m (keyed m [] (p ++ [c])) (d :: b) := by
            unfold keyed; rw [List.foldl_append]
          have h2 := keyed_settled hmi (p ++ [c]) [] hs
          rw [kana_nil, List.nil_append] at h2
          rw [this, h2, hk]
          have := keyed_after (m := m) (Y := kana m p) (c := Spec.nKana c)
            (by rw [← hk, kana_kana hmi, hs.stable hmi]) (nKana_ge hc') (d :: b) []
          rw [List.append_nil] at this
          exact this
        rw [h1, List.append_assoc, List.append_assoc, List.singleton_append, List.singleton_append,
          kana_append p _ (cut_open hmi hc' hp' _), List.append_right_inj] at h
        unfold Spec.ContinuesN at hd
        rw [asciiLower_eq] at hd
        obtain ⟨rfl, h⟩ := kana_n_cont hmi hc' hd h
        have h3 : keyed m [] ('\'' :: b) = '\'' :: keyed m [] b := by
          show keyed m (kana m ['\'']) b = _
          rw [quote_not_head, kana_nil, keyed_quote]
        rw [h3] at h
        exact keyed_quote_ne b h
    exact fun a d b => hmin _ a d b rfl
  · intro h
    have := keyed_settled hmi s [] (by rw [List.nil_append]; exact hall s h)
    rwa [kana_nil, List.nil_append] at this

/-- typed key by key: `kanji` and `xna` come out right, `na` and `nya` do not -/
example : "kanji".toList.foldlM (fun buffer key => to_kana_with_opt modernStd (buffer ++ [key]) {}) [] =
    .ok "かんじ".toList := by decide +kernel
example : "nya".toList.foldlM (fun buffer key => to_kana_with_opt modernStd (buffer ++ [key]) {}) [] =
    .ok "んや".toList ∧ to_kana modernStd "nya".toList = .ok "にゃ".toList := by decide +kernel
example : Spec.OpenN "kan".toList ∧ ¬ Spec.OpenN "xn".toList ∧ Spec.ContinuesN 'Y' ∧ ¬ Spec.ContinuesN 'j' := by
  refine ⟨⟨"ka".toList, 'n', rfl, Or.inl rfl, by simp⟩, ?_, by decide +kernel, by decide +kernel⟩
  rintro ⟨p, n, e, hn, h⟩
  have : p = ['x'] := by
    have := congrArg List.dropLast e
    simpa using this.symm
  exact (h 'x' (by rw [this]; rfl)).1 rfl
/-- the hypotheses of `C87_exact` in a case where conversion in two parts is harmless although the first part ends in n,
and one where it is not -/
example : to_kana modernStd "shin".toList = .ok "しん".toList ∧ to_kana modernStd "しんka".toList =
    to_kana modernStd "shinka".toList ∧ to_kana modernStd "しんa".toList ≠ to_kana modernStd "shina".toList := by
  decide +kernel

/-! ## C88 `to_hiragana` and `to_katakana` while typing in IME mode -/

/-- texts of romaji only go through `to_kana` -/
theorem hiraP_romaji {std : Std} (hstd : std.Lawful) {s : Str} {o : Options} (hp : o.pass_romaji = false)
    (h : ∀ c ∈ s, Spec.Romaji c) : hiraP std s o = kana (modeOf o) (std.toLowercase s) := by
  by_cases h0 : s = []
  · subst h0
    unfold hiraP
    rw [if_neg (by rw [hp]; decide), if_neg (by decide), if_neg (by decide)]
    exact (kana_nil _).symm
  · have := (C59_romaji std s o hp h0 h).1
    rw [to_hiragana_eq hstd, to_kana_eq hstd] at this
    exact Except.ok.inj this

theorem kataP_romaji {std : Std} (hstd : std.Lawful) {s : Str} {o : Options} (hp : o.pass_romaji = false)
    (h : ∀ c ∈ s, Spec.Romaji c) : kataP std s o = (kana (modeOf o) (std.toLowercase s)).map h2kP := by
  by_cases h0 : s = []
  · subst h0
    unfold kataP
    rw [if_neg (by rw [hp]; decide), if_neg (by decide)]
    show [] = (kana _ []).map _
    rw [kana_nil]; rfl
  · have := (C59_romaji std s o hp h0 h).2
    rw [to_katakana_eq hstd, to_kana_eq hstd, ok_bind, hiragana_to_katakana_eq] at this
    exact Except.ok.inj this

theorem romaji_noSigma {s : Str} (h : ∀ c ∈ s, Spec.Romaji c) : 'Σ' ∉ s := by
  intro hm
  have := h _ hm
  revert this; decide

theorem lower_append {std : Std} {a b : Str} (ha : 'Σ' ∉ a) (hb : 'Σ' ∉ b) :
    std.toLowercase (a ++ b) = std.toLowercase a ++ std.toLowercase b := by
  unfold Std.toLowercase
  rw [lower_noSigma std _ (by simp [ha, hb]), lower_noSigma std a ha, lower_noSigma std b hb, List.flatMap_append]

theorem lower_h2kP {std : Std} (hstd : std.Lawful) {b : Str} (hb : ∀ c ∈ b, Spec.Romaji c) :
    (std.toLowercase b).map h2kP = std.toLowercase b := by
  refine (List.map_congr_left (g := id) fun d hd => ?_).trans (List.map_id _)
  by_cases h : 0x3041 ≤ d.toNat ∧ d.toNat ≤ 0x3096
  · have hk : Spec.Kana d := by rw [specKana_iff]; omega
    have hr := hb d (lower_uncased hstd hd (kana_uncased hk))
    rw [specRomaji_iff] at hr
    simp only [List.mem_cons, List.not_mem_nil, or_false] at hr
    omega
  · exact if_neg h

/-- what the buffer holds after `a`, and what `to_hiragana` makes of it followed by `b` -/
theorem hiraP_typing {std : Std} (hstd : std.Lawful) {a b : Str} {o : Options} (hp : o.pass_romaji = false)
    (hm : modeOf o = .ime) (ha : ∀ c ∈ a, Spec.Romaji c) (hb : ∀ c ∈ b, Spec.Romaji c) :
    ((is_mixed (hiraP std a o ++ b) = true ∨ is_romaji (hiraP std a o ++ b) = true ∨
        ((hiraP std a o ++ b).head?.map is_char_english_punctuation).getD false = true) ∧
      hiraP std (hiraP std a o ++ b) o = hiraP std (a ++ b) o) ∨
      (is_mixed (hiraP std a o ++ b) = false ∧ is_romaji (hiraP std a o ++ b) = false ∧
        ((hiraP std a o ++ b).head?.map is_char_english_punctuation).getD false = false ∧
        hiraP std (hiraP std a o ++ b) o = hiraP std a o ++ b) := by
  have hab : ∀ c ∈ a ++ b, Spec.Romaji c := fun c hc => (List.mem_append.1 hc).elim (ha c) (hb c)
  have ea := hiraP_romaji hstd hp ha
  have eab := hiraP_romaji hstd hp hab
  rw [hm] at ea eab
  have hset : ∀ c ∈ hiraP std a o, Settled std c := by
    rw [ea]
    exact kana_settled hstd _ _ fun c hc => lower_settled hstd hc
  have hfew : FewKatakana (hiraP std a o ++ b) := by
    have hno : ∀ c, Spec.Romaji c → ¬ Spec.Katakana c := by
      intro c h1 h2
      rw [specRomaji_iff] at h1
      rw [specKatakana_iff] at h2
      simp only [List.mem_cons, List.not_mem_nil, or_false] at h1
      omega
    intro c hc hk
    rcases List.mem_append.1 hc with hc | hc
    · rw [ea] at hc
      exact few_lower hstd .ime (fun d hd hdk => absurd hdk (hno d (ha d hd))) c hc hk
    · exact absurd hk (hno c (hb c hc))
  have hid : k2hP std false none (hiraP std a o ++ b) = hiraP std a o ++ b := by
    have := C23_unchanged hstd _ false hfew
    rw [k2h_eq hstd] at this
    exact Except.ok.inj this
  have hK : kana .ime (std.toLowercase (hiraP std a o ++ b)) = hiraP std (a ++ b) o := by
    rw [lower_append (fun h => (hset _ h).2 rfl) (romaji_noSigma hb), toLowercase_id hset, eab,
      lower_append (romaji_noSigma ha) (romaji_noSigma hb), ea, ime_incremental]
  generalize hR : hiraP std a o = R at *
  cases h1 : is_mixed (R ++ b) with
  | true => left; refine ⟨Or.inl rfl, ?_⟩; rw [hiraP, hp, if_neg (by decide), if_pos h1, hid, hm, hK]
  | false =>
    by_cases h2 : (is_romaji (R ++ b) || ((R ++ b).head?.map is_char_english_punctuation).getD false) = true
    · left; refine ⟨Or.inr (by simpa using h2), ?_⟩; rw [hiraP, hp, if_neg (by decide), if_neg (by rw [h1]; decide), if_pos h2, hm, hK]
    · right
      have h3 := h2
      rw [Bool.not_eq_true, Bool.or_eq_false_iff] at h3
      refine ⟨rfl, h3.1, h3.2, ?_⟩
      rw [hiraP, hp, if_neg (by decide), if_neg (by rw [h1]; decide), if_neg h2, hid]

/-- **C88** Converting the buffer with `to_hiragana` after every keystroke in IME mode. The next step gives what
the whole text would give exactly in these cases: nothing is added, the buffer holds a kana, the buffer is still
romaji, the buffer starts with English punctuation, or the added text stays as it is anyway. Otherwise (a buffer
such as ！, without kana) the added romaji is never converted. -/
theorem C88_hiragana {std : Std} (hstd : std.Lawful) (a b ra : Str) (o : Options)
    (hp : o.pass_romaji = false) (h1 : o.imemode = true) (h2 : o.use_obsolete_kana = false)
    (ha : ∀ c ∈ a, Spec.Romaji c) (hb : ∀ c ∈ b, Spec.Romaji c)
    (hra : to_hiragana_with_opt std a o = .ok ra) :
    to_hiragana_with_opt std (ra ++ b) o = to_hiragana_with_opt std (a ++ b) o ↔
      b = [] ∨ (∃ c ∈ ra, Spec.Kana c) ∨ (∀ c ∈ ra, Spec.Romaji c) ∨
        (∃ c, ra.head? = some c ∧ Spec.EnglishPunct c) ∨
        to_hiragana_with_opt std (a ++ b) o = .ok (ra ++ b) := by
  rw [to_hiragana_eq hstd] at hra
  cases hra
  have key := hiraP_typing hstd hp (modeOf_ime.2 ⟨h1, h2⟩) ha hb
  rw [to_hiragana_eq hstd, to_hiragana_eq hstd, Except.ok.injEq, Except.ok.injEq]
  have hR : b = [] → hiraP std a o = hiraP std (a ++ b) o := by rintro rfl; rw [List.append_nil]
  generalize hiraP std a o = R at *
  constructor
  · intro e
    cases h1 : is_mixed (R ++ b) with
    | true =>
      obtain ⟨⟨c, hc, hk⟩, _⟩ := (C04_is_mixed _).1 h1
      rcases List.mem_append.1 hc with hc | hc
      · exact Or.inr (Or.inl ⟨c, hc, hk⟩)
      · have hr := hb c hc
        rw [specRomaji_iff] at hr
        rw [specKana_iff] at hk
        simp only [List.mem_cons, List.not_mem_nil, or_false] at hr
        omega
    | false =>
      cases h2 : is_romaji (R ++ b) with
      | true =>
        exact Or.inr (Or.inr (Or.inl fun c hc => ((C01_is_romaji _).1 h2).2 c (List.mem_append_left _ hc)))
      | false =>
        cases h3 : ((R ++ b).head?.map is_char_english_punctuation).getD false with
        | true =>
          cases R with
          | nil => exact Or.inr (Or.inr (Or.inl (by simp)))
          | cons c R =>
            refine Or.inr (Or.inr (Or.inr (Or.inl ⟨c, rfl, ?_⟩)))
            simpa [is_char_english_punctuation_iff] using h3
        | false =>
          refine Or.inr (Or.inr (Or.inr (Or.inr ?_)))
          rcases key with k | k
          · rw [h1, h2, h3] at k; simp at k
          · rw [← e, k.2.2.2]
  · intro h
    rcases key with k | ⟨k1, k2, k3, k4⟩
    · exact k.2
    · rw [k4]
      rcases h with rfl | h | h | h | h
      · rw [List.append_nil]; rw [List.append_nil] at hR; exact (hR rfl).trans (by rw [List.append_nil])
      · cases b with
        | nil => rw [List.append_nil]; exact hR rfl
        | cons d b =>
          rw [Bool.eq_false_iff, Ne, C04_is_mixed] at k1
          obtain ⟨c, hc, hk⟩ := h
          exact absurd ⟨⟨c, List.mem_append_left _ hc, hk⟩,
            ⟨d, List.mem_append_right _ List.mem_cons_self, hb d List.mem_cons_self⟩⟩ k1
      · cases b with
        | nil => rw [List.append_nil]; exact hR rfl
        | cons d b =>
          rw [Bool.eq_false_iff, Ne, C01_is_romaji] at k2
          exact absurd ⟨by simp, fun c hc => (List.mem_append.1 hc).elim (h c) (hb c)⟩ k2
      · obtain ⟨c, hc, he⟩ := h
        cases R with
        | nil => cases hc
        | cons d R =>
          cases hc
          rw [List.cons_append, List.head?_cons, Option.map_some, Option.getD_some, Bool.eq_false_iff, Ne,
            is_char_english_punctuation_iff] at k3
          exact absurd he k3
      · exact h.symm

example : (∀ c ∈ "kon".toList, Spec.Romaji c) ∧ (∀ c ∈ "Ya".toList, Spec.Romaji c) ∧
    to_hiragana_with_opt modernStd "kon".toList { imemode := true } = .ok "こn".toList ∧
    to_hiragana_with_opt modernStd "こnYa".toList { imemode := true } =
      to_hiragana_with_opt modernStd "konYa".toList { imemode := true } := by decide +kernel

/-- the failing case: after ！ the rest of the line is not converted any more -/
theorem C88_hiragana_stuck : to_hiragana_with_opt modernStd "!".toList { imemode := true } = .ok "！".toList ∧
    to_hiragana_with_opt modernStd "！ka".toList { imemode := true } = .ok "！ka".toList ∧
    to_hiragana_with_opt modernStd "!ka".toList { imemode := true } = .ok "！か".toList := by decide +kernel

/-- the same for `to_katakana` -/
theorem kataP_typing {std : Std} (hstd : std.Lawful) {a b : Str} {o : Options} (hp : o.pass_romaji = false)
    (hm : modeOf o = .ime) (ha : ∀ c ∈ a, Spec.Romaji c) (hb : ∀ c ∈ b, Spec.Romaji c) :
    ((is_romaji (kataP std a o ++ b) = true ∨ is_mixed (kataP std a o ++ b) = true) ∧
      kataP std (kataP std a o ++ b) o = kataP std (a ++ b) o) ∨
      (is_romaji (kataP std a o ++ b) = false ∧ is_mixed (kataP std a o ++ b) = false ∧
        kataP std (kataP std a o ++ b) o = kataP std a o ++ b) := by
  have hab : ∀ c ∈ a ++ b, Spec.Romaji c := fun c hc => (List.mem_append.1 hc).elim (ha c) (hb c)
  have ea := kataP_romaji hstd hp ha
  have eab := kataP_romaji hstd hp hab
  rw [hm] at ea eab
  have hset : ∀ c ∈ kataP std a o, Settled std c := by
    rw [ea]
    intro c hc
    obtain ⟨d, hd, rfl⟩ := List.mem_map.1 hc
    exact h2kP_settled hstd (kana_settled hstd _ _ (fun c hc => lower_settled hstd hc) d hd)
  have hid : (kataP std a o ++ b).map h2kP = kataP std a o ++ b := by
    rw [List.map_append, ea, List.map_map]
    congr 1
    · exact List.map_congr_left fun c _ => h2kP_idem c
    · refine (List.map_congr_left (g := id) fun d hd => ?_).trans (List.map_id _)
      have hr := hb d hd
      rw [specRomaji_iff] at hr
      simp only [List.mem_cons, List.not_mem_nil, or_false] at hr
      exact if_neg (by omega)
  have hK : (kana .ime (std.toLowercase (kataP std a o ++ b))).map h2kP = kataP std (a ++ b) o := by
    rw [lower_append (fun h => (hset _ h).2 rfl) (romaji_noSigma hb), toLowercase_id hset, eab,
      lower_append (romaji_noSigma ha) (romaji_noSigma hb), ea, ← lower_h2kP hstd hb, ← List.map_append, kana_shift,
      ime_incremental, lower_h2kP hstd hb]
  generalize kataP std a o = R at *
  by_cases h : (is_romaji (R ++ b) || is_mixed (R ++ b)) = true
  · left
    refine ⟨by simpa using h, ?_⟩
    rw [kataP, hp, if_neg (by decide), if_pos h, hm, hK]
  · right
    have h3 := h
    rw [Bool.not_eq_true, Bool.or_eq_false_iff] at h3
    refine ⟨h3.1, h3.2, ?_⟩
    rw [kataP, hp, if_neg (by decide), if_neg h, hid]

/-- **C88** the same for `to_katakana`, where a buffer starting with English punctuation is no exception -/
theorem C88_katakana {std : Std} (hstd : std.Lawful) (a b ra : Str) (o : Options)
    (hp : o.pass_romaji = false) (h1 : o.imemode = true) (h2 : o.use_obsolete_kana = false)
    (ha : ∀ c ∈ a, Spec.Romaji c) (hb : ∀ c ∈ b, Spec.Romaji c)
    (hra : to_katakana_with_opt std a o = .ok ra) :
    to_katakana_with_opt std (ra ++ b) o = to_katakana_with_opt std (a ++ b) o ↔
      b = [] ∨ (∃ c ∈ ra, Spec.Kana c) ∨ (∀ c ∈ ra, Spec.Romaji c) ∨
        to_katakana_with_opt std (a ++ b) o = .ok (ra ++ b) := by
  rw [to_katakana_eq hstd] at hra
  cases hra
  have key := kataP_typing hstd hp (modeOf_ime.2 ⟨h1, h2⟩) ha hb
  rw [to_katakana_eq hstd, to_katakana_eq hstd, Except.ok.injEq, Except.ok.injEq]
  have hR : b = [] → kataP std a o = kataP std (a ++ b) o := by rintro rfl; rw [List.append_nil]
  generalize kataP std a o = R at *
  constructor
  · intro e
    cases h1 : is_mixed (R ++ b) with
    | true =>
      obtain ⟨⟨c, hc, hk⟩, _⟩ := (C04_is_mixed _).1 h1
      rcases List.mem_append.1 hc with hc | hc
      · exact Or.inr (Or.inl ⟨c, hc, hk⟩)
      · have hr := hb c hc
        rw [specRomaji_iff] at hr
        rw [specKana_iff] at hk
        simp only [List.mem_cons, List.not_mem_nil, or_false] at hr
        omega
    | false =>
      cases h2 : is_romaji (R ++ b) with
      | true =>
        exact Or.inr (Or.inr (Or.inl fun c hc => ((C01_is_romaji _).1 h2).2 c (List.mem_append_left _ hc)))
      | false =>
        rcases key with k | k
        · rw [h1, h2] at k; simp at k
        · exact Or.inr (Or.inr (Or.inr (by rw [← e, k.2.2])))
  · intro h
    rcases key with k | ⟨k1, k2, k3⟩
    · exact k.2
    · rw [k3]
      cases b with
      | nil => rw [List.append_nil]; exact hR rfl
      | cons d b =>
        rcases h with h | h | h | h
        · cases h
        · rw [Bool.eq_false_iff, Ne, C04_is_mixed] at k2
          obtain ⟨c, hc, hk⟩ := h
          exact absurd ⟨⟨c, List.mem_append_left _ hc, hk⟩,
            ⟨d, List.mem_append_right _ List.mem_cons_self, hb d List.mem_cons_self⟩⟩ k2
        · rw [Bool.eq_false_iff, Ne, C01_is_romaji] at k1
          exact absurd ⟨by simp, fun c hc => (List.mem_append.1 hc).elim (h c) (hb c)⟩ k1
        · exact h.symm

example : (∀ c ∈ "kon".toList, Spec.Romaji c) ∧ (∀ c ∈ "Ya".toList, Spec.Romaji c) ∧
    to_katakana_with_opt modernStd "kon".toList { imemode := true } = .ok "コn".toList ∧
    to_katakana_with_opt modernStd "コnYa".toList { imemode := true } = .ok "コニャ".toList ∧
    to_katakana_with_opt modernStd "！ka".toList { imemode := true } = .ok "！ka".toList ∧
    to_katakana_with_opt modernStd "!ka".toList { imemode := true } = .ok "！カ".toList := by decide +kernel

end WanaKana
