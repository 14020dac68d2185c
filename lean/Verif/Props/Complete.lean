import Verif.Props.ToKana5
import Verif.Props.Typing
/-! # C90: exactly when `to_kana` leaves nothing over -/

namespace WanaKana
open KNode

/-- facts about all paths: outputs are not ASCII; a path beginning outside ASCII is a single key; `ny` is no key and
does not go on with `y` -/
theorem complete_facts {m : Mode} {p : Str} {n : KNode} (hw : (tree m).walk p = some n) :
    (∀ out, n.output = some out → ∀ d ∈ out, 0x80 ≤ d.toNat) ∧
    (∀ c t, p = c :: t → 0x80 ≤ c.toNat → t = [] ∧ n.output.isSome = true ∧ n.transitions = []) ∧
    (p = ['n'] → (n.find_transition_node 'y').isSome = true) ∧
    (p = ['n', 'y'] → n.output = none ∧ n.find_transition_node 'y' = none) ∧
    (n.output.isSome = true → m ≠ .ime → p.getLast? ≠ some 'x') := by
  have h : ([Mode.normal, .obsolete, .ime].all fun m => (tree m).paths.all fun x =>
      (match x.2.output with | none => true | some out => out.all fun d => decide (0x80 ≤ d.toNat)) &&
      (match x.1 with | [] => true | c :: t => decide (c.toNat < 0x80) ||
        t.isEmpty && x.2.output.isSome && x.2.transitions.isEmpty) &&
      (!decide (x.1 = ['n']) || (x.2.find_transition_node 'y').isSome) &&
      (!decide (x.1 = ['n', 'y']) || x.2.output.isNone && (x.2.find_transition_node 'y').isNone) &&
      (x.2.output.isNone || decide (m = .ime) || !decide (x.1.getLast? = some 'x'))) = true := by decide +kernel
  have := walk_check (List.all_eq_true.1 h m (by cases m <;> simp)) hw
  simp only [Bool.and_eq_true] at this
  obtain ⟨⟨⟨⟨h1, h2⟩, h3⟩, h4⟩, h5⟩ := this
  refine ⟨?_, ?_, ?_, ?_, ?_⟩
  · intro out ho d hd
    rw [ho] at h1
    simpa using List.all_eq_true.1 h1 d hd
  · rintro c t rfl hc
    simp only [Bool.or_eq_true, decide_eq_true_iff, Bool.and_eq_true, List.isEmpty_iff] at h2
    have := h2.resolve_left (by omega)
    exact ⟨this.1.1, this.1.2, this.2⟩
  · rintro rfl
    simpa using h3
  · rintro rfl
    simp only [decide_true, Bool.not_true, Bool.false_or, Bool.and_eq_true, Option.isNone_iff_eq_none] at h4
    exact h4
  · intro ho hm
    simp only [Bool.or_eq_true, Bool.not_eq_true', decide_eq_false_iff_not, decide_eq_true_iff, hm, or_false] at h5
    refine h5.resolve_left ?_
    rw [Option.isSome_iff_ne_none] at ho
    simpa using ho

theorem styled_high {w out : Str} (h : ∀ d ∈ out, 0x80 ≤ d.toNat) : ∀ d ∈ styled w out, 0x80 ≤ d.toNat := by
  intro d hd
  unfold styled at hd
  split at hd
  · obtain ⟨e, he, rfl⟩ := List.mem_map.1 hd
    have := h e he
    rw [h2kP_toNat]
    split <;> omega
  · exact h d hd

/-- what a completely converted text is made of -/
theorem pieces_of_complete {m : Mode} (s : Str) (h : ∀ d ∈ kana m s, 0x80 ≤ d.toNat) :
    (∃ ws : List Str, s = ws.flatten ∧ ∀ w ∈ ws, Spec.IsKey (tableOf m) w ∨ ∃ c, w = [c] ∧ ¬ Spec.Ascii c) ∧
    (m ≠ .ime → ∀ a b, low s = a ++ 'n' :: 'y' :: 'y' :: b → a.getLast? = some 'x') := by
  induction s using list_strong with
  | _ s ih =>
    cases s with
    | nil =>
      refine ⟨⟨[], rfl, by simp⟩, fun _ a b e => ?_⟩
      have := congrArg List.length e
      simp at this
    | cons c s =>
      obtain ⟨n, k, hst⟩ := exists_stops (tree m) (c :: s)
      cases ho : n.output with
      | none =>
        rw [kana_miss hst ho] at h
        have hc := h c List.mem_cons_self
        obtain ⟨⟨ws, e, hws⟩, h2⟩ := ih s (by simp) fun d hd => h d (List.mem_cons_of_mem _ hd)
        refine ⟨⟨[c] :: ws, by rw [e]; rfl, ?_⟩, ?_⟩
        · intro w hw
          rcases List.mem_cons.1 hw with rfl | hw
          · exact Or.inr ⟨c, rfl, by unfold Spec.Ascii; omega⟩
          · exact hws w hw
        · intro hm a b e
          cases a with
          | nil =>
            exfalso
            have := (List.cons.inj e).1
            have := congrArg Char.toNat this
            rw [toAsciiLowercase_toNat] at this
            simp only [Char.reduceToNat] at this
            split at this <;> omega
          | cons x a =>
            have e' := (List.cons.inj e).2
            have := h2 hm a b e'
            cases a with
            | nil => cases this
            | cons y a => rw [List.getLast?_cons_cons]; exact this
      | some out =>
        have hk := stops_pos hst ho
        rw [kana_hit hst ho] at h
        obtain ⟨⟨ws, ew, hws⟩, h2⟩ := ih ((c :: s).drop k) (by simp; omega) fun d hd => h d (List.mem_append_right _ hd)
        have hwne : low ((c :: s).take k) ≠ [] := by
          obtain ⟨j, rfl⟩ : ∃ j, k = j + 1 := ⟨k - 1, by omega⟩
          simp [low]
        refine ⟨⟨(c :: s).take k :: ws, by rw [List.flatten_cons, ← ew, List.take_append_drop], ?_⟩, ?_⟩
        · intro w hw
          rcases List.mem_cons.1 hw with rfl | hw
          · left
            unfold Spec.IsKey
            rw [asciiLower_eq]
            show ((tableOf m).lookup (low _)).isSome
            rw [← (walk_table hst.walk hwne).1, ho]
            rfl
          · exact hws w hw
        · intro hm a b e
          by_cases hle : k ≤ a.length
          · have e' : low ((c :: s).drop k) = a.drop k ++ 'n' :: 'y' :: 'y' :: b := by
              rw [low, List.map_drop]
              show List.drop k (low (c :: s)) = _
              rw [e, List.drop_append_of_le_length hle]
            have := h2 hm _ _ e'
            cases hd : a.drop k with
            | nil => rw [hd] at this; cases this
            | cons y t =>
              rw [← List.take_append_drop k a, getLast?_append_ne _ (by rw [hd]; simp)]
              exact this
          · have hw := hst.walk
            have et : low ((c :: s).take k) = (low (c :: s)).take k := List.map_take
            rw [et, e, List.take_append] at hw
            obtain ⟨j, hj⟩ : ∃ j, k - a.length = j + 1 := ⟨k - a.length - 1, by omega⟩
            rw [List.take_of_length_le (by omega), hj, List.take_succ_cons] at hw
            have e2 : a ++ 'n' :: List.take j ('y' :: 'y' :: b) = (a ++ ['n']) ++ List.take j ('y' :: 'y' :: b) := by simp
            have hw' := hw
            rw [e2, walk_append] at hw'
            cases hn : (tree m).walk (a ++ ['n']) with
            | none => rw [hn] at hw'; cases hw'
            | some n1 =>
              rw [hn] at hw'
              have hw' : n1.walk (List.take j ('y' :: 'y' :: b)) = some n := hw'
              rcases (n_branches hm hn).1 (by simp) with ha | ha
              · exfalso
                have ha : a = [] := by simpa using congrArg List.length ha
                subst ha
                simp only [List.nil_append, List.length_nil, Nat.sub_zero] at hn hj e
                subst hj
                have hn2 := (complete_facts hn).2.2.1 rfl
                have es : low ((c :: s).drop (j + 1)) = ('y' :: 'y' :: b).drop j := by
                  rw [low, List.map_drop]
                  show List.drop (j + 1) (low (c :: s)) = _
                  rw [e]; rfl
                have hstop : ∀ d, (('y' :: 'y' :: b).drop j).head? = some d → n.find_transition_node d = none := by
                  intro d hd
                  rw [← es] at hd
                  cases hdr : (c :: s).drop (j + 1) with
                  | nil => rw [hdr] at hd; cases hd
                  | cons x t =>
                    rw [hdr] at hd
                    have := hst.stop x (by rw [hdr]; rfl)
                    have hd : toAsciiLowercase x = d := by simpa [low] using hd
                    rw [← hd]; exact this
                cases j with
                | zero =>
                  cases hw'
                  have := hstop 'y' rfl
                  rw [this] at hn2; cases hn2
                | succ j =>
                  rw [List.take_succ_cons, KNode.walk] at hw'
                  cases hf : n1.find_transition_node 'y' with
                  | none => rw [hf] at hn2; cases hn2
                  | some n2 =>
                    rw [hf] at hw'
                    have hny : (tree m).walk ['n', 'y'] = some n2 := by
                      have : ['n', 'y'] = ['n'] ++ ['y'] := rfl
                      rw [this, walk_append, hn]
                      show n1.walk ['y'] = _
                      rw [walk_singleton, hf]
                    have h4 := (complete_facts hny).2.2.2.1 rfl
                    cases j with
                    | zero =>
                      cases hw'
                      rw [ho] at h4; cases h4.1
                    | succ j =>
                      simp only [List.take_succ_cons, KNode.walk, h4.2] at hw'
                      cases hw'
              · have : a = ['x'] := (List.append_inj' (s₂ := ['x']) (t₂ := ['n']) ha rfl).1
                rw [this]; rfl

/-- and conversely -/
theorem complete_of_pieces {m : Mode} (ws : List Str)
    (hk : ∀ w ∈ ws, Spec.IsKey (tableOf m) w ∨ ∃ c, w = [c] ∧ ¬ Spec.Ascii c)
    (hn : m ≠ .ime → ∀ a b, low ws.flatten = a ++ 'n' :: 'y' :: 'y' :: b → a.getLast? = some 'x') :
    ∀ d ∈ kana m ws.flatten, 0x80 ≤ d.toNat := by
  induction ws using list_strong with
  | _ ws ih =>
    cases ws with
    | nil => intro d hd; rw [List.flatten_nil, kana_nil] at hd; cases hd
    | cons w ws =>
      -- the condition for what follows a piece
      have hsub : ∀ (l : List Str) (a0 : Str), a0 ++ l.flatten = (w :: ws).flatten → (m ≠ .ime → (low a0).getLast? ≠ some 'x') →
          (m ≠ .ime → ∀ a b, low l.flatten = a ++ 'n' :: 'y' :: 'y' :: b → a.getLast? = some 'x') := by
        intro l a0 e hx hm a b el
        have := hn hm (low a0 ++ a) b (by rw [← e, low, List.map_append, List.append_assoc, ← el])
        cases a with
        | nil => rw [List.append_nil] at this; exact absurd this (hx hm)
        | cons y a => rwa [getLast?_append_ne _ (by simp)] at this
      have hrest : ∀ w' ∈ ws, Spec.IsKey (tableOf m) w' ∨ ∃ c, w' = [c] ∧ ¬ Spec.Ascii c :=
        fun w' hw' => hk w' (List.mem_cons_of_mem _ hw')
      -- a piece read as a key
      have hit : ∀ (v : Str) (l : List Str) (n : KNode) (out : Str), v ++ l.flatten = (w :: ws).flatten → l.length ≤ ws.length →
          (∀ w' ∈ l, w' ∈ ws) → (tree m).walk (low v) = some n → n.output = some out →
          kana m (v ++ l.flatten) = styled v out ++ kana m l.flatten → ∀ d ∈ kana m (w :: ws).flatten, 0x80 ≤ d.toNat := by
        intro v l n out e hl hmem hw ho hkana d hd
        rw [← e, hkana] at hd
        rcases List.mem_append.1 hd with hd | hd
        · exact styled_high ((complete_facts hw).1 out ho) d hd
        · refine ih l (by simp only [List.length_cons]; omega) (fun w' hw' => hrest w' (hmem w' hw')) ?_ d hd
          exact hsub l v e fun hm => (complete_facts hw).2.2.2.2 (by rw [ho]; rfl) hm
      rcases hk w List.mem_cons_self with hkey | ⟨c, rfl, hc⟩
      · obtain ⟨n, out, hw, ho, ht, hne⟩ := isKey_walk hkey
        rcases walk_inner_output hw ho with hl | ⟨hwn, hm⟩
        · exact hit w ws n out rfl (Nat.le_refl _) (fun _ h => h) hw ho (kana_leaf hw ho hl _)
        · by_cases hnext : ∀ c, (ws.flatten).head? = some c → n.find_transition_node (toAsciiLowercase c) = none
          · refine hit w ws n out rfl (Nat.le_refl _) (fun _ h => h) hw ho ?_
            have hst : Stops (tree m) (w ++ ws.flatten) n w.length :=
              ⟨by simp, by rw [List.take_left]; exact hw, by rw [List.drop_left]; exact hnext⟩
            rw [kana_hit hst ho]
            simp
          · cases ws with
            | nil => exfalso; apply hnext; intro c hc; cases hc
            | cons w' ws =>
              have hw0 := hw
              rw [hwn] at hw0
              have hnn := n_next m
              simp only [hw0] at hnn
              have hlow : ∀ c n1, n.find_transition_node (toAsciiLowercase c) = some n1 →
                  toAsciiLowercase c ∈ ['a', 'i', 'u', 'e', 'o', '\'', 'y'] := by
                intro c n1 hn1
                have := List.all_eq_true.1 hnn _ (find_mem hn1)
                simpa only [Bool.or_eq_true, List.contains_iff_mem, decide_eq_true_iff, hm, or_false] using this
              have hhead : ∀ c t, w' = c :: t → ∃ n1, n.find_transition_node (toAsciiLowercase c) = some n1 := by
                rintro c t rfl
                cases hf : n.find_transition_node (toAsciiLowercase c) with
                | some n1 => exact ⟨n1, rfl⟩
                | none =>
                  exfalso; apply hnext
                  intro d hd
                  have : c = d := by simpa using hd
                  rw [← this]; exact hf
              rcases hk w' (by simp) with hkey' | ⟨c, rfl, hc⟩
              · obtain ⟨n', out', hw', ho', ht', hne'⟩ := isKey_walk hkey'
                cases w' with
                | nil => exact absurd rfl hne'
                | cons c w' =>
                  obtain ⟨n1, hn1⟩ := hhead c w' rfl
                  have hcc := hlow c n1 hn1
                  have hy := walk_check (y_keys m) hw'
                  have hlc : low (c :: w') = toAsciiLowercase c :: low w' := rfl
                  simp only [ho', Option.isNone_some, Bool.false_or, hlc] at hy
                  have join : (match (tree m).walk ('n' :: low (c :: w')) with
                      | some n => n.output.isSome && n.transitions.isEmpty
                      | none => false) = true → ∀ d ∈ kana m (w :: (c :: w') :: ws).flatten, 0x80 ≤ d.toNat := by
                    intro hj
                    have hlw : low (w ++ c :: w') = 'n' :: low (c :: w') := by
                      rw [low, List.map_append]; show low w ++ _ = _; rw [hwn]; rfl
                    rw [← hlw] at hj
                    cases hwj : (tree m).walk (low (w ++ c :: w')) with
                    | none => rw [hwj] at hj; cases hj
                    | some nj =>
                      simp only [hwj, Bool.and_eq_true, List.isEmpty_iff] at hj
                      obtain ⟨oj, hoj⟩ := Option.isSome_iff_exists.1 hj.1
                      exact hit (w ++ c :: w') ws nj oj (by simp) (by simp) (fun _ h => List.mem_cons_of_mem _ h) hwj hoj
                        (kana_leaf hwj hoj hj.2 _)
                  simp only [List.mem_cons, List.not_mem_nil, or_false] at hcc
                  rcases hcc with h | h | h | h | h | h | h
                  · simp only [h, Bool.and_eq_true] at hy; apply join; rw [hlc, h]; exact hy.2
                  · simp only [h, Bool.and_eq_true] at hy; apply join; rw [hlc, h]; exact hy.2
                  · simp only [h, Bool.and_eq_true] at hy; apply join; rw [hlc, h]; exact hy.2
                  · simp only [h, Bool.and_eq_true] at hy; apply join; rw [hlc, h]; exact hy.2
                  · simp only [h, Bool.and_eq_true] at hy; apply join; rw [hlc, h]; exact hy.2
                  · simp only [h] at hy; cases hy
                  · rw [h] at hy
                    cases w' with
                    | nil => cases hy
                    | cons d w' =>
                      have hld : low (d :: w') = toAsciiLowercase d :: low w' := rfl
                      simp only [hld, Bool.or_eq_true, beq_iff_eq, Bool.and_eq_true] at hy
                      rcases hy with hy | hy
                      · exfalso
                        have := hn hm [] (low (w' ++ ws.flatten)) (by
                          have : w.map toAsciiLowercase = ['n'] := hwn
                          simp [low, this, h, hy])
                        cases this
                      · apply join
                        rw [hlc, h, hld]
                        exact hy.2
              · exfalso
                obtain ⟨n1, hn1⟩ := hhead c [] rfl
                have hcc := hlow c n1 hn1
                unfold Spec.Ascii at hc
                simp only [List.mem_cons, List.not_mem_nil, or_false, char_eq_iff, toAsciiLowercase_toNat,
                  Char.reduceToNat] at hcc
                split at hcc <;> omega
      · have hlc : toAsciiLowercase c = c := by
          apply char_ext
          rw [toAsciiLowercase_toNat]
          unfold Spec.Ascii at hc
          split <;> omega
        unfold Spec.Ascii at hc
        cases hf : (tree m).find_transition_node c with
        | some n =>
          have hw : (tree m).walk (low [c]) = some n := by
            simp only [low, List.map_cons, List.map_nil, hlc]
            rw [walk_singleton, hf]
          have := (complete_facts hw).2.1 (toAsciiLowercase c) [] rfl (by rw [hlc]; omega)
          obtain ⟨out, ho⟩ := Option.isSome_iff_exists.1 this.2.1
          exact hit [c] ws n out rfl (Nat.le_refl _) (fun _ h => h) hw ho (kana_leaf hw ho this.2.2 _)
        | none =>
          intro d hd
          have hst : Stops (tree m) (c :: ws.flatten) (tree m) 0 :=
            ⟨by simp, rfl, by intro x hx; simp at hx; subst hx; rw [hlc]; exact hf⟩
          have ho : (tree m).output = none := by cases m <;> decide +kernel
          have hd : d ∈ kana m (c :: ws.flatten) := hd
          rw [kana_miss hst ho] at hd
          rcases List.mem_cons.1 hd with rfl | hd
          · omega
          · refine ih ws (by simp) hrest (hsub ws [c] rfl fun _ => ?_) d hd
            simp only [low, List.map_cons, List.map_nil, hlc, List.getLast?_singleton, ne_eq, Option.some.injEq]
            rintro rfl
            exact hc (by decide)

/-- **C90** `to_kana` leaves no ASCII character exactly if the text is made of table keys and characters outside ASCII,
and outside IME mode `nyy` occurs only as part of `xnyy`. -/
theorem C90_complete {std : Std} (hstd : std.Lawful) (s r : Str) (o : Options) (h : to_kana_with_opt std s o = .ok r) :
    (∀ c ∈ r, ¬ Spec.Ascii c) ↔
      (∃ ws : List Str, s = ws.flatten ∧
        ∀ w ∈ ws, Spec.IsKey (Spec.tableFor o.use_obsolete_kana o.imemode) w ∨ ∃ c, w = [c] ∧ ¬ Spec.Ascii c) ∧
      (o.use_obsolete_kana = true ∨ o.imemode = false →
        ∀ a b, s.map Spec.asciiLower = a ++ 'n' :: 'y' :: 'y' :: b → a.getLast? = some 'x') := by
  rw [to_kana_eq hstd] at h
  cases h
  rw [tableFor_eq, asciiLower_eq]
  have hm : (o.use_obsolete_kana = true ∨ o.imemode = false) ↔ modeOf o ≠ .ime := by
    rw [Ne, modeOf_ime]
    cases o.use_obsolete_kana <;> cases o.imemode <;> simp
  rw [hm]
  have ha : ∀ c, ¬ Spec.Ascii c ↔ 0x80 ≤ c.toNat := by intro c; unfold Spec.Ascii; omega
  simp only [ha]
  constructor
  · intro h
    have := pieces_of_complete s h
    simpa only [ha] using this
  · rintro ⟨⟨ws, rfl, hk⟩, hn⟩
    exact complete_of_pieces ws (by simpa only [ha] using hk) hn

/-- a completely converted text with an `n` and kana in it, and one with `xnyy` -/
example : to_kana modernStd "Ta’ベnxnyya".toList = .ok "た」ベんんっや".toList ∧
    (∀ w ∈ ["Ta", "n", "xn", "yya"].map String.toList, Spec.IsKey Spec.normalTable w) ∧
    to_kana modernStd "nyya".toList = .ok "nっや".toList := by decide +kernel

end WanaKana
