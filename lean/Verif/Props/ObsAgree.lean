import Verif.Spec.ImeAgree
import Verif.Props.ImeAgree2
/-! # C130: where `use_obsolete_kana` changes the result -/

namespace WanaKana
open KNode

/-- the keys the option changes -/
def wKeys : List (Str × Str × Str) := [(['w', 'i'], ['う', 'ぃ'], ['ゐ']), (['w', 'e'], ['う', 'ぇ'], ['ゑ'])]

def wBad (p : Str) : Bool := wKeys.any fun v => decide (p = v.1)

theorem agree_obs : agreeCheck .normal .obsolete wBad = true ∧ agreeCheck .obsolete .normal wBad = true := by
  constructor <;> decide +kernel

theorem wKeys_keys : (wKeys.all fun v => isKey .normal v.1 v.2.1 && isKey .obsolete v.1 v.2.2) = true := by decide +kernel

/-- the characters the option puts in -/
def obs (c : Char) : Bool := decide (c ∈ ['ゐ', 'ゑ', 'ヰ', 'ヱ'])

theorem obs_h2k (c : Char) : obs (h2kP c) = obs c := by
  unfold obs
  rw [Bool.eq_iff_iff]
  simp only [decide_eq_true_iff, List.mem_cons, List.not_mem_nil, or_false, char_eq_iff, h2kP_toNat, Char.reduceToNat]
  repeat' split
  all_goals omega

theorem obs_map (l : Str) : (l.map h2kP).countP obs = l.countP obs := by
  rw [List.countP_map]
  exact List.countP_congr fun c _ => by rw [Function.comp, obs_h2k]

theorem obs_styled (x out : Str) : (styled x out).countP obs = out.countP obs := by
  unfold styled
  split
  · exact obs_map out
  · rfl

theorem obs_low_ascii {c : Char} (h : c.toNat < 0x80) : obs c = false := by
  unfold obs
  simp only [decide_eq_false_iff_not, List.mem_cons, List.not_mem_nil, or_false, char_eq_iff, Char.reduceToNat]
  omega

/-! ## IME mode puts in neither more nor fewer of them -/

theorem nSyl_obs : (nSyl.all fun v => decide (v.2.1.countP obs = 0 ∧ v.2.2.countP obs = 0)) = true := by decide

theorem ime_obs (T : Str) : (kana .ime T).countP obs = (kana .normal T).countP obs ∧
    ∀ c, toAsciiLowercase c = 'n' → (kana .normal (c :: T)).countP obs = (kana .ime T).countP obs := by
  have hn0 : (['ん'] : Str).countP obs = 0 := by decide
  induction T using list_strong with
  | _ T ih =>
    have hP : (kana .ime T).countP obs = (kana .normal T).countP obs := by
      by_cases hs : T = []
      · rw [hs, kana_nil, kana_nil]
      · by_cases hh : HeadOk T
        · obtain ⟨u, k, hk, hle, h1, h2, _⟩ := same_read hs hh
          rw [h1, h2, List.countP_append, List.countP_append, (ih _ (by simp [List.length_drop]; omega)).1]
        · obtain ⟨c, t, rfl, hc, hn⟩ := not_headOk hh
          rw [normal_nA hc hn, List.countP_append, obs_styled, hn0, Nat.zero_add]
          rcases ime_n hc hn with e | ⟨d, t', rfl, h1, e⟩
          · rw [e, List.countP_cons, obs_low_ascii (low_n_ne hc), (ih t (by simp)).1]
            simp
          · rw [e, List.countP_append, obs_styled, hn0, Nat.zero_add]
            have iht := ih t' (by simp only [List.length_cons]; omega)
            rcases h1 with h1 | rfl
            · exact (iht.2 d h1).symm
            · rw [kana_cons_not_head (by decide), List.countP_cons, iht.1]
              simp [obs_low_ascii]
    refine ⟨hP, ?_⟩
    intro c hc
    by_cases hd : ∃ d t, T = d :: t ∧ toAsciiLowercase d ∈ nNext
    · obtain ⟨d, t, rfl, hd⟩ := hd
      rcases n_before (t := t) hc hd with ⟨x, y, t', v, hv, e, _, hx, e1, e2⟩ | ⟨hq, x, e1⟩ | ⟨hy, e1⟩
      · rw [e1, e2, List.countP_append, List.countP_append, obs_styled, obs_styled]
        have h1 := of_decide_eq_true (List.all_eq_true.1 nSyl_obs v hv)
        have hlt : t'.length < (d :: t).length := by
          rw [← e, List.length_append]
          have := List.length_pos_iff.2 hx
          omega
        rw [h1.1, h1.2, (ih t' hlt).1]
      · rw [e1, low_quoteA hq, kana_quote_cons, List.countP_append, obs_styled, hn0, List.countP_cons, obs_low_ascii (by decide),
          (ih t (by simp)).1]
        simp
      · rw [e1, List.countP_cons, obs_low_ascii (low_n_ne hc), hP]
        simp
    · rw [normal_nA hc (fun d h1 h2 => by
        cases T with
        | nil => cases h1
        | cons d' t =>
          have : d' = d := by simpa using h1
          subst this
          exact hd ⟨d', t, rfl, h2⟩), List.countP_append, obs_styled, hn0, Nat.zero_add, hP]

/-! ## how the two trees read -/

/-- the letters that join w with i or e after them -/
def wJoin : List Char := ['d', 'f', 'g', 'q', 's', 't', 'w']

/-- every w before i or e belongs to the consonant before it -/
def WOk (s : Str) : Prop :=
  ∀ a v b, low s = a ++ 'w' :: v :: b → v ∈ ['i', 'e'] → ∃ d, a.getLast? = some d ∧ d ∈ wJoin

/-- within a key -/
def wOkB : Option Char → Str → Bool
  | _, [] => true
  | p, c :: t => (c != 'w' || (match t with | v :: _ => !['i', 'e'].contains v | [] => true) ||
      (match p with | some d => wJoin.contains d | none => false)) && wOkB (some c) t

theorem wOkB_spec {l : Str} : ∀ {p : Option Char}, wOkB p l = true → ∀ a v b, l = a ++ 'w' :: v :: b → v ∈ ['i', 'e'] →
    ∃ d, (a.getLast?.or p) = some d ∧ d ∈ wJoin := by
  induction l with
  | nil => intro p _ a v b e; have := congrArg List.length e; simp at this
  | cons c t ih =>
    intro p h a v b e hv
    simp only [wOkB, Bool.and_eq_true] at h
    cases a with
    | nil =>
      injection e with e1 e2
      subst e1 e2
      have h := h.1
      simp only [bne_self_eq_false, Bool.false_or, Bool.or_eq_true, Bool.not_eq_true', List.contains_eq_mem, hv, decide_true,
        reduceCtorEq, false_or] at h
      cases p with
      | none => cases h
      | some d => exact ⟨d, rfl, of_decide_eq_true h⟩
    | cons a0 a =>
      injection e with e1 e
      subst e1
      obtain ⟨d, h1, h2⟩ := ih h.2 a v b e hv
      refine ⟨d, ?_, h2⟩
      rw [List.getLast?_cons]
      cases hl : a.getLast? with
      | none => rw [hl] at h1; simpa [hl] using h1
      | some z => rw [hl] at h1; simpa [hl] using h1

/-- keys with w, and the letters before w -/
theorem w_paths : ((tree .normal).paths.all fun x => (x.2.output.isNone || (wBad x.1 || wOkB none x.1) &&
    (match x.1.getLast? with | some d => !wJoin.contains d | none => false)) &&
    (x.2.output.isSome || !(['i', 'e'].any fun v => ['w', v].isPrefixOf x.1 || wJoin.any fun d => [d, 'w', v].isPrefixOf x.1))) = true := by
  decide +kernel

theorem w_walks : (['i', 'e'].all fun v => ((tree .normal).walk ['w', v]).isSome && wJoin.all fun d =>
    ((tree .normal).walk [d, 'w', v]).isSome) = true := by decide +kernel

theorem stops_obs {s : Str} {n : KNode} {k : Nat} (hst : Stops (tree .normal) s n k) (hb : wBad (low (s.take k)) = false) :
    ∃ n', Stops (tree .obsolete) s n' k ∧ n'.output = n.output := by
  obtain ⟨n', hw', ho'⟩ := agree_of_check agree_obs.1 hb hst.walk
  refine ⟨n', ⟨hst.le, hw', ?_⟩, ho'⟩
  intro d hd
  cases hf : n'.find_transition_node (toAsciiLowercase d) with
  | none => rfl
  | some x =>
    exfalso
    have hw2 : (tree .obsolete).walk (low (s.take k) ++ [toAsciiLowercase d]) = some x := by
      rw [walk_append, hw']
      show n'.walk _ = _
      rw [walk_singleton, hf]
    have hz : ∃ z, (tree .normal).walk (low (s.take k) ++ [toAsciiLowercase d]) = some z := by
      cases hb2 : wBad (low (s.take k) ++ [toAsciiLowercase d]) with
      | false =>
        obtain ⟨z, hz, _⟩ := agree_of_check agree_obs.2 hb2 hw2
        exact ⟨z, hz⟩
      | true =>
        obtain ⟨v, hv, e⟩ := List.any_eq_true.1 hb2
        rw [of_decide_eq_true e]
        have := List.all_eq_true.1 wKeys_keys v hv
        simp only [Bool.and_eq_true, isKey] at this
        cases hw3 : (tree .normal).walk v.1 with
        | none => rw [hw3] at this; cases this.1
        | some z => exact ⟨z, rfl⟩
    obtain ⟨z, hz⟩ := hz
    rw [walk_append, hst.walk] at hz
    have hz' : n.walk [toAsciiLowercase d] = some z := hz
    rw [walk_singleton, hst.stop d hd] at hz'
    cases hz'

/-- either mode reads the same characters; only wi and we become something else -/
theorem read_obs {s : Str} (hs : s ≠ []) : ∃ k, 0 < k ∧ k ≤ s.length ∧
    ((∃ u, kana .normal s = u ++ kana .normal (s.drop k) ∧ kana .obsolete s = u ++ kana .obsolete (s.drop k) ∧
      (WOk s ↔ WOk (s.drop k))) ∨
    ∃ v ∈ wKeys, ∃ x, kana .normal s = styled x v.2.1 ++ kana .normal (s.drop k) ∧
      kana .obsolete s = styled x v.2.2 ++ kana .obsolete (s.drop k) ∧ ¬ WOk s) := by
  obtain ⟨n, k, hst⟩ := exists_stops (tree .normal) s
  have hp := walk_check w_paths hst.walk
  simp only [Bool.and_eq_true, Bool.or_eq_true, Bool.not_eq_true', Option.isNone_iff_eq_none] at hp
  obtain ⟨p1, p2⟩ := hp
  have app : ∀ k, low s = low (s.take k) ++ low (s.drop k) := fun k => low_splitA s k
  cases hb : wBad (low (s.take k)) with
  | true =>
    obtain ⟨v, hv, e⟩ := List.any_eq_true.1 hb
    have e : low (s.take k) = v.1 := of_decide_eq_true e
    have hk := List.all_eq_true.1 wKeys_keys v hv
    simp only [Bool.and_eq_true] at hk
    have hv1 : v.1 ≠ [] ∧ ∃ z ∈ ['i', 'e'], v.1 = ['w', z] := by
      have : ∀ v ∈ wKeys, v.1 ≠ [] ∧ ∃ z ∈ ['i', 'e'], v.1 = ['w', z] := by decide
      exact this v hv
    have hk0 : 0 < k := by
      rcases Nat.eq_zero_or_pos k with h | h
      · subst h; exact absurd e.symm hv1.1
      · exact h
    refine ⟨k, hk0, hst.le, Or.inr ⟨v, hv, s.take k, ?_, ?_, ?_⟩⟩
    · conv => lhs; rw [← List.take_append_drop k s]
      exact kana_isKey hk.1 e
    · conv => lhs; rw [← List.take_append_drop k s]
      exact kana_isKey hk.2 e
    · intro hw
      obtain ⟨z, hz, ez⟩ := hv1.2
      obtain ⟨d, h1, _⟩ := hw [] z (low (s.drop k)) (by rw [app k, e, ez]; rfl) hz
      cases h1
  | false =>
    obtain ⟨n', hst', ho'⟩ := stops_obs hst hb
    cases s with
    | nil => exact absurd rfl hs
    | cons c t =>
      cases ho : n.output with
      | some out =>
        have hk := stops_pos hst ho
        refine ⟨k, hk, hst.le, Or.inl ⟨_, kana_hit hst ho, kana_hit hst' (by rw [ho', ho]), ?_⟩⟩
        obtain ⟨p3, p4⟩ := p1.resolve_left (by rw [ho]; simp)
        have p3 := p3.resolve_left (by rw [hb]; simp)
        have hlast : ∃ d, (low ((c :: t).take k)).getLast? = some d ∧ d ∉ wJoin := by
          cases hl : (low ((c :: t).take k)).getLast? with
          | none => rw [hl] at p4; cases p4
          | some d =>
            rw [hl] at p4
            exact ⟨d, rfl, by simpa using p4⟩
        obtain ⟨d, hd, hdj⟩ := hlast
        constructor
        · intro hw a v b e hv
          obtain ⟨d', h1, h2⟩ := hw (low ((c :: t).take k) ++ a) v b (by rw [app k, e, List.append_assoc]) hv
          cases a with
          | nil =>
            rw [List.append_nil, hd] at h1
            cases h1
            exact absurd h2 hdj
          | cons a0 a =>
            rw [getLast?_append_ne _ (List.cons_ne_nil _ _)] at h1
            exact ⟨d', h1, h2⟩
        · intro hw a v b e hv
          rw [app k] at e
          rcases List.append_eq_append_iff.1 e with ⟨a', h1, h2⟩ | ⟨c', h1, h2⟩
          · obtain ⟨d', h3, h4⟩ := hw a' v b h2 hv
            refine ⟨d', ?_, h4⟩
            rw [h1, getLast?_append_ne _ (by intro e; rw [e] at h3; cases h3)]
            exact h3
          · match c', h2 with
            | [], h2 =>
              obtain ⟨d', h3, _⟩ := hw [] v b h2.symm hv
              cases h3
            | [z], h2 =>
              exfalso
              injection h2 with h2 _
              subst h2
              rw [h1, getLast?_append_ne _ (List.cons_ne_nil _ _)] at hd
              cases hd
              exact hdj (by decide)
            | z :: z' :: c', h2 =>
              injection h2 with h2 h3
              injection h3 with h3 _
              subst h2 h3
              obtain ⟨d', h3, h4⟩ := wOkB_spec p3 a v c' h1 hv
              exact ⟨d', by simpa using h3, h4⟩
      | none =>
        refine ⟨1, by omega, by simp, Or.inl ⟨[c], kana_miss hst ho, kana_miss hst' (by rw [ho', ho]), ?_⟩⟩
        have hno : ∀ v ∈ ['i', 'e'], ¬ ['w', v] <+: low (c :: t) ∧ ∀ d ∈ wJoin, ¬ [d, 'w', v] <+: low (c :: t) := by
          intro v hv
          have p2 := p2.resolve_left (by rw [ho]; simp)
          have hw := List.all_eq_true.1 w_walks v hv
          simp only [Bool.and_eq_true, List.all_eq_true] at hw
          constructor
          · intro h
            obtain ⟨m, hm⟩ := Option.isSome_iff_exists.1 hw.1
            have h1 := stops_longest hst h hm
            rw [Bool.eq_false_iff] at p2
            apply p2
            rw [List.any_eq_true]
            exact ⟨v, hv, by rw [Bool.or_eq_true]; exact Or.inl (List.isPrefixOf_iff_prefix.2 h1)⟩
          · intro d hd h
            obtain ⟨m, hm⟩ := Option.isSome_iff_exists.1 (hw.2 d hd)
            have h1 := stops_longest hst h hm
            rw [Bool.eq_false_iff] at p2
            apply p2
            rw [List.any_eq_true]
            exact ⟨v, hv, by
              rw [Bool.or_eq_true, List.any_eq_true]
              exact Or.inr ⟨d, hd, List.isPrefixOf_iff_prefix.2 h1⟩⟩
        show WOk (c :: t) ↔ WOk t
        have el : low (c :: t) = toAsciiLowercase c :: low t := rfl
        constructor
        · intro hw a v b e hv
          obtain ⟨d', h1, h2⟩ := hw (toAsciiLowercase c :: a) v b (by rw [el, e]; rfl) hv
          cases a with
          | nil =>
            exfalso
            have : toAsciiLowercase c = d' := by simpa using h1
            subst this
            exact (hno v hv).2 _ h2 ⟨b, by rw [el, e]; rfl⟩
          | cons a0 a => exact ⟨d', by simpa [List.getLast?_cons_cons] using h1, h2⟩
        · intro hw a v b e hv
          cases a with
          | nil => exact absurd ⟨b, by rw [e]; rfl⟩ (hno v hv).1
          | cons a0 a =>
            rw [el] at e
            injection e with _ e
            obtain ⟨d', h1, h2⟩ := hw a v b e hv
            cases a with
            | nil => cases h1
            | cons a1 a => exact ⟨d', by simpa [List.getLast?_cons_cons] using h1, h2⟩

theorem obs_exact (s : Str) : (kana .normal s).countP obs ≤ (kana .obsolete s).countP obs ∧
    ((kana .obsolete s).countP obs = (kana .normal s).countP obs → WOk s) ∧ (WOk s → kana .obsolete s = kana .normal s) := by
  induction s using list_strong with
  | _ s ih =>
    by_cases hs : s = []
    · subst hs
      rw [kana_nil, kana_nil]
      refine ⟨Nat.le_refl _, fun _ => ?_, fun _ => rfl⟩
      intro a v b e
      have := congrArg List.length e
      simp [low] at this
    · obtain ⟨k, hk, hle, h⟩ := read_obs hs
      obtain ⟨i1, i2, i3⟩ := ih (s.drop k) (by simp [List.length_drop]; omega)
      rcases h with ⟨u, e1, e2, hw⟩ | ⟨v, hv, x, e1, e2, hw⟩
      · rw [e1, e2, List.countP_append, List.countP_append, hw]
        refine ⟨by omega, fun h => i2 (by omega), fun h => by rw [i3 h]⟩
      · have hc : ∀ v ∈ wKeys, v.2.1.countP obs = 0 ∧ v.2.2.countP obs = 1 := by decide
        obtain ⟨c1, c2⟩ := hc v hv
        rw [e1, e2, List.countP_append, List.countP_append, obs_styled, obs_styled, c1, c2]
        refine ⟨by omega, fun h => by omega, fun h => absurd h hw⟩

/-- the option changes nothing, up to the script -/
theorem obs_agree (o : Options) (s : Str) :
    (kana (modeOf { o with use_obsolete_kana := true }) s = kana (modeOf { o with use_obsolete_kana := false }) s ↔
      WOk s ∧ (o.imemode = true → NOk s)) ∧
    ((kana (modeOf { o with use_obsolete_kana := true }) s).map h2kP = (kana (modeOf { o with use_obsolete_kana := false }) s).map h2kP ↔
      WOk s ∧ (o.imemode = true → NOk s)) := by
  have key : ∀ m, m = Mode.normal ∨ m = Mode.ime → (kana .obsolete s).map h2kP = (kana m s).map h2kP → WOk s := by
    intro m hm h
    have := congrArg (List.countP obs) h
    rw [obs_map, obs_map] at this
    apply (obs_exact s).2.1
    rcases hm with rfl | rfl
    · exact this
    · rw [this, (ime_obs s).1]
  unfold modeOf
  simp only [if_true, Bool.false_eq_true, if_false]
  cases o.imemode with
  | false =>
    simp only [Bool.false_eq_true, if_false, false_imp_iff, and_true]
    exact ⟨⟨fun h => key _ (Or.inl rfl) (by rw [h]), (obs_exact s).2.2⟩, key _ (Or.inl rfl), fun h => by rw [(obs_exact s).2.2 h]⟩
  | true =>
    simp only [if_true, forall_const]
    refine ⟨⟨fun h => ?_, fun h => ?_⟩, fun h => ?_, fun h => ?_⟩
    · have hw := key _ (Or.inr rfl) (by rw [h])
      rw [(obs_exact s).2.2 hw] at h
      exact ⟨hw, nOk_of_agree s h.symm⟩
    · rw [(obs_exact s).2.2 h.1, agree_of_nOk s h.2]
    · have hw := key _ (Or.inr rfl) h
      rw [(obs_exact s).2.2 hw] at h
      exact ⟨hw, nOk_of_agreeK s h.symm⟩
    · rw [(obs_exact s).2.2 h.1, agree_of_nOk s h.2]

/-- **C130** Exactly where `use_obsolete_kana` changes the result of `to_kana`. -/
theorem C130_exact {std : Std} (hstd : std.Lawful) (s : Str) (o : Options) :
    to_kana_with_opt std s { o with use_obsolete_kana := true } = to_kana_with_opt std s { o with use_obsolete_kana := false } ↔
      Spec.WJoined (s.map Spec.asciiLower) ∧ (o.imemode = true → Spec.NSettled (s.map Spec.asciiLower)) := by
  rw [to_kana_eq hstd, to_kana_eq hstd, Except.ok.injEq]
  exact (obs_agree o s).1

theorem wJoined_low {std : Std} (hstd : std.Lawful) (s : Str) :
    Spec.WJoined (std.toLowercase s) ↔ WOk (std.toLowercase s) := by
  unfold Spec.WJoined WOk
  rw [low_lowered hstd s]
  exact Iff.rfl

/-- **C130** Exactly where it changes the result of `to_hiragana`. -/
theorem C130_hiragana {std : Std} (hstd : std.Lawful) (s : Str) (o : Options) :
    to_hiragana_with_opt std s { o with use_obsolete_kana := true } =
      to_hiragana_with_opt std s { o with use_obsolete_kana := false } ↔
    o.pass_romaji = true ∨
      ((Spec.MixedText s → ∀ t, katakana_to_hiragana std s = .ok t →
          Spec.WJoined (std.toLowercase t) ∧ (o.imemode = true → Spec.NSettled (std.toLowercase t))) ∧
        (Spec.RomajiText s ∨ ¬ Spec.MixedText s ∧ (∃ c, s.head? = some c ∧ Spec.EnglishPunct c) →
          Spec.WJoined (std.toLowercase s) ∧ (o.imemode = true → Spec.NSettled (std.toLowercase s)))) := by
  rw [to_hiragana_eq hstd, to_hiragana_eq hstd, Except.ok.injEq, k2h_pure hstd]
  unfold hiraP
  cases hp : o.pass_romaji with
  | true => simp
  | false =>
    have hR : Spec.RomajiText s ↔ is_romaji s = true := (C01_is_romaji s).symm
    have hM : Spec.MixedText s ↔ is_mixed s = true := (C04_is_mixed s).symm
    have hE : (∃ c, s.head? = some c ∧ Spec.EnglishPunct c) ↔ ((s.head?).map is_char_english_punctuation).getD false = true := by
      cases s with
      | nil => simp
      | cons c s => simp [is_char_english_punctuation_iff]
    rw [hR, hM, hE]
    simp only [Bool.false_eq_true, if_false, false_or, nSettled_low hstd, wJoined_low hstd, Except.ok.injEq]
    cases hm : is_mixed s with
    | true =>
      have hr : is_romaji s = false := by
        cases h : is_romaji s with
        | false => rfl
        | true => rw [romaji_not_mixed h] at hm; cases hm
      simp only [hr, if_true, forall_const, Bool.false_eq_true, not_true_eq_false, false_and, or_false, false_imp_iff, and_true,
        forall_eq']
      exact (obs_agree o _).1
    | false =>
      simp only [Bool.false_eq_true, if_false, false_imp_iff, true_and, not_false_eq_true]
      by_cases hc : is_romaji s = true ∨ ((s.head?).map is_char_english_punctuation).getD false = true
      · rw [if_pos (by simpa using hc), if_pos (by simpa using hc)]
        simp only [hc, forall_const]
        exact (obs_agree o _).1
      · rw [if_neg (by simpa using hc), if_neg (by simpa using hc)]
        simp [hc]

/-- **C130** Exactly where it changes the result of `to_katakana`. -/
theorem C130_katakana {std : Std} (hstd : std.Lawful) (s : Str) (o : Options) :
    to_katakana_with_opt std s { o with use_obsolete_kana := true } =
      to_katakana_with_opt std s { o with use_obsolete_kana := false } ↔
    o.pass_romaji = true ∨ (Spec.RomajiText s ∨ Spec.MixedText s →
      Spec.WJoined (std.toLowercase s) ∧ (o.imemode = true → Spec.NSettled (std.toLowercase s))) := by
  rw [to_katakana_eq hstd, to_katakana_eq hstd, Except.ok.injEq]
  unfold kataP
  cases hp : o.pass_romaji with
  | true => simp
  | false =>
    have hR : Spec.RomajiText s ↔ is_romaji s = true := (C01_is_romaji s).symm
    have hM : Spec.MixedText s ↔ is_mixed s = true := (C04_is_mixed s).symm
    rw [hR, hM]
    simp only [Bool.false_eq_true, if_false, false_or, nSettled_low hstd, wJoined_low hstd]
    by_cases hc : is_romaji s = true ∨ is_mixed s = true
    · rw [if_pos (by simpa using hc), if_pos (by simpa using hc)]
      simp only [hc, forall_const]
      exact (obs_agree o _).2
    · rw [if_neg (by simpa using hc), if_neg (by simpa using hc)]
      simp [hc]

/-- texts that differ, and texts that do not -/
example : (∀ s ∈ ["wi".toList, "KaWe".toList, "kwi".toList, "lwe".toList, "swaxwi".toList],
      to_kana_with_opt rustStd s { use_obsolete_kana := true } ≠ to_kana rustStd s ∧
      to_hiragana_with_opt rustStd s { use_obsolete_kana := true } ≠ to_hiragana rustStd s ∧
      to_katakana_with_opt rustStd s { use_obsolete_kana := true } ≠ to_katakana rustStd s) ∧
    (∀ s ∈ ["twi".toList, "wwe".toList, "wa".toList, "ゐ".toList, "wyi".toList],
      to_kana_with_opt rustStd s { use_obsolete_kana := true } = to_kana rustStd s ∧
      to_hiragana_with_opt rustStd s { use_obsolete_kana := true } = to_hiragana rustStd s ∧
      to_katakana_with_opt rustStd s { use_obsolete_kana := true } = to_katakana rustStd s) := by
  decide +kernel

end WanaKana
