import Verif.Model.Cost
import Verif.Props.ToKana
import Verif.Props.ToRomaji
import Verif.Props.Convert
/-! # C86: the work done by the conversions -/

namespace WanaKana
open RNode KNode

/-! ## lookups -/

theorem scanned_le {α : Type} (p : α → Bool) : ∀ l : List α, scanned p l ≤ l.length := by
  intro l
  induction l with
  | nil => exact Nat.le_refl _
  | cons x l ih =>
    rw [scanned, List.length_cons]
    split <;> omega

mutual
/-- a bound for the work of one lookup and for writing its result -/
def KNode.weight : KNode → Nat
  | .mk t o => 1 + t.length + 3 * (o.getD []).length + KNode.maxWeight t
/-- the heaviest child -/
def KNode.maxWeight : List (Char × KNode) → Nat
  | [] => 0
  | (_, n) :: r => max (KNode.weight n) (KNode.maxWeight r)
end

theorem KNode.weight_mem {t : List (Char × KNode)} {x : Char × KNode} (h : x ∈ t) : x.2.weight ≤ KNode.maxWeight t := by
  induction t with
  | nil => cases h
  | cons y t ih =>
    obtain ⟨c, n⟩ := y
    rw [KNode.maxWeight]
    rcases List.mem_cons.1 h with rfl | h
    · exact Nat.le_max_left _ _
    · exact Nat.le_trans (ih h) (Nat.le_max_right _ _)

theorem KNode.getLoopC_spec : ∀ (s : Str) (n : KNode) (i steps : Nat), ∃ t,
    n.getLoopC i steps s = (n.getLoop i s, t) ∧ steps ≤ t ∧
    t + 3 * ((n.getLoop i s).1.output.getD []).length ≤ steps + n.weight := by
  intro s
  induction s with
  | nil =>
    intro n i steps
    refine ⟨steps, rfl, Nat.le_refl _, ?_⟩
    obtain ⟨t, o⟩ := n
    rw [KNode.weight]
    simp only [getLoop, KNode.output]
    omega
  | cons c s ih =>
    intro n i steps
    rw [KNode.getLoopC, KNode.getLoop]
    have hs := scanned_le (fun t => t.1 == toAsciiLowercase c) n.transitions
    cases hf : n.find_transition_node (toAsciiLowercase c) with
    | none =>
      refine ⟨_, rfl, by omega, ?_⟩
      obtain ⟨t, o⟩ := n
      rw [KNode.weight]
      simp only [KNode.output, KNode.transitions] at *
      omega
    | some d =>
      obtain ⟨t, h1, h2, h3⟩ := ih d (i + 1) (steps + 1 + scanned (fun t => t.1 == toAsciiLowercase c) n.transitions)
      refine ⟨t, h1, by omega, ?_⟩
      have hd : d.weight ≤ KNode.maxWeight n.transitions := by
        unfold KNode.find_transition_node at hf
        rw [Option.map_eq_some_iff] at hf
        obtain ⟨x, hx, rfl⟩ := hf
        exact KNode.weight_mem (List.mem_of_find?_eq_some hx)
      obtain ⟨t', o⟩ := n
      rw [KNode.weight]
      simp only [KNode.transitions] at *
      omega

theorem KNode.getC_spec (n : KNode) (s : Str) (steps : Nat) : ∃ t,
    n.getC steps s = (n.get s, t) ∧ steps ≤ t ∧ t + 3 * ((n.get s).1.getD []).length ≤ steps + n.weight := by
  obtain ⟨t, h1, h2, h3⟩ := KNode.getLoopC_spec s n 0 steps
  refine ⟨t, ?_, h2, ?_⟩
  · unfold KNode.getC KNode.get
    rw [h1]
  · unfold KNode.get
    by_cases h : (n.getLoop 0 s).1.output.isSome = true
    · simp only [h, if_true]; exact h3
    · simp only [h]
      simp
      omega

theorem weight_tree (m : Mode) : (tree m).weight ≤ 90 := by
  cases m <;> decide +kernel

theorem toKanaLookupC_spec (o : Options) (s : Str) (steps : Nat) : ∃ x t,
    toKanaLookup o s = .ok x ∧ toKanaLookupC o steps s = .ok (x, t) ∧ steps ≤ t ∧
    t + 3 * (x.1.getD []).length ≤ steps + 90 := by
  obtain ⟨t, h1, h2, h3⟩ := KNode.getC_spec (tree (modeOf o)) s steps
  have hw := weight_tree (modeOf o)
  refine ⟨_, t, toKanaLookup_eq o s, ?_, h2, by omega⟩
  rw [← h1]
  unfold toKanaLookupC modeOf
  by_cases h1 : o.use_obsolete_kana
  · simp only [h1, if_true, obs_ok]; rfl
  · by_cases h2 : o.imemode
    · simp only [h1, h2, if_true, ime_ok]; rfl
    · simp only [h1, h2]; rfl

/-! ## to_kana -/

/-- `x` is `y` with the counter `t` -/
def Counted (x : Res (Str × Nat)) (y : Res Str) (t : Nat) : Prop := x = y.map fun r => (r, t)

theorem toKanaLoopC_spec {std : Std} (o : Options) (s : Str) :
    ∀ (fuel pos : Nat) (out : Str) (steps : Nat), pos ≤ s.length → ∃ t,
      Counted (toKanaLoopC std o s s.length fuel pos out steps) (toKanaLoop std o s s.length fuel pos out) t ∧
      steps ≤ t ∧ t ≤ steps + 91 * (s.length - pos) := by
  intro fuel
  induction fuel with
  | zero => intro pos out steps _; exact ⟨steps, rfl, by omega, by omega⟩
  | succ fuel ih =>
    intro pos out steps hpos
    rw [toKanaLoop, toKanaLoopC]
    by_cases hp : pos = s.length
    · rw [if_neg (by simpa using hp), if_neg (by simpa using hp)]
      exact ⟨steps, rfl, by omega, by omega⟩
    · rw [if_pos hp, if_pos hp]
      have hsl : sliceFrom s pos = .ok (s.drop pos) := by unfold sliceFrom; rw [if_pos hpos]
      obtain ⟨x, t, h1, h2, h3, h4⟩ := toKanaLookupC_spec o (s.drop pos) steps
      rw [hsl, ok_bind, ok_bind, h1, ok_bind, h2, ok_bind]
      simp only []
      by_cases hb : (x.2 == 0 || x.1.isNone) = true
      · rw [if_pos hb, if_pos hb]
        cases hi : index s pos with
        | error f => exact ⟨steps, rfl, by omega, by omega⟩
        | ok c =>
          rw [ok_bind, ok_bind]
          obtain ⟨t', e, g1, g2⟩ := ih (pos + 1) (out ++ [c]) (t + 1) (by omega)
          exact ⟨t', e, by omega, by omega⟩
      · rw [if_neg hb, if_neg hb]
        simp only [Bool.or_eq_true, beq_iff_eq, not_or] at hb
        cases hsl : slice s pos (pos + x.2) with
        | error f => exact ⟨steps, rfl, by omega, by omega⟩
        | ok w =>
          have hle : pos + x.2 ≤ s.length ∧ w.length ≤ x.2 := by
            unfold slice at hsl
            split at hsl
            · next h =>
              cases hsl
              exact ⟨h.2, by rw [List.length_take]; omega⟩
            · cases hsl
          rw [ok_bind, ok_bind]
          cases hx : x.1 with
          | none => exact ⟨steps, rfl, by omega, by omega⟩
          | some u =>
            rw [hx] at h4
            simp only [Option.getD_some] at h4
            rw [show unwrap (some u) = .ok u from rfl, ok_bind, ok_bind]
            have hx2 : 1 ≤ x.2 := by omega
            by_cases hu : w.all std.isUppercase = true
            · rw [if_pos hu, if_pos hu]
              unfold hiragana_to_katakanaC
              rw [hiragana_to_katakana_eq, ok_bind, ok_bind, ok_bind]
              simp only [List.length_map]
              obtain ⟨t', e, g1, g2⟩ := ih (pos + x.2) (out ++ u.map h2kP)
                (t + w.length + u.length + u.length + u.length) hle.1
              exact ⟨t', e, by omega, by omega⟩
            · rw [if_neg hu, if_neg hu]
              obtain ⟨t', e, g1, g2⟩ := ih (pos + x.2) (out ++ u) (t + w.length + u.length) hle.1
              exact ⟨t', e, by omega, by omega⟩

theorem to_kanaC_spec {std : Std} (s : Str) (o : Options) (steps : Nat) : ∃ t,
    Counted (to_kana_with_optC std s o steps) (to_kana_with_opt std s o) t ∧ steps ≤ t ∧ t ≤ steps + 92 * s.length := by
  obtain ⟨t, e, h1, h2⟩ := toKanaLoopC_spec (std := std) o s (s.length + 1) 0 [] (steps + s.length) (by omega)
  exact ⟨t, e, by omega, by omega⟩

/-! ## to_romaji -/

mutual
/-- a bound for the work of one lookup and for writing its result -/
def RNode.weight : RNode → Nat
  | .mk none o => 2 + 3 * o.length
  | .mk (some t) o => 2 + 3 * o.length + RNode.maxWeight t
/-- the heaviest child -/
def RNode.maxWeight : List (Char × RNode) → Nat
  | [] => 0
  | (_, n) :: r => max (RNode.weight n) (RNode.maxWeight r)
end

theorem RNode.weight_mem {t : List (Char × RNode)} {x : Char × RNode} (h : x ∈ t) : x.2.weight ≤ RNode.maxWeight t := by
  induction t with
  | nil => cases h
  | cons y t ih =>
    obtain ⟨c, n⟩ := y
    rw [RNode.maxWeight]
    rcases List.mem_cons.1 h with rfl | h
    · exact Nat.le_max_left _ _
    · exact Nat.le_trans (ih h) (Nat.le_max_right _ _)

theorem RNode.find_weight {std : Std} {n d : RNode} {c : Char} (h : n.find_transition_node std c = .ok (some d)) :
    2 + d.weight ≤ n.weight := by
  obtain ⟨t, o⟩ := n
  cases t with
  | none => simp [RNode.find_transition_node, RNode.transitions] at h
  | some t =>
    unfold RNode.find_transition_node at h
    simp only [RNode.transitions] at h
    split at h
    · next i hi =>
      unfold index unwrap at h
      split at h
      · next x hx =>
        rw [ok_bind] at h
        cases h
        rw [RNode.weight]
        have := RNode.weight_mem (List.mem_of_getElem? hx)
        omega
      · cases h
    · cases h

theorem RNode.weight_out (n : RNode) : 2 + 3 * n.output.length ≤ n.weight := by
  obtain ⟨t, o⟩ := n
  cases t with
  | none => rw [RNode.weight]; exact Nat.le_refl _
  | some t => rw [RNode.weight]; simp only [RNode.output]; omega

theorem RNode.getLoopC_spec {std : Std} : ∀ (s : Str) (n : RNode) (i steps : Nat), ∃ t,
    n.getLoopC std i steps s = (n.getLoop std i s).map (fun r => (r, t)) ∧ steps ≤ t ∧
    ∀ r, n.getLoop std i s = .ok r → t + 3 * r.1.output.length ≤ steps + n.weight := by
  intro s
  induction s with
  | nil =>
    intro n i steps
    refine ⟨steps, rfl, Nat.le_refl _, ?_⟩
    rintro r h
    cases h
    have := n.weight_out
    simp only
    omega
  | cons c s ih =>
    intro n i steps
    rw [RNode.getLoopC, RNode.getLoop]
    cases hf : n.find_transition_node std c with
    | error f => exact ⟨steps, rfl, by omega, fun r h => by cases h⟩
    | ok d =>
      rw [ok_bind, ok_bind]
      cases d with
      | none =>
        refine ⟨steps + 2, rfl, by omega, ?_⟩
        rintro r h
        cases h
        have := n.weight_out
        simp only
        omega
      | some d =>
        obtain ⟨t, h1, h2, h3⟩ := ih d (i + 1) (steps + 2)
        refine ⟨t, h1, by omega, fun r h => ?_⟩
        have := h3 r h
        have := RNode.find_weight hf
        omega

theorem weight_romaji : TO_ROMAJI_NODE_TREE.weight ≤ 40 := by decide +kernel

theorem RNode.getC_spec {std : Std} (s : Str) (n : RNode) (steps : Nat) : ∃ t,
    n.getC std steps s = (n.get std s).map (fun r => (r, t)) ∧ steps ≤ t ∧
    ∀ r, n.get std s = .ok r → t + 3 * r.1.length ≤ steps + n.weight := by
  obtain ⟨t, h1, h2, h3⟩ := RNode.getLoopC_spec (std := std) s n 0 steps
  unfold RNode.getC RNode.get
  rw [h1]
  cases hg : n.getLoop std 0 s with
  | error f => exact ⟨steps, rfl, by omega, fun r h => by cases h⟩
  | ok r =>
    refine ⟨t, rfl, h2, ?_⟩
    intro r' h
    cases h
    exact h3 r hg

theorem toRomajiLoopC_spec {std : Std} (hstd : std.Lawful) (o : Options) (orig s : Str) :
    ∀ (fuel pos : Nat) (out : Str) (steps : Nat), pos ≤ s.length → ∃ t,
      Counted (toRomajiLoopC std o orig s s.length fuel pos out steps) (toRomajiLoop std o orig s s.length fuel pos out) t ∧
      steps ≤ t ∧ t ≤ steps + 41 * (s.length - pos) := by
  intro fuel
  induction fuel with
  | zero => intro pos out steps _; exact ⟨steps, rfl, by omega, by omega⟩
  | succ fuel ih =>
    intro pos out steps hpos
    rw [toRomajiLoop, toRomajiLoopC]
    by_cases hp : pos = s.length
    · rw [if_neg (by simpa using hp), if_neg (by simpa using hp)]
      exact ⟨steps, rfl, by omega, by omega⟩
    · rw [if_pos hp, if_pos hp]
      have hsl : sliceFrom s pos = .ok (s.drop pos) := by unfold sliceFrom; rw [if_pos hpos]
      obtain ⟨n, k, hget, hst⟩ := rget_ok hstd romaji_sorted (s.drop pos)
      obtain ⟨t, h2, h3, h4⟩ := RNode.getC_spec (std := std) (s.drop pos) TO_ROMAJI_NODE_TREE steps
      have h4 := h4 _ hget
      have hw := weight_romaji
      rw [hsl, ok_bind, ok_bind, h2, hget, ok_bind]
      rw [show Except.map (fun r => (r, t)) (Except.ok (n.output, k) : Res (Str × Nat)) = .ok ((n.output, k), t) from rfl,
        ok_bind]
      simp only [] at h4 ⊢
      have hkl : pos + k ≤ s.length := by
        have := hst.le; simp [List.length_drop] at this; omega
      by_cases hb : (k == 0) = true
      · rw [if_pos hb, if_pos hb]
        cases hi : index s pos with
        | error f => exact ⟨steps, rfl, by omega, by omega⟩
        | ok c =>
          rw [ok_bind, ok_bind]
          obtain ⟨t', e, g1, g2⟩ := ih (pos + 1) (out ++ [c]) (t + 1) (by omega)
          exact ⟨t', e, by omega, by omega⟩
      · rw [if_neg hb, if_neg hb]
        simp only [beq_iff_eq] at hb
        cases hsl : slice orig pos (pos + k) with
        | error f => exact ⟨steps, rfl, by omega, by omega⟩
        | ok w =>
          have hle : w.length ≤ k := by
            unfold slice at hsl
            split at hsl
            · cases hsl
              rw [List.length_take]; omega
            · cases hsl
          rw [ok_bind, ok_bind]
          have hup : ∀ b : Bool, (if b = true then std.toUppercase n.output else n.output).length = n.output.length := by
            intro b
            rw [toUppercase_out hstd (rwalk_facts hstd hst.walk).2.1]
            cases b <;> simp
          have hlen := hup (if w.all is_char_katakana = true then o.upcase_katakana else false)
          obtain ⟨t', e, g1, g2⟩ := ih (pos + k) (out ++ (if (if w.all is_char_katakana = true then o.upcase_katakana
            else false) = true then std.toUppercase n.output else n.output)) (t + w.length + n.output.length + 2 *
            (if (if w.all is_char_katakana = true then o.upcase_katakana else false) = true then std.toUppercase n.output
              else n.output).length) hkl
          rw [hlen] at g1 g2
          exact ⟨t', e, by omega, by omega⟩

/-! ## katakana_to_hiragana -/

theorem dash_iff {c : Char} : is_char_long_dash c = true ↔ c = 'ー' := by
  rw [show is_char_long_dash c = decide (c.toNat = 0x30FC) from rfl, decide_eq_true_iff, char_eq_iff]
  rfl

theorem k2hLoopC_spec {std : Std} (input : Str) (dest : Bool) : ∀ (rest : Str) (i : Nat) (prev : Option Char) (hira : Str)
    (steps : Nat), i + rest.length = input.length → ∃ t,
    Counted (k2hLoopC std input dest rest i prev hira steps) (k2hLoop std input dest rest i prev hira) t ∧
    steps ≤ t ∧ t ≤ steps + 2 * rest.length + rest.count 'ー' * input.length := by
  intro rest
  induction rest with
  | nil => intro i prev hira steps _; exact ⟨steps, rfl, by omega, by simp⟩
  | cons c rest ih =>
    intro i prev hira steps hl
    rw [List.length_cons] at hl ⊢
    have hcount : rest.count 'ー' * input.length ≤ (c :: rest).count 'ー' * input.length :=
      Nat.mul_le_mul_right _ (by rw [List.count_cons]; omega)
    have hdash : is_char_long_dash c = true → (c :: rest).count 'ー' * input.length
        = rest.count 'ー' * input.length + input.length := by
      intro h
      rw [dash_iff.1 h, List.count_cons_self, Nat.add_mul, Nat.one_mul]
    rw [k2hLoop.eq_def, k2hLoopC.eq_def]
    simp only []
    have step : ∀ prev' hira' k, k ≤ 2 → ∃ t,
        Counted (k2hLoopC std input dest rest (i + 1) prev' hira' (steps + k)) (k2hLoop std input dest rest (i + 1) prev' hira') t ∧
        steps ≤ t ∧ t ≤ steps + 2 * (rest.length + 1) + (c :: rest).count 'ー' * input.length := by
      intro prev' hira' k hk
      obtain ⟨t, e, h1, h2⟩ := ih (i + 1) prev' hira' (steps + k) (by omega)
      exact ⟨t, e, by omega, by omega⟩
    have other : ∃ t, Counted
        (if (!is_char_long_dash c && is_char_katakana c) = true then
          k2hLoopC std input dest rest (i + 1) (some (k2hChar c)) (hira ++ [k2hChar c]) (steps + 2)
          else k2hLoopC std input dest rest (i + 1) none (hira ++ [c]) (steps + 2))
        (if (!is_char_long_dash c && is_char_katakana c) = true then
          k2hLoop std input dest rest (i + 1) (some (k2hChar c)) (hira ++ [k2hChar c])
          else k2hLoop std input dest rest (i + 1) none (hira ++ [c])) t ∧
        steps ≤ t ∧ t ≤ steps + 2 * (rest.length + 1) + (c :: rest).count 'ー' * input.length := by
      by_cases h : (!is_char_long_dash c && is_char_katakana c) = true
      · rw [if_pos h, if_pos h]; exact step _ _ 2 (by omega)
      · rw [if_neg h, if_neg h]; exact step _ _ 2 (by omega)
    by_cases hk : (is_char_slash_dot c || is_char_initial_long_dash c i || is_kana_as_symbol c) = true
    · rw [if_pos hk, if_pos hk]
      exact step _ _ 2 (by omega)
    · rw [if_neg hk, if_neg hk]
      cases prev with
      | none => exact other
      | some p =>
        cases hd : is_char_inner_long_dash c i with
        | false => exact other
        | true =>
          have hd' : is_char_long_dash c = true ∧ i ≠ 0 := by
            simpa [is_char_inner_long_dash] using hd
          have e := hdash hd'.1
          have step : ∀ hira' n, steps ≤ n → n ≤ steps + i + 3 → ∃ t,
              Counted (k2hLoopC std input dest rest (i + 1) (some p) hira' n)
                (k2hLoop std input dest rest (i + 1) (some p) hira') t ∧
              steps ≤ t ∧ t ≤ steps + 2 * (rest.length + 1) + (c :: rest).count 'ー' * input.length := by
            intro hira' n _ _
            obtain ⟨t, e, h1, h2⟩ := ih (i + 1) (some p) hira' n (by omega)
            exact ⟨t, e, by omega, by omega⟩
          simp only []
          cases hf : TO_ROMAJI_NODE_TREE.find_transition_node std p with
          | error f => exact ⟨steps, rfl, by omega, by omega⟩
          | ok n =>
            rw [ok_bind, ok_bind]
            cases n with
            | none => exact step _ _ (by omega) (by omega)
            | some n =>
              simp only []
              rw [show usizeSub i 1 = .ok (i - 1) by unfold usizeSub; rw [if_pos (by omega)], ok_bind, ok_bind]
              have hi : i - 1 + 1 = i := by omega
              rw [hi]
              have vowel : ∃ t, Counted
                  (match n.output.getLast?.bind LONG_VOWELS with
                    | some hit => k2hLoopC std input dest rest (i + 1) (some p) (hira ++ [hit]) (steps + 2 + i + 1)
                    | none => k2hLoopC std input dest rest (i + 1) (some p) hira (steps + 2 + i))
                  (match n.output.getLast?.bind LONG_VOWELS with
                    | some hit => k2hLoop std input dest rest (i + 1) (some p) (hira ++ [hit])
                    | none => k2hLoop std input dest rest (i + 1) (some p) hira) t ∧
                  steps ≤ t ∧ t ≤ steps + 2 * (rest.length + 1) + (c :: rest).count 'ー' * input.length := by
                cases n.output.getLast?.bind LONG_VOWELS with
                | some hit => exact step _ _ (by omega) (by omega)
                | none => exact step _ _ (by omega) (by omega)
              cases input[i - 1]? with
              | none =>
                simp only [Bool.false_eq_true, if_false]
                exact vowel
              | some d =>
                simp only []
                by_cases hb : (is_char_katakana d && n.output.getLast? == some 'o' && dest) = true
                · rw [if_pos hb, if_pos hb]
                  exact step _ _ (by omega) (by omega)
                · rw [if_neg hb, if_neg hb]
                  exact vowel

theorem k2hC_spec {std : Std} (hstd : std.Lawful) (s : Str) (dest : Bool) (steps : Nat) : ∃ t,
    Counted (katakana_to_hiragana_with_optC std s dest steps) (katakana_to_hiragana_with_opt std s dest) t ∧
    steps ≤ t ∧ t ≤ steps + 4 * s.length + s.count 'ー' * s.length := by
  obtain ⟨t, e, h1, h2⟩ := k2hLoopC_spec (std := std) s dest s 0 none [] (steps + s.length) (by simp)
  unfold katakana_to_hiragana_with_optC katakana_to_hiragana_with_opt
  have hk : k2hLoop std s dest s 0 none [] = .ok (k2hP std dest none s) := k2h_eq hstd s dest
  have hle := k2hP_length_le hstd dest s prevOk_none
  rw [e, hk]
  exact ⟨t + (k2hP std dest none s).length, rfl, by omega, by omega⟩

theorem to_romajiC_spec {std : Std} (hstd : std.Lawful) (s : Str) (o : Options) (steps : Nat) : ∃ t,
    Counted (to_romaji_with_optC std s o steps) (to_romaji_with_opt std s o) t ∧
    steps ≤ t ∧ t ≤ steps + 47 * s.length + s.count 'ー' * s.length := by
  obtain ⟨t, e, h1, h2⟩ := k2hC_spec hstd s true steps
  unfold to_romaji_with_optC to_romaji_with_opt
  rw [e, k2h_eq hstd]
  have hle := k2hP_length_le hstd true s prevOk_none
  obtain ⟨t', e', g1, g2⟩ := toRomajiLoopC_spec hstd o s (k2hP std true none s) ((k2hP std true none s).length + 1) 0 []
    (t + s.length + (k2hP std true none s).length) (by omega)
  exact ⟨t', e', by omega, by omega⟩

/-! ## to_hiragana and to_katakana -/

theorem toLowercase_length_le {std : Std} (hl : ∀ c, (std.lowerChar c).length ≤ 3) (s : Str) :
    (std.toLowercase s).length ≤ 3 * s.length := by
  unfold Std.toLowercase
  have : ∀ (s pre : Str), (std.lowerFrom pre s).length ≤ 3 * s.length := by
    intro s
    induction s with
    | nil => intro _; exact Nat.le_refl _
    | cons c s ih =>
      intro pre
      rw [Std.lowerFrom, List.length_append, List.length_cons]
      have h1 := ih (pre ++ [c])
      have h2 : (if c = 'Σ' then (if std.finalSigma pre s then ['ς'] else ['σ']) else std.lowerChar c).length ≤ 3 := by
        split
        · split <;> simp
        · exact hl c
      omega
  exact this s []

theorem romaji_to_hiraganaC_spec {std : Std} (hl : ∀ c, (std.lowerChar c).length ≤ 3) (s : Str)
    (o : Options) (steps : Nat) : ∃ t,
    Counted (romaji_to_hiraganaC std s o steps) (romaji_to_hiragana std s o) t ∧ steps ≤ t ∧ t ≤ steps + 280 * s.length := by
  have h := toLowercase_length_le hl s
  obtain ⟨t, e, h1, h2⟩ := to_kanaC_spec (std := std) (std.toLowercase s) o (steps + s.length + (std.toLowercase s).length)
  exact ⟨t, e, by omega, by omega⟩

theorem to_hiraganaC_spec {std : Std} (hstd : std.Lawful) (hl : ∀ c, (std.lowerChar c).length ≤ 3) (s : Str)
    (o : Options) (steps : Nat) : ∃ t,
    Counted (to_hiragana_with_optC std s o steps) (to_hiragana_with_opt std s o) t ∧ steps ≤ t ∧
    t ≤ steps + 287 * s.length + s.count 'ー' * s.length + 1 := by
  unfold to_hiragana_with_optC to_hiragana_with_opt katakana_to_hiragana
  by_cases hp : o.pass_romaji = true
  · rw [if_pos hp, if_pos hp]
    obtain ⟨t, e, h1, h2⟩ := k2hC_spec hstd s false steps
    exact ⟨t, e, by omega, by omega⟩
  · rw [if_neg hp, if_neg hp]
    by_cases hm : is_mixed s = true
    · rw [if_pos hm, if_pos hm]
      obtain ⟨t, e, h1, h2⟩ := k2hC_spec hstd s false (steps + 3 * s.length)
      rw [e, k2h_eq hstd]
      have hle := k2hP_length_le hstd false s prevOk_none
      obtain ⟨t', e', g1, g2⟩ := romaji_to_hiraganaC_spec hl (k2hP std false none s) o t
      exact ⟨t', e', by omega, by omega⟩
    · rw [if_neg hm, if_neg hm]
      split
      · obtain ⟨t, e, h1, h2⟩ := romaji_to_hiraganaC_spec hl s o (steps + 4 * s.length + 1)
        exact ⟨t, e, by omega, by omega⟩
      · obtain ⟨t, e, h1, h2⟩ := k2hC_spec hstd s false (steps + 4 * s.length + 1)
        exact ⟨t, e, by omega, by omega⟩

theorem h2kC_spec (s : Str) (steps : Nat) :
    Counted (hiragana_to_katakanaC s steps) (hiragana_to_katakana s) (steps + 2 * s.length) := by
  unfold hiragana_to_katakanaC
  rw [hiragana_to_katakana_eq, ok_bind, List.length_map]
  show _ = Except.ok _
  congr 2
  omega

theorem to_katakanaC_spec {std : Std} (hstd : std.Lawful) (hl : ∀ c, (std.lowerChar c).length ≤ 3) (s : Str)
    (o : Options) (steps : Nat) : ∃ t,
    Counted (to_katakana_with_optC std s o steps) (to_katakana_with_opt std s o) t ∧ steps ≤ t ∧
    t ≤ steps + 290 * s.length := by
  unfold to_katakana_with_optC to_katakana_with_opt
  by_cases hp : o.pass_romaji = true
  · rw [if_pos hp, if_pos hp]
    exact ⟨_, h2kC_spec s steps, by omega, by omega⟩
  · rw [if_neg hp, if_neg hp]
    split
    · obtain ⟨t, e, h1, h2⟩ := romaji_to_hiraganaC_spec hl s o (steps + 4 * s.length)
      have hk : romaji_to_hiragana std s o = .ok (kana (modeOf o) (std.toLowercase s)) := to_kana_eq hstd _ o
      rw [e, hk]
      have hle := toLowercase_length_le hl s
      have hle' := kana_length (modeOf o) (std.toLowercase s)
      exact ⟨_, h2kC_spec (kana (modeOf o) (std.toLowercase s)) t, by omega, by omega⟩
    · exact ⟨_, h2kC_spec s (steps + 4 * s.length), by omega, by omega⟩

/-! ## the claims -/

theorem counted_ok {x : Res (Str × Nat)} {y : Res Str} {t : Nat} (h : Counted x y t) {r : Str} {n : Nat} :
    x = .ok (r, n) ↔ y = .ok r ∧ n = t := by
  unfold Counted at h
  subst h
  cases y with
  | error f =>
    constructor
    · intro h; cases h
    · rintro ⟨h, _⟩; cases h
  | ok r' =>
    constructor
    · intro h; cases h; exact ⟨rfl, rfl⟩
    · rintro ⟨h, rfl⟩; cases h; rfl

/-- **C86** Counting steps changes no result. -/
theorem C86_same {std : Std} (hstd : std.Lawful) (hl : ∀ c, (std.lowerChar c).length ≤ 3) (s : Str) (o : Options) :
    (to_kana_with_optC std s o 0).map Prod.fst = to_kana_with_opt std s o ∧
    (to_romaji_with_optC std s o 0).map Prod.fst = to_romaji_with_opt std s o ∧
    (to_hiragana_with_optC std s o 0).map Prod.fst = to_hiragana_with_opt std s o ∧
    (to_katakana_with_optC std s o 0).map Prod.fst = to_katakana_with_opt std s o := by
  have key : ∀ (x : Res (Str × Nat)) y t, Counted x y t → x.map Prod.fst = y := by
    rintro x y t rfl
    cases y <;> rfl
  obtain ⟨_, h1, _⟩ := to_kanaC_spec (std := std) s o 0
  obtain ⟨_, h2, _⟩ := to_romajiC_spec hstd s o 0
  obtain ⟨_, h3, _⟩ := to_hiraganaC_spec hstd hl s o 0
  obtain ⟨_, h4, _⟩ := to_katakanaC_spec hstd hl s o 0
  exact ⟨key _ _ _ h1, key _ _ _ h2, key _ _ _ h3, key _ _ _ h4⟩

/-- **C86** `to_kana` and `to_katakana` work in linear time: a bounded number of steps per character. -/
theorem C86_linear {std : Std} (hstd : std.Lawful) (hl : ∀ c, (std.lowerChar c).length ≤ 3) (s : Str) (o : Options) :
    (∃ r t, to_kana_with_optC std s o 0 = .ok (r, t) ∧ t ≤ 92 * s.length) ∧
    (∃ r t, to_katakana_with_optC std s o 0 = .ok (r, t) ∧ t ≤ 290 * s.length) := by
  obtain ⟨t1, h1, _, b1⟩ := to_kanaC_spec (std := std) s o 0
  obtain ⟨t2, h2, _, b2⟩ := to_katakanaC_spec hstd hl s o 0
  obtain ⟨r2, e2⟩ := (C38_total hstd s o).2
  refine ⟨⟨_, t1, (counted_ok h1).2 ⟨to_kana_eq hstd s o, rfl⟩, by omega⟩, ⟨r2, t2, (counted_ok h2).2 ⟨e2, rfl⟩, by omega⟩⟩

/-- **C86** `to_romaji` and `to_hiragana` take at most a bounded number of steps per character, and for every long vowel
mark as many steps as the text has characters. -/
theorem C86_marks {std : Std} (hstd : std.Lawful) (hl : ∀ c, (std.lowerChar c).length ≤ 3) (s : Str) (o : Options) :
    (∃ r t, to_romaji_with_optC std s o 0 = .ok (r, t) ∧ t ≤ 47 * s.length + s.count 'ー' * s.length) ∧
    (∃ r t, to_hiragana_with_optC std s o 0 = .ok (r, t) ∧ t ≤ 288 * s.length + s.count 'ー' * s.length + 1) := by
  obtain ⟨t1, h1, _, b1⟩ := to_romajiC_spec hstd s o 0
  obtain ⟨t2, h2, _, b2⟩ := to_hiraganaC_spec hstd hl s o 0
  obtain ⟨r2, e2⟩ := (C38_total hstd s o).1
  refine ⟨⟨_, t1, (counted_ok h1).2 ⟨to_romaji_eq hstd s o, rfl⟩, by omega⟩, ⟨r2, t2, (counted_ok h2).2 ⟨e2, rfl⟩, by omega⟩⟩

/-- the loop on a run of long vowel marks -/
theorem k2hLoopC_run {std : Std} (hstd : std.Lawful) (input : Str) (dest : Bool) : ∀ (k i : Nat) (hira : Str) (steps : Nat) (r : Str) (t : Nat),
    k2hLoopC std input dest (List.replicate k 'ー') (i + 1) (some 'か') hira steps = .ok (r, t) →
    2 * steps + 2 * k * i + k * k ≤ 2 * t := by
  obtain ⟨n, hn⟩ := root_has hstd (p := 'か') (by decide) (by decide)
  have hfind : TO_ROMAJI_NODE_TREE.find_transition_node std 'か' = .ok (some n) := by
    rw [find_ok hstd (romaji_sorted _ (self_mem_paths _)) 'か', hn]
  intro k
  induction k with
  | zero =>
    intro i hira steps r t h
    cases h
    omega
  | succ k ih =>
    intro i hira steps r t h
    rw [List.replicate_succ, k2hLoopC.eq_def] at h
    simp only [] at h
    rw [if_neg (by simp [is_char_slash_dot, is_char_initial_long_dash, is_kana_as_symbol]; decide)] at h
    have hin : is_char_inner_long_dash 'ー' (i + 1) = true := by
      simp [is_char_inner_long_dash]; decide
    rw [hin] at h
    simp only [] at h
    rw [hfind, ok_bind] at h
    simp only [] at h
    rw [show usizeSub (i + 1) 1 = .ok i by unfold usizeSub; rw [if_pos (by omega)]; rfl, ok_bind] at h
    have hmul : 2 * (k + 1) * i + (k + 1) * (k + 1) = 2 * k * i + k * k + 2 * i + 2 * k + 1 := by
      simp only [Nat.add_mul, Nat.mul_add]
      omega
    have hmul' : 2 * k * (i + 1) = 2 * k * i + 2 * k := by
      rw [Nat.mul_add, Nat.mul_one]
    have next : ∀ hira' m, k2hLoopC std input dest (List.replicate k 'ー') (i + 1 + 1) (some 'か') hira' m = .ok (r, t) →
        steps + i + 3 ≤ m → 2 * steps + 2 * (k + 1) * i + (k + 1) * (k + 1) ≤ 2 * t := by
      intro hira' m h hm
      have := ih (i + 1) hira' m r t h
      omega
    repeat' split at h
    all_goals exact next _ _ h (by omega)

/-- **C86** This is not an overestimate: on カ followed by `n` long vowel marks `to_romaji` and `to_hiragana` take at least
`n²/2` steps (`chars().nth(index - 1)` reads the text from its start every time). -/
theorem C86_quadratic {std : Std} (hstd : std.Lawful) (o : Options) (n : Nat) :
    (∀ r t, to_romaji_with_optC std ('カ' :: List.replicate n 'ー') o 0 = .ok (r, t) → n * n ≤ 2 * t) ∧
    (∀ r t, to_hiragana_with_optC std ('カ' :: List.replicate n 'ー') o 0 = .ok (r, t) → n * n ≤ 2 * t) := by
  have key : ∀ dest steps r t, katakana_to_hiragana_with_optC std ('カ' :: List.replicate n 'ー') dest steps = .ok (r, t) →
      n * n ≤ 2 * t := by
    intro dest steps r t h
    unfold katakana_to_hiragana_with_optC at h
    cases hk : k2hLoopC std ('カ' :: List.replicate n 'ー') dest ('カ' :: List.replicate n 'ー') 0 none []
      (steps + ('カ' :: List.replicate n 'ー').length) with
    | error f => rw [hk] at h; cases h
    | ok x =>
      rw [hk, ok_bind] at h
      cases h
      rw [k2hLoopC.eq_def] at hk
      simp only [] at hk
      rw [if_neg (by decide), if_pos (by decide), show k2hChar 'カ' = 'か' by decide] at hk
      have := k2hLoopC_run hstd _ dest n 0 _ _ _ _ hk
      simp only [Nat.mul_zero, Nat.add_zero] at this
      omega
  have hk := fun dest steps => k2hC_spec hstd ('カ' :: List.replicate n 'ー') dest steps
  constructor
  · intro r t h
    unfold to_romaji_with_optC at h
    obtain ⟨t', e, _, _⟩ := hk true 0
    have hx := (counted_ok e).2 ⟨k2h_eq hstd _ true, rfl⟩
    have := key _ _ _ _ hx
    rw [hx, ok_bind] at h
    obtain ⟨t2, e2, g1, _⟩ := toRomajiLoopC_spec hstd o ('カ' :: List.replicate n 'ー')
      (k2hP std true none ('カ' :: List.replicate n 'ー')) ((k2hP std true none ('カ' :: List.replicate n 'ー')).length + 1) 0 []
      (t' + ('カ' :: List.replicate n 'ー').length + (k2hP std true none ('カ' :: List.replicate n 'ー')).length) (by omega)
    have := (counted_ok e2).1 h
    omega
  · intro r t h
    unfold to_hiragana_with_optC at h
    have hr : ∀ f : Char → Bool, f 'カ' = false → f 'ー' = false → ('カ' :: List.replicate n 'ー').any f = false := by
      intro f h1 h2
      rw [List.any_eq_false]
      intro c hc
      rcases List.mem_cons.1 hc with rfl | hc
      · simpa using h1
      · rw [(List.mem_replicate.1 hc).2]; simpa using h2
    have hmix : is_mixed ('カ' :: List.replicate n 'ー') = false := by
      unfold is_mixed is_mixed_pass_kanji
      rw [hr is_char_romaji (by decide) (by decide)]
      simp
    have hrom : is_romaji ('カ' :: List.replicate n 'ー') = false := by
      unfold is_romaji
      simp
      intro h
      exact absurd h (by decide)
    rw [hmix, hrom] at h
    split at h
    · exact key _ _ _ _ h
    · rw [if_neg (by decide), if_neg (by simp; decide)] at h
      exact key _ _ _ _ h

/-- the steps for some texts: カナカナカ and カーーーー have the same length -/
example : (∀ c, (modernStd.lowerChar c).length ≤ 3) ∧
    to_romaji_with_optC modernStd "カーーーー".toList {} 0 = .ok ("kaaaaa".toList, 85) ∧
    to_romaji_with_optC modernStd "カナカナカ".toList {} 0 = .ok ("kanakanaka".toList, 83) ∧
    to_kana_with_optC modernStd "kana KANA".toList {} 0 = .ok ("かな カナ".toList, 182) := by
  refine ⟨fun c => ?_, by decide +kernel⟩
  show (if c = 'Σ' then ['σ'] else if isMacron c then [Char.ofNat (c.toNat ||| 1)] else [toAsciiLowercase c]).length ≤ 3
  repeat' split
  all_goals simp

end WanaKana
