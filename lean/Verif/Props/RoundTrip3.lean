import Verif.Props.RoundTrip2
/-! # C85: exactly which texts in both scripts survive the trip kana → romaji → kana with `upcase_katakana` -/

namespace WanaKana
open RNode KNode
open Spec (toHira toKata kanaTable)

/-! ## the number of long vowel marks -/

theorem aUp_dash {c : Char} : aUp c = '-' ↔ c = '-' := by
  constructor
  · intro h
    apply char_ext
    have := congrArg Char.toNat h
    rw [aUp_toNat] at this
    simp only [Char.reduceToNat] at *
    split at this <;> omega
  · rintro rfl; decide

theorem count_map_aUp (l : Str) : (l.map aUp).count '-' = l.count '-' := by
  induction l with
  | nil => rfl
  | cons c l ih =>
    rw [List.map_cons, List.count_cons, List.count_cons, ih]
    have : (aUp c == '-') = (c == '-') := by
      rw [Bool.eq_iff_iff, beq_iff_eq, beq_iff_eq, aUp_dash]
    rw [this]

/-- every ー of the converted kana is a hyphen of the romaji -/
theorem rom_count {std : Std} (hstd : std.Lawful) (up : Bool) : ∀ z : List (Char × Bool),
    (rom std up z).count '-' = (z.map Prod.fst).count 'ー' + (z.map Prod.fst).count '-' := by
  intro z
  induction z using rom_ind (std := std) with
  | nil => rw [rom_nil]; rfl
  | miss c b z h ih =>
    rw [rom_miss h, List.map_cons, List.count_cons, List.count_cons, List.count_cons, ih]
    have : c ≠ 'ー' := by
      rintro rfl
      obtain ⟨n, hn⟩ := root_some hstd (c := 'ー') (by decide)
      rw [hn] at h; cases h
    have h2 : (c == 'ー') = false := by simpa using this
    rw [h2]
    simp
    omega
  | hit z n k hk h ih =>
    have hc : (TO_ROMAJI_NODE_TREE.paths.all fun x => decide (x.2.output.count '-' = x.1.count 'ー' ∧ x.1.count '-' = 0) ||
        x.1 == []) = true := by decide +kernel
    have hw := rwalk_check hstd hc h.walk
    simp only [Bool.or_eq_true, decide_eq_true_iff, beq_iff_eq] at hw
    have hne : (z.map Prod.fst).take k ≠ [] := by
      intro e
      have h1 := congrArg List.length e
      have h2 := h.le
      rw [List.length_take, List.length_nil] at h1
      omega
    obtain ⟨h1, h2⟩ := hw.resolve_right hne
    have e : (z.map Prod.fst).count 'ー' = ((z.map Prod.fst).take k).count 'ー' + ((z.drop k).map Prod.fst).count 'ー' := by
      rw [← List.count_append, List.map_drop, List.take_append_drop]
    have e' : (z.map Prod.fst).count '-' = ((z.map Prod.fst).take k).count '-' + ((z.drop k).map Prod.fst).count '-' := by
      rw [← List.count_append, List.map_drop, List.take_append_drop]
    rw [rom_hit h hk, List.count_append, ih, e, e', h2]
    split
    · rw [count_map_aUp, h1]; omega
    · rw [h1]; omega

/-- no ー is left -/
theorem rom_no_bar {std : Std} (hstd : std.Lawful) (up : Bool) : ∀ z : List (Char × Bool), 'ー' ∉ rom std up z := by
  intro z
  induction z using rom_ind (std := std) with
  | nil => rw [rom_nil]; simp
  | miss c b z h ih =>
    rw [rom_miss h]
    intro hm
    rcases List.mem_cons.1 hm with rfl | hm
    · obtain ⟨n, hn⟩ := root_some hstd (c := 'ー') (by decide)
      rw [hn] at h; cases h
    · exact ih hm
  | hit z n k hk h ih =>
    have hc : (TO_ROMAJI_NODE_TREE.paths.all fun x => x.2.output.all fun c => decide (c.toNat < 0x3000)) = true := by
      decide +kernel
    have hw := List.all_eq_true.1 (rwalk_check hstd hc h.walk)
    rw [rom_hit h hk]
    intro hm
    rcases List.mem_append.1 hm with hm | hm
    · split at hm
      · obtain ⟨c, hc, e⟩ := List.mem_map.1 hm
        have h1 := of_decide_eq_true (hw c hc)
        rw [char_eq_iff, aUp_toNat] at e
        simp only [Char.reduceToNat] at e
        split at e <;> omega
      · exact absurd (of_decide_eq_true (hw _ hm)) (by decide)
    · exact ih hm

theorem styled_count (x out : Str) : (styled x out).count 'ー' = out.count 'ー' := by
  unfold styled
  split
  · induction out with
    | nil => rfl
    | cons c l ih =>
      rw [List.map_cons, List.count_cons, List.count_cons, ih]
      have : (h2kP c == 'ー') = (c == 'ー') := by
        rw [Bool.eq_iff_iff, beq_iff_eq, beq_iff_eq, char_eq_iff, char_eq_iff, h2kP_toNat]
        simp only [Char.reduceToNat]
        split <;> omega
      rw [this]
  · rfl

theorem low_count (x : Str) : (low x).count '-' = x.count '-' := by
  induction x with
  | nil => rfl
  | cons c l ih =>
    show (toAsciiLowercase c :: low l).count '-' = _
    rw [List.count_cons, List.count_cons, ih]
    have : (toAsciiLowercase c == '-') = (c == '-') := by
      rw [Bool.eq_iff_iff, beq_iff_eq, beq_iff_eq, char_eq_iff, char_eq_iff, toAsciiLowercase_toNat]
      simp only [Char.reduceToNat]
      split <;> omega
    rw [this]

/-- every hyphen becomes ー -/
theorem kana_count (m : Mode) : ∀ r : Str, (kana m r).count 'ー' = r.count '-' + r.count 'ー' ∧ '-' ∉ kana m r := by
  intro r
  induction r using list_strong with
  | _ r ih =>
    cases r with
    | nil => rw [kana_nil]; exact ⟨rfl, by simp⟩
    | cons c r =>
      obtain ⟨n, k, hst⟩ := KNode.exists_stops (tree m) (c :: r)
      cases ho : n.output with
      | none =>
        rw [kana_miss hst ho]
        have hc : c ≠ '-' := by
          rintro rfl
          have hroot : ((tree m).find_transition_node (toAsciiLowercase '-')).isSome = true := by
            cases m <;> decide +kernel
          have hone : (match (tree m).find_transition_node '-' with
            | some x => x.output.isSome && x.transitions.isEmpty
            | none => false) = true := by cases m <;> decide +kernel
          have hlow : toAsciiLowercase '-' = '-' := by decide
          cases hf : (tree m).find_transition_node '-' with
          | none => rw [hlow, hf] at hroot; cases hroot
          | some x =>
            rw [hf] at hone
            simp only [Bool.and_eq_true, List.isEmpty_iff] at hone
            have hs' : KNode.Stops (tree m) ('-' :: r) x 1 :=
              ⟨by simp, by
                show (tree m).walk [toAsciiLowercase '-'] = some x
                rw [hlow, KNode.walk_singleton, hf], fun d _ => find_none_of_leaf hone.2 _⟩
            have e1 := stops_unique _ hst
            rw [stops_unique _ hs'] at e1
            injection e1 with e1 _
            rw [← e1] at ho
            rw [ho] at hone
            exact absurd hone.1 (by simp)
        obtain ⟨i1, i2⟩ := ih r (by simp)
        rw [List.count_cons, List.count_cons, List.count_cons, i1]
        have h2 : (c == '-') = false := by simpa using hc
        rw [h2]
        refine ⟨by simp; omega, ?_⟩
        intro h
        rcases List.mem_cons.1 h with h | h
        · exact hc h.symm
        · exact i2 h
      | some out =>
        have hk := stops_pos hst ho
        obtain ⟨i1, i2⟩ := ih ((c :: r).drop k) (by simp [List.length_drop]; omega)
        have hcheck : allModes (fun _ x => match x.2.output with
          | none => true
          | some out => decide (out.count 'ー' = x.1.count '-' ∧ x.1.count 'ー' = 0)) = true := by decide +kernel
        have h1 := allModes_walk hcheck hst.walk
        simp only [ho, decide_eq_true_iff] at h1
        rw [low_count] at h1
        have hge := styled_ge hst.walk ho ((c :: r).take k)
        have hk0 : ((c :: r).take k).count 'ー' = 0 := by
          apply List.count_eq_zero.2
          intro hm
          have : 'ー' ∈ low ((c :: r).take k) := by
            have := List.mem_map_of_mem (f := toAsciiLowercase) hm
            exact this
          exact absurd h1.2 (by have := List.count_pos_iff.2 this; omega)
        have e : (c :: r).count '-' = ((c :: r).take k).count '-' + ((c :: r).drop k).count '-' := by
          rw [← List.count_append, List.take_append_drop]
        have e' : (c :: r).count 'ー' = ((c :: r).take k).count 'ー' + ((c :: r).drop k).count 'ー' := by
          rw [← List.count_append, List.take_append_drop]
        rw [kana_hit hst ho, List.count_append, styled_count, h1.1, i1, e, e', hk0]
        refine ⟨by omega, ?_⟩
        intro h
        rcases List.mem_append.1 h with h | h
        · exact absurd (hge _ h) (by decide)
        · exact i2 h

theorem toHira_bar {c : Char} : toHira c = 'ー' ↔ c = 'ー' := by
  rw [char_eq_iff, char_eq_iff, toHira_toNat]
  simp only [Char.reduceToNat]
  repeat' split
  all_goals omega

/-- if no ー is lost, none prolongs a katakana letter -/
theorem hiraFromV_count (x : Char) (s : Str) : ∀ pre,
    (Spec.hiraFromV x true pre s).count 'ー' ≤ s.count 'ー' ∧
    ((Spec.hiraFromV x true pre s).count 'ー' = s.count 'ー' → ∀ a b, s = a ++ 'ー' :: b → ∀ g,
      Spec.governing (pre ++ a) = some g → ¬ Spec.KatakanaLetter g) := by
  induction s with
  | nil => intro pre; exact ⟨Nat.le_refl _, fun _ a b e => by simp at e⟩
  | cons c s ih =>
    intro pre
    obtain ⟨i1, i2⟩ := ih (pre ++ [c])
    rw [Spec.hiraFromV, List.count_append, List.count_cons]
    by_cases hc : c = 'ー'
    · subst hc
      rw [if_pos rfl]
      have hm : (Spec.markAfterV x true pre).count 'ー' ≤ 1 ∧ ((Spec.markAfterV x true pre).count 'ー' = 1 →
          ∀ g, Spec.governing pre = some g → ¬ Spec.KatakanaLetter g) := by
        unfold Spec.markAfterV
        cases hg : Spec.governing pre with
        | none => exact ⟨by simp, fun _ g h => by cases h⟩
        | some g =>
          simp only
          split
          · have : (Spec.longVowelV x true (toHira g)).count 'ー' = 0 := by
              apply List.count_eq_zero.2
              intro h
              unfold Spec.longVowelV Spec.longVowel at h
              repeat' split at h
              all_goals simp at h
            rw [this]
            exact ⟨by omega, fun h => by omega⟩
          · next h => exact ⟨by simp, fun _ g' hg' => by cases hg'; exact h⟩
      refine ⟨by simp; omega, fun h a b e g hg => ?_⟩
      simp only [beq_self_eq_true, if_true] at h
      cases a with
      | nil => exact hm.2 (by omega) g (by simpa using hg)
      | cons d a =>
        injection e with e1 e2
        subst e1
        exact i2 (by omega) a b e2 g (by simpa using hg)
    · rw [if_neg hc]
      have h0 : [toHira c].count 'ー' = 0 := by
        apply List.count_eq_zero.2
        intro h
        exact hc (toHira_bar.1 (List.mem_singleton.1 h).symm)
      have h2 : (c == 'ー') = false := by simpa using hc
      rw [h0, h2]
      refine ⟨by simp; omega, fun h a b e g hg => ?_⟩
      cases a with
      | nil => injection e with e1 _; exact absurd e1 hc
      | cons d a =>
        injection e with e1 e2
        subst e1
        exact i2 (by simpa using h) a b e2 g (by simpa using hg)

/-- a text that survives has no long vowel mark after katakana -/
theorem survives_dash {std : Std} (hstd : std.Lawful) {s r : Str} {o o' : Options}
    (h1 : to_romaji_with_opt std s o = .ok r) (h2 : to_kana_with_opt std r o' = .ok s) :
    ∀ a b, s = a ++ 'ー' :: b → ∀ g, Spec.governing a = some g → ¬ Spec.KatakanaLetter g := by
  rw [to_romaji_eq hstd] at h1
  cases h1
  rw [to_kana_eq hstd] at h2
  have h2 : kana (modeOf o') (rom std o.upcase_katakana (flagged std s)) = s := by injection h2
  have hm2 := k2hP_hiraFromV hstd true s []
  rw [show k2hPrev none [] = none from rfl] at hm2
  have hkc := kana_count (modeOf o') (rom std o.upcase_katakana (flagged std s))
  rw [h2, rom_count hstd, flagged_fst hstd, hm2] at hkc
  rw [List.count_eq_zero.2 (rom_no_bar hstd _ _)] at hkc
  have hd : (Spec.hiraFromV (vuOf std) true [] s).count '-' = 0 := by
    apply List.count_eq_zero.2
    intro h
    rcases hiraFromV_mem _ _ _ _ _ h with ⟨c, hc, e⟩ | h
    · have : c = '-' := by
        rw [char_eq_iff, toHira_toNat] at e
        apply char_ext
        simp only [Char.reduceToNat] at *
        repeat' split at e
        all_goals omega
      rw [this] at hc
      exact hkc.2 hc
    · exact absurd h (by decide)
  have hc := hiraFromV_count (vuOf std) s []
  intro a b e g hg
  exact hc.2 (by omega) a b e g hg

/-! ## pieces in both scripts -/

/-- a piece of the text with its romaji, in capitals if it is all katakana -/
def CPiece (p : Str × Str) : Prop :=
  (∃ out, (p.1.map toHira, out) ∈ kanaTable ∧ p.2 = if p.1.all is_char_katakana then out.map aUp else out) ∨
  ∃ c, p = ([c], [toHira c]) ∧ (Copied (toHira c) ∧ ¬ Spec.AsciiLetter (toHira c) ∨ toHira c ∈ latinMarks)

/-- ん is not cut off from a following vowel or y-kana -/
def NGreedy : List (Str × Str) → Prop
  | [] => True
  | p :: ps => (p.1.map toHira = ['ん'] → ∀ c, ((ps.map Prod.fst).flatten).head? = some c → toHira c ∉ Spec.vowelOrY) ∧
      NGreedy ps

theorem n_children {std : Std} (hstd : std.Lawful) {n : RNode} (hw : TO_ROMAJI_NODE_TREE.rwalk std ['ん'] = some n)
    {c : Char} (hc : c ∈ Spec.vowelOrY) : n.rfind std c ≠ none := by
  have h : (TO_ROMAJI_NODE_TREE.paths.all fun x => x.1 != ['ん'] ||
      Spec.vowelOrY.all fun v => x.2.ts.any fun t => t.1 == v) = true := by decide +kernel
  have := rwalk_check hstd h hw
  simp only [bne_self_eq_false, Bool.false_or, List.all_eq_true, List.any_eq_true, beq_iff_eq] at this
  obtain ⟨t, ht, e⟩ := this c hc
  obtain ⟨y, hy⟩ := rfind_isSome hstd hw (c := c) (x := t.2) (by rw [← e]; exact ht)
  rw [hy]; simp

theorem shifted_all (s : Str) : (shifted s).all Prod.snd = s.all is_char_katakana := by
  unfold shifted
  rw [List.all_map]
  congr 1
  funext c
  simp only [Function.comp_apply]
  rw [Bool.eq_iff_iff, decide_eq_true_iff, specKatakana_iff, is_char_katakana_iff]

theorem cased_pieces {std : Std} (hstd : std.Lawful) : ∀ s : Str,
    (∀ c ∈ s, plainChar (toHira c) = true ∧ ¬ Spec.AsciiLetter (toHira c) ∧ toHira c ≠ '\'') →
    ∃ ps : List (Str × Str), s = (ps.map Prod.fst).flatten ∧
      rom std true (shifted s) = (ps.map Prod.snd).flatten ∧ (∀ p ∈ ps, CPiece p) ∧ NGreedy ps := by
  suffices H : ∀ z : List (Char × Bool), ∀ s : Str, z = shifted s →
      (∀ c ∈ s, plainChar (toHira c) = true ∧ ¬ Spec.AsciiLetter (toHira c) ∧ toHira c ≠ '\'') →
      ∃ ps : List (Str × Str), s = (ps.map Prod.fst).flatten ∧
        rom std true z = (ps.map Prod.snd).flatten ∧ (∀ p ∈ ps, CPiece p) ∧ NGreedy ps by
    intro s; exact H _ s rfl
  intro z
  induction z using rom_ind (std := std) with
  | nil =>
    intro s e _
    cases s with
    | nil => exact ⟨[], rfl, by rw [rom_nil]; rfl, by simp, trivial⟩
    | cons c s => cases e
  | miss c b z h ih =>
    intro s e hs
    cases s with
    | nil => cases e
    | cons d s =>
      have e1 : c = toHira d := by
        have := congrArg (fun l => (l.map Prod.fst).head?) e
        simpa [shifted] using this
      have e2 : z = shifted s := by
        injection e
      obtain ⟨ps, h0, h1, h2, h3⟩ := ih s e2 fun x hx => hs x (List.mem_cons_of_mem _ hx)
      obtain ⟨p1, p2, p3⟩ := hs d List.mem_cons_self
      rw [← e1] at p1 p2 p3
      have hkey : romajiKey c = false := by
        cases hk : romajiKey c with
        | false => rfl
        | true =>
          obtain ⟨n, hn⟩ := root_some hstd hk
          rw [hn] at h; cases h
      refine ⟨([d], [c]) :: ps, by rw [List.map_cons, List.flatten_cons, ← h0]; rfl, by rw [rom_miss h, h1]; rfl, ?_, ?_, h3⟩
      · intro p hp
        rcases List.mem_cons.1 hp with rfl | hp
        · right
          refine ⟨d, by rw [e1], ?_⟩
          rw [← e1]
          cases hh : headChar (toAsciiLowercase c) with
          | false => exact Or.inl ⟨⟨hh, p3, hkey, p1⟩, p2⟩
          | true =>
            right
            rw [headChar_iff, toAsciiLowercase_toNat] at hh
            unfold Spec.AsciiLetter Spec.In at p2
            simp only [latinMarks, List.mem_cons, List.not_mem_nil, or_false, char_eq_iff, Char.reduceToNat] at hh ⊢
            split at hh <;> omega
        · exact h2 p hp
      · intro hn
        have : c = 'ん' := by
          rw [e1]; simpa using hn
        subst this
        exact absurd hkey (by decide)
  | hit z n k hk h ih =>
    intro s e hs
    subst e
    obtain ⟨ps, h0, h1, h2, h3⟩ := ih (s.drop k) (by unfold shifted; rw [List.map_drop]) fun x hx => hs x (List.mem_of_mem_drop hx)
    have hle : k ≤ s.length := by simpa [shifted_fst] using h.le
    have hw : TO_ROMAJI_NODE_TREE.rwalk std ((s.take k).map toHira) = some n := by
      have := h.walk
      rwa [shifted_fst, ← List.map_take] at this
    refine ⟨(s.take k, if (s.take k).all is_char_katakana then n.output.map aUp else n.output) :: ps, ?_, ?_, ?_, ?_, h3⟩
    · rw [List.map_cons, List.flatten_cons, ← h0, List.take_append_drop]
    · rw [rom_hit h hk, h1, List.map_cons, List.flatten_cons]
      congr 1
      have : ((shifted s).take k).all Prod.snd = (s.take k).all is_char_katakana := by
        rw [← shifted_all]; unfold shifted; rw [List.map_take]
      rw [this, Bool.and_true]
    · intro p hp
      rcases List.mem_cons.1 hp with rfl | hp
      · left
        refine ⟨n.output, ?_, rfl⟩
        have hq : ∀ c ∈ (s.take k).map toHira, plainChar c = true := by
          intro c hc
          obtain ⟨x, hx, rfl⟩ := List.mem_map.1 hc
          exact (hs x (List.mem_of_mem_take hx)).1
        have hne : (s.take k).map toHira ≠ [] := by
          intro e
          have h1 := congrArg List.length e
          rw [List.length_map, List.length_take, List.length_nil] at h1
          omega
        simp only
        generalize (s.take k).map toHira = q at hw hq hne
        cases q with
        | nil => exact absurd rfl hne
        | cons c q =>
          exact mem_of_lookup (table_of_mwalk (n := n) (c := c) (q := q)
            (fun hm => absurd (hq _ hm) (by decide)) (fun hm => absurd (hq _ hm) (by decide)) hstd hw)
      · exact h2 p hp
    · intro hn c hc hv
      simp only at hn
      rw [hn] at hw
      rw [← h0] at hc
      apply n_children hstd hw hv
      apply h.stop
      rw [shifted_fst, ← List.map_drop, List.head?_map, hc]
      rfl

/-- regular katakana -/
def regKata (m : Mode) (k : Str) : Bool :=
  (Spec.regularSyllables (obsOf m)).contains (k.map toHira) && decide ((k.map toHira).map toKata = k)

def tsus : List Char := ['っ', 'ッ']

/-- what the proof needs of a row of the table (`k` and `u` both in one script) -/
def rowCheck (m : Mode) (bad : Char → Bool) (k u : Str) : Bool :=
  (u == [] && (k == ['っ'] || k == ['ッ'])) || (u == ['n'] && (k == ['ん'] || k == ['っ', 'ん'])) ||
  (u == ['N'] && (k == ['ン'] || k == ['ッ', 'ン'])) ||
  (match u with
    | [] => false
    | c :: _ => toAsciiLowercase c != '\'' &&
      (match u.getLast? with
        | some c => !("bcdfghjklmnpqrstvwxyz".toList.contains (toAsciiLowercase c))
        | none => false) &&
      (decide (kana m u = k) && (regKey m k || regKata m k) || differ (kana m u) k) &&
      ((kana m u).all fun c => !bad c) &&
      (match kana m u with
        | [] => false
        | x :: r => !tsus.contains x || ((match k with
          | [] => false
          | y :: _ => tsus.contains y) && (match r with
          | [] => false
          | y :: _ => !tsus.contains y))) &&
      (!['a', 'i', 'u', 'e', 'o', 'y'].contains (toAsciiLowercase c) || ['n', 'N'].all fun n => match kana m (n :: u) with
        | [] => false
        | x :: _ => !['っ', 'ッ', 'ん', 'ン'].contains x))

def badHira (c : Char) : Bool := decide (Spec.KatakanaLetter c) && c != 'ヵ' && c != 'ヶ'
def badKata (c : Char) : Bool := ['ヷ', 'ヸ', 'ヹ', 'ヺ'].contains c

set_option maxHeartbeats 2000000 in
theorem rows_hira (m : Mode) (hm : m ≠ .ime) : (kanaTable.all fun x => rowCheck m badHira x.1 x.2) = true := by
  cases m with
  | normal => decide +kernel
  | obsolete => decide +kernel
  | ime => exact absurd rfl hm

set_option maxHeartbeats 2000000 in
theorem rows_kata (m : Mode) (hm : m ≠ .ime) :
    (kanaTable.all fun x => rowCheck m badKata (x.1.map toKata) (x.2.map aUp)) = true := by
  cases m with
  | normal => decide +kernel
  | obsolete => decide +kernel
  | ime => exact absurd rfl hm

theorem rows_marks (m : Mode) (hm : m ≠ .ime) : (latinMarks.all fun c => rowCheck m badHira [c] [c]) = true := by
  cases m with
  | normal => decide +kernel
  | obsolete => decide +kernel
  | ime => exact absurd rfl hm

end WanaKana
