import Verif.Props.ToKana5
import Verif.Props.ToRomaji
import Verif.Props.Convert2
import Verif.Props.Tokenize
/-! # C89: how far a conversion depends on what follows -/

namespace WanaKana
open KNode RNode

/-! ## `to_kana` -/

theorem walk_len {m : Mode} {p : Str} {n : KNode} (hw : (tree m).walk p = some n) :
    p.length ≤ 5 ∧ (p.length = 5 → ∀ c, n.find_transition_node c = none) := by
  have h : ([Mode.normal, .obsolete, .ime].all fun m => (tree m).paths.all fun x =>
      decide (x.1.length ≤ 5) && (decide (x.1.length ≠ 5) || x.2.transitions.isEmpty)) = true := by decide +kernel
  have := walk_check (List.all_eq_true.1 h m (by cases m <;> simp)) hw
  simp only [Bool.and_eq_true, Bool.or_eq_true, decide_eq_true_iff, List.isEmpty_iff] at this
  refine ⟨this.1, fun e c => ?_⟩
  have ht := this.2.resolve_left (by omega)
  cases n with
  | mk t o =>
    simp only [KNode.transitions] at ht
    subst ht
    rfl

/-- everything but the last four characters is converted independently of what follows -/
theorem kana_stream (m : Mode) (a : Str) : ∃ p q u, a = p ++ q ∧ q.length ≤ 4 ∧
    ∀ b, kana m (a ++ b) = u ++ kana m (q ++ b) := by
  induction a using list_strong with
  | _ a ih =>
    by_cases hl : a.length ≤ 4
    · exact ⟨[], a, [], rfl, hl, fun b => rfl⟩
    · cases a with
      | nil => simp at hl
      | cons c s =>
        obtain ⟨n, k, hst⟩ := exists_stops (tree m) (c :: s)
        have hlen : (low ((c :: s).take k)).length = k := by
          have := hst.le
          simp only [KNode.low, List.length_map, List.length_take]
          omega
        have hw := walk_len hst.walk
        rw [hlen] at hw
        have hst' : ∀ b, Stops (tree m) (c :: s ++ b) n k := fun b =>
          hst.append fun e d _ => hw.2 (by omega) _
        cases ho : n.output with
        | some out =>
          have hk := stops_pos hst ho
          obtain ⟨p, q, u, e, hq, hu⟩ := ih ((c :: s).drop k) (by
            have := hst.le
            simp only [List.length_drop]
            simp only [List.length_cons] at this ⊢
            omega)
          refine ⟨(c :: s).take k ++ p, q, styled ((c :: s).take k) out ++ u, ?_, hq, fun b => ?_⟩
          · rw [List.append_assoc, ← e, List.take_append_drop]
          · rw [kana_hit (hst' b) ho, List.take_append_of_le_length hst.le, List.drop_append_of_le_length hst.le, hu,
              List.append_assoc]
        | none =>
          obtain ⟨p, q, u, e, hq, hu⟩ := ih s (by simp)
          refine ⟨c :: p, q, c :: u, by rw [e]; rfl, hq, fun b => ?_⟩
          have := kana_miss (s := s ++ b) (hst' b) ho
          rw [List.cons_append, this, hu]
          rfl

/-- **C89** `to_kana` can be run on a stream: of any text `a`, at most the last four characters `q` need to be kept
until more is known; the conversion `u` of the rest is final. -/
theorem C89_to_kana {std : Std} (hstd : std.Lawful) (a : Str) (o : Options) :
    ∃ p q u, a = p ++ q ∧ q.length ≤ 4 ∧ ∀ b, ∃ r, to_kana_with_opt std (q ++ b) o = .ok r ∧
      to_kana_with_opt std (a ++ b) o = .ok (u ++ r) := by
  obtain ⟨p, q, u, e, hq, hu⟩ := kana_stream (modeOf o) a
  exact ⟨p, q, u, e, hq, fun b => ⟨_, to_kana_eq hstd _ o, by rw [to_kana_eq hstd, hu]⟩⟩

/-- four characters are needed: with three, no `u` is right both for `sshy` and for `sshya` -/
theorem C89_four (p q u : Str) (e : "sshy".toList = p ++ q) (hq : q.length ≤ 3) :
    ¬ ∀ b, ∃ r, to_kana_with_opt modernStd (q ++ b) {} = .ok r ∧
      to_kana_with_opt modernStd ("sshy".toList ++ b) {} = .ok (u ++ r) := by
  intro h
  obtain ⟨r0, h0, k0⟩ := h []
  obtain ⟨r1, h1, k1⟩ := h ['a']
  have e0 : to_kana_with_opt modernStd ("sshy".toList ++ []) {} = .ok "sshy".toList := by decide +kernel
  have e1 : to_kana_with_opt modernStd ("sshy".toList ++ ['a']) {} = .ok "っしゃ".toList := by decide +kernel
  rw [e0, Except.ok.injEq] at k0
  rw [e1, Except.ok.injEq] at k1
  have hp : p.length + q.length = 4 := by
    have := congrArg List.length e
    simp only [List.length_append] at this
    exact this.symm
  have hr : r0.length ≤ 3 := by
    rw [List.append_nil, to_kana_eq modernStd_lawful] at h0
    cases h0
    exact Nat.le_trans (kana_length _ _) hq
  cases u with
  | nil => rw [List.nil_append] at k0; rw [← k0] at hr; exact absurd hr (by decide)
  | cons x u =>
    have hx0 := congrArg List.head? k0
    have hx1 := congrArg List.head? k1
    have : some 's' = some 'っ' := by
      have a0 : "sshy".toList.head? = some 's' := by decide
      have a1 : "っしゃ".toList.head? = some 'っ' := by decide
      rw [a0] at hx0; rw [a1] at hx1
      rw [hx0, hx1]; rfl
    exact absurd this (by decide)

/-! ## `katakana_to_hiragana` and `to_romaji` -/

/-- **C89** `katakana_to_hiragana` never revises its output -/
theorem C89_katakana_to_hiragana {std : Std} (hstd : std.Lawful) (a b ra rab : Str) (dest : Bool)
    (h1 : katakana_to_hiragana_with_opt std a dest = .ok ra)
    (h2 : katakana_to_hiragana_with_opt std (a ++ b) dest = .ok rab) : ra <+: rab := by
  rw [k2h_eq hstd] at h1 h2
  cases h1; cases h2
  rw [k2hP_append]
  exact List.prefix_append _ _

example : katakana_to_hiragana_with_opt modernStd "ラ".toList false = .ok "ら".toList ∧
    katakana_to_hiragana_with_opt modernStd "ラーメン".toList false = .ok "らあめん".toList := by decide +kernel

theorem flagged_append {std : Std} (hstd : std.Lawful) (a b : Str) : ∃ t, flagged std (a ++ b) = flagged std a ++ t := by
  have hl := k2hP_length_le hstd true a prevOk_none
  unfold flagged
  rw [k2hP_append, List.map_append]
  generalize k2hP std true none a = x at *
  have hl' : x.length ≤ (a.map is_char_katakana).length := by simpa using hl
  generalize a.map is_char_katakana = y at *
  refine ⟨(k2hP std true (k2hPrev none a) b).zip (y.drop x.length ++ b.map is_char_katakana), ?_⟩
  have e1 : y = y.take x.length ++ y.drop x.length := (List.take_append_drop _ _).symm
  conv => lhs; rw [e1, List.append_assoc]
  rw [List.zip_append (by rw [List.length_take]; omega)]
  congr 1
  conv => rhs; rw [e1]
  rw [← List.append_nil x, List.zip_append (by rw [List.append_nil, List.length_take]; omega)]
  simp

theorem rwalk_sorted {std : Std} (hstd : std.Lawful) (p : Str) : ∀ {t n : RNode}, AllSorted t →
    t.rwalk std p = some n → AllSorted n := by
  induction p with
  | nil => intro t n hs h; cases h; exact hs
  | cons c p ih =>
    intro t n hs h
    simp only [rwalk] at h
    cases hf : t.rfind std c with
    | none => rw [hf] at h; cases h
    | some x =>
      rw [hf] at h
      exact ih (hs.child (rfind_mem hstd (hs _ (self_mem_paths _)) hf)) h

/-- facts about the outputs along a path of the romaji tree -/
theorem rwalk_outputs {std : Std} (hstd : std.Lawful) {p q : Str} {n n' : RNode}
    (h1 : TO_ROMAJI_NODE_TREE.rwalk std p = some n) (h2 : n.rwalk std q = some n') (hp : p ≠ []) :
    n.output.dropLast <+: n'.output ∧ (q ≠ [] → n.output.length ≤ 4) := by
  have h : (TO_ROMAJI_NODE_TREE.paths.all fun x => decide (x.1 = []) || x.2.paths.all fun y =>
      x.2.output.dropLast.isPrefixOf y.2.output && (decide (y.1 = []) || decide (x.2.output.length ≤ 4))) = true := by
    decide +kernel
  have k := rwalk_check hstd h h1
  simp only [Bool.or_eq_true, decide_eq_true_iff, hp, false_or] at k
  have hm := rwalk_mem_paths hstd q (rwalk_sorted hstd p romaji_sorted h1) h2
  have := List.all_eq_true.1 k _ hm
  simp only [Bool.and_eq_true, Bool.or_eq_true, decide_eq_true_iff, List.isPrefixOf_iff_prefix] at this
  exact ⟨this.1, fun hq => this.2.resolve_left hq⟩

theorem rlook_walk {std : Std} (p r : Str) : ∀ {t n : RNode}, t.rwalk std p = some n →
    t.rlook std (p ++ r) = ((n.rlook std r).1, (n.rlook std r).2 + p.length) := by
  induction p with
  | nil => intro t n h; cases h; rfl
  | cons c p ih =>
    intro t n h
    simp only [rwalk] at h
    cases hf : t.rfind std c with
    | none => rw [hf] at h; cases h
    | some x =>
      rw [hf] at h
      rw [List.cons_append, rlook, hf]
      simp only []
      rw [ih h]
      simp only [List.length_cons, Nat.add_assoc]

theorem rlook_stop {std : Std} {n : RNode} {s : Str} (h : ∀ c, s.head? = some c → n.rfind std c = none) :
    n.rlook std s = (n, 0) := by
  cases s with
  | nil => rfl
  | cons c s => rw [rlook, h c rfl]

/-- cutting the text where the last lookup began -/
theorem rom_stream (std : Std) (up : Bool) (z : List (Char × Bool)) : ∃ p q u, z = p ++ q ∧
    (∃ n, TO_ROMAJI_NODE_TREE.rwalk std (q.map Prod.fst) = some n) ∧ ∀ t, rom std up (z ++ t) = u ++ rom std up (q ++ t) := by
  induction z using list_strong with
  | _ z ih =>
    cases hz : z with
    | nil => exact ⟨[], [], [], rfl, ⟨_, rfl⟩, fun t => rfl⟩
    | cons c s =>
      rw [← hz]
      have hne : z ≠ [] := by rw [hz]; exact List.cons_ne_nil _ _
      have hst := rlook_stops std (z.map Prod.fst) TO_ROMAJI_NODE_TREE
      generalize hlk : TO_ROMAJI_NODE_TREE.rlook std (z.map Prod.fst) = nk at hst
      obtain ⟨n, k⟩ := nk
      simp only [] at hst
      have hle := hst.le
      rw [List.length_map] at hle
      by_cases hk : k = z.length
      · refine ⟨[], z, [], rfl, ⟨n, ?_⟩, fun t => rfl⟩
        have := hst.walk
        rwa [hk, List.take_of_length_le (by simp)] at this
      · have hlk' : ∀ t : List (Char × Bool), TO_ROMAJI_NODE_TREE.rlook std ((z ++ t).map Prod.fst) = (n, k) := by
          intro t
          have e : (z ++ t).map Prod.fst = (z.map Prod.fst).take k ++ ((z.map Prod.fst).drop k ++ t.map Prod.fst) := by
            rw [← List.append_assoc, List.take_append_drop, List.map_append]
          rw [e, rlook_walk _ _ hst.walk, rlook_stop]
          · simp only [List.length_take, List.length_map, Nat.zero_add, Prod.mk.injEq, true_and]
            omega
          · intro d hd
            apply hst.stop
            cases hdr : (z.map Prod.fst).drop k with
            | nil =>
              have := congrArg List.length hdr
              simp only [List.length_drop, List.length_map, List.length_nil] at this
              omega
            | cons x xs => rw [hdr] at hd; simpa using hd
        have hstep : ∀ t, rStep std up (z ++ t) = rStep std up z := by
          intro t
          have h0 := hlk' []
          rw [List.append_nil] at h0
          unfold rStep
          rw [hlk', h0]
          simp only []
          have h1 : 1 ≤ z.length := by rw [hz]; simp
          rw [List.map_append, List.take_append_of_le_length (by simpa using h1), List.take_append_of_le_length hle]
        have hlt : (rStep std up z).2 ≤ z.length := by
          have h0 := hlk' []
          rw [List.append_nil] at h0
          unfold rStep
          rw [h0]
          have h1 : 1 ≤ z.length := by rw [hz]; simp
          simp only []
          split
          · exact h1
          · exact hle
        obtain ⟨p, q, u, e, hq, hu⟩ := ih (z.drop (rStep std up z).2) (by
          have := rStep_pos std up z
          rw [List.length_drop]
          have h1 : 1 ≤ z.length := by rw [hz]; simp
          omega)
        refine ⟨z.take (rStep std up z).2 ++ p, q, (rStep std up z).1 ++ u, ?_, hq, fun t => ?_⟩
        · rw [List.append_assoc, ← e, List.take_append_drop]
        · rw [rom_step std up (by simp [hne]), hstep, List.drop_append_of_le_length hlt, hu, List.append_assoc]

/-- the output at the end of a text, and what it becomes when the text goes on -/
theorem rom_open {std : Std} (up : Bool) {q : List (Char × Bool)} (hne : q ≠ []) {n : RNode}
    (hw : TO_ROMAJI_NODE_TREE.rwalk std (q.map Prod.fst) = some n) (t : List (Char × Bool)) :
    ∃ n' r w, n.rwalk std r = some n' ∧ (r = [] → n' = n) ∧
      rom std up q = (if q.all Prod.snd && up then n.output.map aUp else n.output) ∧
      rom std up (q ++ t) = (if (q ++ t.take r.length).all Prod.snd && up then n'.output.map aUp else n'.output) ++ w := by
  have hpos : 1 ≤ q.length := by cases q <;> simp_all
  refine ⟨(n.rlook std (t.map Prod.fst)).1, (t.map Prod.fst).take (n.rlook std (t.map Prod.fst)).2, ?_⟩
  have hst := rlook_stops std (t.map Prod.fst) n
  have hle := hst.le
  rw [List.length_map] at hle
  have e1 : TO_ROMAJI_NODE_TREE.rlook std (q.map Prod.fst) = (n, q.length) := by
    have := rlook_walk (q.map Prod.fst) [] hw
    rw [List.append_nil] at this
    rw [this, rlook]
    simp
  have e2 := rlook_walk (q.map Prod.fst) (t.map Prod.fst) hw
  rw [← List.map_append, List.length_map] at e2
  generalize n.rlook std (t.map Prod.fst) = nk at *
  obtain ⟨n', k⟩ := nk
  simp only [] at *
  refine ⟨rom std up ((q ++ t).drop (k + q.length)), hst.walk, ?_, ?_, ?_⟩
  · intro e
    have := hst.walk
    rw [e] at this
    cases this
    rfl
  · rw [rom_step std up hne]
    unfold rStep
    rw [e1]
    simp only []
    rw [if_neg (by omega)]
    simp only []
    rw [List.take_of_length_le (Nat.le_refl _), List.drop_of_length_le (Nat.le_refl _),
      rom_nil, List.append_nil]
  · rw [rom_step std up (by simp [hne])]
    unfold rStep
    rw [e2]
    simp only []
    rw [if_neg (by omega)]
    simp only []
    have : List.take (k + q.length) (q ++ t) = q ++ t.take k := by
      rw [List.take_append, List.take_of_length_le (by omega), Nat.add_sub_cancel]
    rw [this]
    have hl : (List.take k (t.map Prod.fst)).length = k := by
      rw [List.length_take, List.length_map]; omega
    rw [hl]

/-- **C89** `to_romaji` revises at most the last letter of its output when the text goes on (without
`upcase_katakana`) -/
theorem C89_to_romaji {std : Std} (hstd : std.Lawful) (a b ra rab : Str) (o : Options) (hu : o.upcase_katakana = false)
    (h1 : to_romaji_with_opt std a o = .ok ra) (h2 : to_romaji_with_opt std (a ++ b) o = .ok rab) :
    ra.dropLast <+: rab := by
  rw [to_romaji_eq hstd, hu] at h1 h2
  cases h1; cases h2
  obtain ⟨t, ht⟩ := flagged_append hstd a b
  rw [ht]
  obtain ⟨p, q, u, e, ⟨n, hw⟩, hu⟩ := rom_stream std false (flagged std a)
  rw [hu]
  have := hu []
  rw [List.append_nil, List.append_nil] at this
  rw [this]
  cases hq : q with
  | nil => rw [rom_nil, List.append_nil]; exact ((List.dropLast_prefix _).trans (List.prefix_append _ _))
  | cons x q' =>
    rw [← hq]
    have hne : q ≠ [] := by rw [hq]; exact List.cons_ne_nil _ _
    obtain ⟨n', r, w, hr, _, e1, e2⟩ := rom_open false hne hw t
    rw [Bool.and_false, if_neg (by decide)] at e1 e2
    rw [e1, e2]
    have hp := (rwalk_outputs hstd hw hr (by simp [hne])).1
    by_cases ho : n.output = []
    · rw [ho, List.append_nil]
      exact (List.dropLast_prefix _).trans (List.prefix_append _ _)
    · rw [List.dropLast_append_of_ne_nil ho, ← List.append_assoc]
      exact ((List.prefix_append_right_inj u).2 hp).trans (List.prefix_append _ _)

/-- **C89** with any options, `to_romaji` revises at most the last four letters of its output -/
theorem C89_to_romaji_any {std : Std} (hstd : std.Lawful) (a b ra rab : Str) (o : Options)
    (h1 : to_romaji_with_opt std a o = .ok ra) (h2 : to_romaji_with_opt std (a ++ b) o = .ok rab) :
    ra.take (ra.length - 4) <+: rab := by
  rw [to_romaji_eq hstd] at h1 h2
  cases h1; cases h2
  generalize o.upcase_katakana = up
  obtain ⟨t, ht⟩ := flagged_append hstd a b
  rw [ht]
  obtain ⟨p, q, u, e, ⟨n, hw⟩, hu⟩ := rom_stream std up (flagged std a)
  rw [hu]
  have := hu []
  rw [List.append_nil, List.append_nil] at this
  rw [this]
  cases hq : q with
  | nil => rw [rom_nil, List.append_nil]; exact ((List.take_prefix _ _).trans (List.prefix_append _ _))
  | cons x q' =>
    rw [← hq]
    have hne : q ≠ [] := by rw [hq]; exact List.cons_ne_nil _ _
    obtain ⟨n', r, w, hr, hrn, e1, e2⟩ := rom_open up hne hw t
    by_cases h0 : r = []
    · have hn := hrn h0
      subst hn
      subst h0
      rw [List.length_nil, List.take_zero, List.append_nil, ← e1] at e2
      rw [e2, ← List.append_assoc]
      exact (List.take_prefix _ _).trans (List.prefix_append _ _)
    · have hl := (rwalk_outputs hstd hw hr (by simp [hne])).2 h0
      have : (rom std up q).length ≤ 4 := by
        rw [e1]
        split
        · rwa [List.length_map]
        · exact hl
      rw [List.take_append_of_le_length (by rw [List.length_append]; omega)]
      exact (List.take_prefix _ _).trans (List.prefix_append _ _)

/-- both bounds are reached -/
theorem C89_tight :
    (to_romaji_with_opt modernStd "っし".toList {} = .ok "sshi".toList ∧
      to_romaji_with_opt modernStd "っしゃ".toList {} = .ok "ssha".toList) ∧
    to_romaji_with_opt modernStd "ッシ".toList { upcase_katakana := true } = .ok "SSHI".toList ∧
      to_romaji_with_opt modernStd "ッシゃ".toList { upcase_katakana := true } = .ok "ssha".toList := by decide +kernel

/-! ## `tokenize` -/

theorem groupLoop_stream {κ : Type} [DecidableEq κ] (key : Char → κ) (a b : Str) : ∀ (k : κ) (g : Str),
    ∃ k' g' x, groupLoop key k g (a ++ b) = (groupLoop key k g a).dropLast ++ x ∧
      (groupLoop key k g a).getLast? = some (k', g') ∧ ∃ e y, x = (k', g' ++ e) :: y := by
  have hext : ∀ (b : Str) (k : κ) (g : Str), ∃ e y, groupLoop key k g b = (k, g ++ e) :: y := by
    intro b
    induction b with
    | nil => intro k g; exact ⟨[], [], by rw [groupLoop, List.append_nil]⟩
    | cons c b ih =>
      intro k g
      rw [groupLoop]
      split
      · obtain ⟨e, y, h⟩ := ih k (g ++ [c])
        exact ⟨c :: e, y, by rw [h]; simp⟩
      · exact ⟨[], _, by rw [List.append_nil]⟩
  induction a with
  | nil =>
    intro k g
    exact ⟨k, g, groupLoop key k g b, rfl, rfl, hext b k g⟩
  | cons c a ih =>
    intro k g
    rw [List.cons_append, groupLoop, groupLoop]
    split
    · exact ih k (g ++ [c])
    · obtain ⟨k', g', x, h1, h2, h3⟩ := ih (key c) [c]
      refine ⟨k', g', x, ?_, ?_, h3⟩
      · rw [h1]
        cases hl : groupLoop key (key c) [c] a with
        | nil => rw [hl] at h2; cases h2
        | cons z zs => rfl
      · cases hl : groupLoop key (key c) [c] a with
        | nil => rw [hl] at h2; cases h2
        | cons z zs => rw [hl] at h2; rw [List.getLast?_cons_cons]; exact h2

/-- **C89** when the text goes on, all tokens but the last stay, and the last keeps its type and only grows -/
theorem C89_tokenize (a b : Str) (compact : Bool) (ha : a ≠ []) :
    ∃ init t w ext rest, tokenize_detailed a compact = init ++ [(t, w)] ∧
      tokenize_detailed (a ++ b) compact = init ++ (t, w ++ ext) :: rest := by
  cases a with
  | nil => exact absurd rfl ha
  | cons c a =>
    obtain ⟨k', g', x, h1, h2, e, y, h3⟩ := groupLoop_stream (fun elt => get_type elt compact) a b (get_type c compact) [c]
    refine ⟨_, k', g', e, y, ?_, h1.trans (by rw [h3])⟩
    have hne : groupLoop (fun elt => get_type elt compact) (get_type c compact) [c] a ≠ [] := by
      intro h; rw [h] at h2; cases h2
    have := List.dropLast_append_getLast hne
    rw [List.getLast?_eq_some_getLast hne] at h2
    rw [Option.some.inj h2] at this
    exact this.symm

example : tokenize_detailed "5romaji here...!?漢字ひ".toList true =
      [(.Other, "5".toList), (.En, "romaji here".toList), (.Other, "...!?".toList)] ++ [(.Ja, "漢字ひ".toList)] ∧
    tokenize_detailed "5romaji here...!?漢字ひらa".toList true =
      [(.Other, "5".toList), (.En, "romaji here".toList), (.Other, "...!?".toList)] ++
        (.Ja, "漢字ひ".toList ++ "ら".toList) :: [(.En, "a".toList)] := by decide +kernel

/-! ## `to_hiragana` and `to_katakana` -/

theorem kana_a (m : Mode) (n : Nat) (t : Str) : kana m (List.replicate n 'a' ++ t) = List.replicate n 'あ' ++ kana m t := by
  induction n with
  | zero => rfl
  | succ n ih =>
    have h1 : kana m ['a'] = ['あ'] := by cases m <;> decide +kernel
    have h2 : kana m (['a'] ++ (List.replicate n 'a' ++ t)) = kana m ['a'] ++ kana m (List.replicate n 'a' ++ t) :=
      kana_append _ _ (cut_of_last rfl (by decide))
    rw [h1, ih] at h2
    exact h2

theorem lower_a {std : Std} (hstd : std.Lawful) (n : Nat) :
    std.toLowercase ('１' :: (List.replicate n 'a' ++ ['あ'])) = '１' :: (List.replicate n 'a' ++ ['あ']) := by
  apply toLowercase_id
  intro c hc
  have : c = '１' ∨ c = 'a' ∨ c = 'あ' := by
    rcases List.mem_cons.1 hc with h | h
    · exact Or.inl h
    · rcases List.mem_append.1 h with h | h
      · exact Or.inr (Or.inl (List.eq_of_mem_replicate h))
      · exact Or.inr (Or.inr (List.mem_singleton.1 h))
  rcases this with rfl | rfl | rfl
  · exact settled_uncased hstd (by unfold Uncased; decide)
  · exact ⟨hstd.lowerChar_ascii _ (by decide), by decide⟩
  · exact settled_uncased hstd (by unfold Uncased; decide)

/-- **C89** `to_hiragana` and `to_katakana` have no such bound: one kana at the end can change the conversion of all
the text before it, however long. -/
theorem C89_unbounded {std : Std} (hstd : std.Lawful) (n : Nat) (o : Options) (ho : o.pass_romaji = false) :
    (to_hiragana_with_opt std ('１' :: List.replicate n 'a') o = .ok ('１' :: List.replicate n 'a') ∧
      to_hiragana_with_opt std ('１' :: (List.replicate n 'a' ++ ['あ'])) o = .ok ('１' :: (List.replicate n 'あ' ++ ['あ']))) ∧
    (to_katakana_with_opt std ('１' :: List.replicate n 'a') o = .ok ('１' :: List.replicate n 'a') ∧
      to_katakana_with_opt std ('１' :: (List.replicate n 'a' ++ ['あ'])) o = .ok ('１' :: (List.replicate n 'ア' ++ ['ア']))) := by
  have hmem : ∀ c ∈ '１' :: List.replicate n 'a', c = '１' ∨ c = 'a' := fun c hc =>
    (List.mem_cons.1 hc).imp_right List.eq_of_mem_replicate
  have h1 := C59_other hstd ('１' :: List.replicate n 'a') o
    (fun c hc => by rcases hmem c hc with rfl | rfl <;> decide) ⟨'１', List.mem_cons_self, by decide⟩
  have hk : ∀ m, kana m ('１' :: (List.replicate n 'a' ++ ['あ'])) = '１' :: (List.replicate n 'あ' ++ ['あ']) := by
    intro m
    have e1 : kana m ['あ'] = ['あ'] := by cases m <;> decide +kernel
    have e2 : kana m ['１'] = ['１'] := by cases m <;> decide +kernel
    have h2 : kana m (['１'] ++ (List.replicate n 'a' ++ ['あ'])) = kana m ['１'] ++ kana m (List.replicate n 'a' ++ ['あ']) :=
      kana_append _ _ (cut_of_last rfl (by decide))
    rw [kana_a, e1, e2] at h2
    exact h2
  have hid : k2hP std false none ('１' :: (List.replicate n 'a' ++ ['あ'])) = '１' :: (List.replicate n 'a' ++ ['あ']) := by
    have := C23_unchanged hstd ('１' :: (List.replicate n 'a' ++ ['あ'])) false (fun c hc hkk => by
      exfalso
      rcases List.mem_cons.1 hc with rfl | h
      · revert hkk; decide
      · rcases List.mem_append.1 h with h | h
        · rw [List.eq_of_mem_replicate h] at hkk; revert hkk; decide
        · rw [List.mem_singleton.1 h] at hkk; revert hkk; decide)
    rw [k2h_eq hstd] at this
    exact Except.ok.inj this
  have hrest : n ≠ 0 → is_mixed ('１' :: (List.replicate n 'a' ++ ['あ'])) = true := fun h0 =>
    (C04_is_mixed _).2 ⟨⟨'あ', by simp, by decide⟩, ⟨'a', by simp [h0], by decide⟩⟩
  have hshift : ('１' :: (List.replicate n 'あ' ++ ['あ'])).map h2kP = '１' :: (List.replicate n 'ア' ++ ['ア']) := by
    rw [List.map_cons, List.map_append, List.map_replicate]
    rfl
  refine ⟨⟨h1.2.1 ?_, ?_⟩, h1.1, ?_⟩
  · intro c hc
    cases hc
    decide
  · rw [to_hiragana_eq hstd, hiraP, ho, if_neg (by decide)]
    by_cases h0 : n = 0
    · subst h0
      rw [hid]
      rw [if_neg (by decide), if_neg (by decide)]
      rfl
    · rw [if_pos (hrest h0), hid, lower_a hstd, hk]
  · rw [to_katakana_eq hstd, kataP, ho, if_neg (by decide)]
    by_cases h0 : n = 0
    · subst h0
      rw [if_neg (by decide)]
      rfl
    · rw [if_pos (by rw [hrest h0, Bool.or_true]), lower_a hstd, hk, hshift]

end WanaKana
