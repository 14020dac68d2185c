import Verif.Props.RomajiCut
import Verif.Spec.RomajiPairs
/-! # C81: exactly which pairs of characters are romanized together -/

namespace WanaKana
open RNode

/-- neighbouring keys on a path of the tree -/
def pairT (x y : Char) : Bool :=
  (x == 'っ' && y != 'っ') || (x == 'ん' && Spec.afterN.contains y) ||
    (Spec.contractionHeads.contains x && Spec.smallKana.contains y)

theorem rwalk_pairT {std : Std} (hstd : std.Lawful) {p : Str} {x y : Char} {n : RNode}
    (h : TO_ROMAJI_NODE_TREE.rwalk std (p ++ [x, y]) = some n) : pairT x y = true := by
  have hc : (TO_ROMAJI_NODE_TREE.paths.all fun q => match q.1.reverse with
      | y :: x :: _ => pairT x y
      | _ => true) = true := by decide +kernel
  have := rwalk_check hstd hc h
  simpa using this

/-- conversion of a concatenation, cut where the tree does not continue -/
theorem rom_append_pairT {std : Std} (hstd : std.Lawful) (up : Bool) (w : List (Char × Bool)) :
    ∀ z : List (Char × Bool), (∀ x y, z.getLast? = some x → w.head? = some y → pairT x.1 y.1 = false) →
    rom std up (z ++ w) = rom std up z ++ rom std up w := by
  intro z
  induction z using rom_ind (std := std) with
  | nil => intro _; rw [rom_nil]; rfl
  | miss c b z h ih =>
    intro hw
    rw [List.cons_append, rom_miss h, rom_miss h, ih]
    · rfl
    · intro x y hx hy
      apply hw x y _ hy
      cases z with
      | nil => cases hx
      | cons d z => rw [List.getLast?_cons_cons]; exact hx
  | hit z n k hk h ih =>
    intro hw
    have hle := h.le
    rw [List.length_map] at hle
    have h' : RStops std TO_ROMAJI_NODE_TREE ((z ++ w).map Prod.fst) n k := by
      rw [List.map_append]
      apply h.append
      intro hke c hc
      rw [List.head?_map] at hc
      obtain ⟨y, hy, rfl⟩ := Option.map_eq_some_iff.1 hc
      cases hf : n.rfind std y.1 with
      | none => rfl
      | some m =>
        exfalso
        rw [List.length_map] at hke
        have hwk := h.walk
        rw [hke, ← List.length_map (f := Prod.fst) (as := z), List.take_length] at hwk
        have hz : z ≠ [] := by intro e; rw [e] at hke; exact hk hke
        have hlast := hw (z.getLast hz) y (List.getLast?_eq_some_getLast hz) hy
        have hsplit : z.map Prod.fst = z.dropLast.map Prod.fst ++ [(z.getLast hz).1] := by
          conv => lhs; rw [← List.dropLast_concat_getLast hz]
          simp
        have hp : TO_ROMAJI_NODE_TREE.rwalk std (z.dropLast.map Prod.fst ++ [(z.getLast hz).1, y.1]) = some m := by
          have := rwalk_append (std := std) (z.map Prod.fst) [y.1] TO_ROMAJI_NODE_TREE
          rw [hwk] at this
          simp only [rwalk_singleton] at this
          rw [hsplit] at this
          simpa [hf] using this
        rw [rwalk_pairT hstd hp] at hlast
        cases hlast
    rw [rom_hit h' hk, rom_hit h hk, List.take_append_of_le_length hle, List.drop_append_of_le_length hle, ih,
      List.append_assoc]
    intro x y hx hy
    apply hw x y _ hy
    rw [List.getLast?_drop] at hx
    split at hx
    · cases hx
    · exact hx

/-! ## っ in front of what it does not change -/

/-- the node of っ -/
def sokuonNode : RNode := (TO_ROMAJI_NODE_TREE.mfind 'っ').getD (.mk none [])

/-- what follows っ without being changed -/
def sokuonKept : List Char :=
  "　、。「」『』〜ぁあぃいぅうぇえぉおなにぬねのゃやゅゆょよ・ー！（）：？［］｛｝".toList

theorem sokuonNode_walk {std : Std} (hstd : std.Lawful) :
    TO_ROMAJI_NODE_TREE.rfind std 'っ' = some sokuonNode := by
  have := rwalk_eq_mwalk hstd ['っ'] (by decide)
  rw [rwalk_singleton] at this
  rw [this]
  rfl

set_option maxRecDepth 100000 in
theorem sokuonNode_output : sokuonNode.output = [] := rfl

set_option maxRecDepth 100000 in
theorem sokuonKept_same : sokuonKept.map sokuonNode.mfind = sokuonKept.map TO_ROMAJI_NODE_TREE.mfind := rfl

theorem mem_map_eq {α β : Type} {f g : α → β} {l : List α} (h : l.map f = l.map g) {x : α} (hx : x ∈ l) : f x = g x := by
  induction l with
  | nil => cases hx
  | cons y l ih =>
    rw [List.map_cons, List.map_cons, List.cons.injEq] at h
    rcases List.mem_cons.1 hx with rfl | hx
    · exact h.1
    · exact ih h.2 hx

theorem sokuon_rfind {std : Std} (hstd : std.Lawful) {y : Char} (hy : y ∈ sokuonKept) :
    sokuonNode.rfind std y = TO_ROMAJI_NODE_TREE.rfind std y := by
  have hv : y ≠ 'ゔ' := by intro e; subst e; revert hy; decide +kernel
  have hp : (['っ'], sokuonNode) ∈ TO_ROMAJI_NODE_TREE.paths := by
    apply rwalk_mem_paths hstd _ romaji_sorted
    rw [rwalk_singleton]; exact sokuonNode_walk hstd
  rw [rfind_eq_mfind hstd hp hv, rfind_eq_mfind hstd (self_mem_paths _) hv]
  exact mem_map_eq sokuonKept_same hy

theorem sokuon_cases {std : Std} (hstd : std.Lawful) {y : Char} (hy : y ∉ Spec.changedBySokuon) :
    sokuonNode.rfind std y = none ∨ y ∈ sokuonKept := by
  cases hf : sokuonNode.rfind std y with
  | none => exact Or.inl rfl
  | some x =>
    right
    have hp : (['っ'], sokuonNode) ∈ TO_ROMAJI_NODE_TREE.paths := by
      apply rwalk_mem_paths hstd _ romaji_sorted
      rw [rwalk_singleton]; exact sokuonNode_walk hstd
    have hm := rfind_mem hstd (romaji_sorted _ hp) hf
    have hc : (sokuonNode.ts.all fun t => Spec.changedBySokuon.contains t.1 || sokuonKept.contains t.1) = true := by
      decide +kernel
    have := List.all_eq_true.1 hc _ hm
    simpa [hy] using this

/-- the path of a child -/
theorem rstops_cons {std : Std} {t x n : RNode} {c : Char} {s : Str} {k : Nat} (hf : t.rfind std c = some x)
    (h : RStops std x s n k) : RStops std t (c :: s) n (k + 1) := by
  refine ⟨by have := h.le; simpa using this, ?_, ?_⟩
  · rw [List.take_succ_cons, rwalk, hf]; exact h.walk
  · simpa using h.stop

theorem rstops_uncons {std : Std} {t x n : RNode} {c : Char} {s : Str} {k : Nat} (hf : t.rfind std c = some x)
    (h : RStops std t (c :: s) n k) : ∃ j, k = j + 1 ∧ RStops std x s n j := by
  obtain ⟨e1, e2⟩ := rstops_unique _ h (rstops_cons hf (rlook_stops std s x))
  subst e1 e2
  exact ⟨_, rfl, rlook_stops std s x⟩

/-- っ is lost in front of what it does not change -/
theorem rom_sokuon {std : Std} (hstd : std.Lawful) (f : Bool) (w : List (Char × Bool))
    (hw : ∀ y, w.head? = some y → y.1 ∉ Spec.changedBySokuon) :
    rom std false (('っ', f) :: w) = rom std false w := by
  cases w with
  | nil =>
    have h : RStops std TO_ROMAJI_NODE_TREE ([(('っ' : Char), f)].map Prod.fst) sokuonNode 1 :=
      rstops_cons (sokuonNode_walk hstd) (n := sokuonNode) (s := []) (k := 0) ⟨by simp, rfl, by simp⟩
    rw [rom_hit h (by decide), sokuonNode_output]
    simp
  | cons y w =>
    rcases sokuon_cases hstd (hw y rfl) with hn | hk
    · have h : RStops std TO_ROMAJI_NODE_TREE ((('っ', f) :: y :: w).map Prod.fst) sokuonNode 1 :=
        rstops_cons (sokuonNode_walk hstd) (n := sokuonNode) (s := _) (k := 0)
          ⟨by simp, rfl, by intro d hd; simp at hd; subst hd; exact hn⟩
      rw [rom_hit h (by decide), sokuonNode_output]
      simp
    · obtain ⟨x, hx⟩ : ∃ x, TO_ROMAJI_NODE_TREE.rfind std y.1 = some x := by
        apply root_some hstd
        have hc : (sokuonKept.all romajiKey) = true := by decide +kernel
        exact List.all_eq_true.1 hc _ hk
      have hx' := hx
      rw [← sokuon_rfind hstd hk] at hx'
      have h0 := rlook_stops std (w.map Prod.fst) x
      have h1 : RStops std TO_ROMAJI_NODE_TREE ((y :: w).map Prod.fst) _ _ := rstops_cons hx h0
      have h2 : RStops std TO_ROMAJI_NODE_TREE ((('っ', f) :: y :: w).map Prod.fst) _ _ :=
        rstops_cons (sokuonNode_walk hstd) (rstops_cons hx' h0)
      rw [rom_hit h1 (by omega), rom_hit h2 (by omega)]
      simp

/-- conversion of a concatenation, cut where nothing is changed -/
theorem rom_append_kept {std : Std} (hstd : std.Lawful) (z w : List (Char × Bool))
    (h : ∀ x y, z.getLast? = some x → w.head? = some y → pairT x.1 y.1 = false ∨
      x.1 = 'っ' ∧ y.1 ∉ Spec.changedBySokuon) :
    rom std false (z ++ w) = rom std false z ++ rom std false w := by
  by_cases hz : z = []
  · subst hz; rw [rom_nil]; rfl
  cases hy : w.head? with
  | none =>
    apply rom_append_pairT hstd
    intro x y _ e
    rw [hy] at e; cases e
  | some y =>
    have hl : z.getLast? = some (z.getLast hz) := List.getLast?_eq_some_getLast hz
    rcases h _ _ hl hy with hp | ⟨ht, hc⟩
    · apply rom_append_pairT hstd
      intro x' y' hx' hy'
      rw [hl] at hx'; cases hx'
      rw [hy] at hy'; cases hy'
      exact hp
    · obtain ⟨z', f, e⟩ : ∃ z' f, z = z' ++ [('っ', f)] :=
        ⟨z.dropLast, (z.getLast hz).2, by
          rw [← ht]; exact (List.dropLast_concat_getLast hz).symm⟩
      have hcut : ∀ v : List (Char × Bool), rom std false (z' ++ ('っ', f) :: v) =
          rom std false z' ++ rom std false (('っ', f) :: v) := by
        intro v
        apply rom_append_pairT hstd
        intro x' y' _ hy'
        cases hy'
        have h1 : ∀ x : Char, pairT x 'っ' = false := by
          intro x
          have a1 : Spec.afterN.contains 'っ' = false := by decide
          have a2 : Spec.smallKana.contains 'っ' = false := by decide
          unfold pairT
          rw [a1, a2]
          simp
        exact h1 _
      rw [e, List.append_assoc, List.singleton_append, hcut, rom_sokuon hstd, hcut [], rom_sokuon hstd, rom_nil,
        List.append_nil]
      · intro y e; cases e
      · intro y' hy'
        rw [hy] at hy'; cases hy'
        exact hc

/-! ## The last character of the hiragana form -/

/-- what is left at the end of the hiragana form when a ー was lost -/
theorem k2hP_last_lost {std : Std} (hstd : std.Lawful) {p : Char} (hp : p = 'っ' ∨ p = 'ん') : ∀ r : Str,
    k2hPrev none r.reverse = some p →
    ∃ x, (k2hP std true none r.reverse).getLast? = some x ∧ (x = p ∨ x ∈ Spec.chain) := by
  have hl : ∀ c, longOut std true c p = [] := by
    intro c
    have := longOut_length hstd (p := p) (by rcases hp with rfl | rfl <;> decide)
      (by rcases hp with rfl | rfl <;> decide) true c
    rw [if_pos hp] at this
    exact List.eq_nil_of_length_eq_zero this
  intro r
  induction r with
  | nil => intro h; cases h
  | cons c r ih =>
    rw [List.reverse_cons, k2hPrev_append, k2hP_append]
    intro h
    rw [k2hP_cons]
    simp only [k2hPrev] at h
    by_cases hk : keeps c = true
    · exact ⟨c, by simp [hk, k2hP], Or.inr (chain_iff.2 (by simp [hk]))⟩
    · by_cases hd : isDash c = true
      · simp only [hd, Bool.or_true, if_true] at h
        obtain ⟨x, hx, hx'⟩ := ih h
        refine ⟨x, ?_, hx'⟩
        rw [h]
        simp [hk, hd, k2hP, hl, hx]
      · by_cases ha : is_char_katakana c = true
        · simp only [hk, hd, ha, Bool.or_false, if_true, if_false, Bool.false_eq_true, Option.some.injEq] at h
          exact ⟨p, by simp [hk, hd, ha, k2hP, h], Or.inl rfl⟩
        · simp [hk, hd, ha] at h

/-- the last character of the hiragana form -/
theorem k2hP_last {std : Std} (hstd : std.Lawful) {a : Str} {x x' : Char} (hx : a.getLast? = some x)
    (hx' : (k2hP std true none a).getLast? = some x') :
    x ≠ 'ー' ∧ x' = Spec.toHira x ∨
      x = 'ー' ∧ x' ∈ ['っ', 'ん', 'ー', '・', 'ヵ', 'ヶ', 'あ', 'い', 'う', 'え', 'お'] := by
  obtain ⟨a', rfl⟩ := List.getLast?_eq_some_iff.1 hx
  rw [k2hP_append, k2hP_cons] at hx'
  by_cases hk : keeps x = true
  · left
    simp [hk, k2hP] at hx'
    refine ⟨?_, by rw [← hx', toHira_other (Or.inl hk)]⟩
    rintro rfl
    exact absurd hk (by decide)
  · by_cases hd : isDash x = true
    · right
      refine ⟨char_ext (isDash_iff.1 hd), ?_⟩
      cases hpv : k2hPrev none a' with
      | none =>
        rw [hpv] at hx'
        simp [hk, hd, k2hP] at hx'
        rw [← hx', show x = 'ー' from char_ext (isDash_iff.1 hd)]
        decide
      | some p =>
        rw [hpv] at hx'
        simp only [hk, hd, k2hP, if_true, if_false, Bool.false_eq_true, List.append_nil] at hx'
        have hok := k2hPrev_ok a' prevOk_none p hpv
        have hlen := longOut_length hstd hok.1 hok.2 true x
        by_cases hp : p = 'っ' ∨ p = 'ん'
        · rw [if_pos hp] at hlen
          rw [List.eq_nil_of_length_eq_zero hlen, List.append_nil] at hx'
          obtain ⟨z, hz, hz'⟩ := k2hP_last_lost hstd hp a'.reverse (by simpa using hpv)
          rw [List.reverse_reverse, hx'] at hz
          cases hz
          rcases hz' with rfl | hz'
          · rcases hp with rfl | rfl <;> decide
          · simp only [Spec.chain, List.mem_cons, List.not_mem_nil, or_false] at hz' ⊢
            rcases hz' with h | h | h | h <;> simp [h]
        · rw [if_neg hp] at hlen
          obtain ⟨v, hv⟩ := List.length_eq_one_iff.1 hlen
          have hm := longOut_mem hstd hok.1 hok.2 true x v (by rw [hv]; simp)
          rw [hv] at hx'
          simp at hx'
          subst hx'
          simp only [List.mem_cons, List.not_mem_nil, or_false] at hm ⊢
          rcases hm with h | h | h | h | h <;> simp [h]
    · left
      have hne : x ≠ 'ー' := by
        rintro rfl
        exact hd (by decide)
      refine ⟨hne, ?_⟩
      by_cases ha : is_char_katakana x = true
      · simp [hk, hd, ha, k2hP] at hx'
        rw [← hx', k2hChar_toHira (by simpa using hk) (by simpa using hd) ha]
      · simp [hk, hd, ha, k2hP] at hx'
        rw [← hx', toHira_other (Or.inr (Or.inr (by simpa using ha)))]

/-! ## C81 -/

/-- **C81** text may be cut between any two characters that are not joined. -/
theorem C81_cut {std : Std} (hstd : std.Lawful) (a b : Str) (o : Options) (ho : o.upcase_katakana = false)
    (h : ∀ x y, a.getLast? = some x → b.head? = some y → ¬ Spec.Joined x y) {ra rb : Str}
    (h1 : to_romaji_with_opt std a o = .ok ra) (h2 : to_romaji_with_opt std b o = .ok rb) :
    to_romaji_with_opt std (a ++ b) o = .ok (ra ++ rb) := by
  rw [to_romaji_eq hstd] at h1 h2 ⊢
  cases h1
  cases h2
  congr 1
  rw [ho]
  have hk : k2hP std true none (a ++ b) = k2hP std true none a ++ k2hP std true none b := by
    apply k2hP_cut
    intro g hg hkat
    cases hb : b with
    | nil => simp
    | cons y b' =>
      cases hl : a.getLast? with
      | none => rw [List.getLast?_eq_none_iff.1 hl] at hg; cases hg
      | some x =>
        have hj := h x y hl (by rw [hb]; rfl)
        by_cases hy : y ∈ Spec.chain
        · exfalso
          apply hj
          refine Or.inl ⟨hy, ?_⟩
          by_cases hx : x ∈ Spec.chain
          · exact Or.inl hx
          · right
            obtain ⟨a', rfl⟩ := List.getLast?_eq_some_iff.1 hl
            have : Spec.governing (a' ++ [x]) = some x := by
              unfold Spec.governing
              rw [List.reverse_append, List.reverse_singleton, List.singleton_append,
                List.dropWhile_cons_of_neg (by simpa using hx)]
              rfl
            rw [this] at hg
            cases hg
            exact hkat
        · rw [List.takeWhile_cons_of_neg (by simpa using hy)]
          simp
  rw [← rom_append_kept hstd]
  · apply rom_flag
    rw [List.map_append, flagged_fst hstd, flagged_fst hstd, flagged_fst hstd, hk]
  · intro x' y' hx' hy'
    have hx2 : (k2hP std true none a).getLast? = some x'.1 := by
      rw [← flagged_fst hstd, List.getLast?_map, hx']; rfl
    have hy2 : (k2hP std true none b).head? = some y'.1 := by
      rw [← flagged_fst hstd, List.head?_map, hy']; rfl
    rw [k2hP_head_hira] at hy2
    obtain ⟨y, hy, hyt⟩ := Option.map_eq_some_iff.1 hy2
    cases hl : a.getLast? with
    | none => rw [List.getLast?_eq_none_iff.1 hl] at hx2; cases hx2
    | some x =>
      have hj := h x y hl hy
      unfold Spec.Joined at hj
      rw [hyt] at hj
      simp only [not_or, not_and] at hj
      obtain ⟨-, j2, j3, j4⟩ := hj
      rcases k2hP_last hstd hl hx2 with ⟨hne, e⟩ | ⟨e, hm⟩
      · rw [← e] at j2 j3 j4
        by_cases ht : x'.1 = 'っ'
        · exact Or.inr ⟨ht, j2 (Or.inl ht)⟩
        · left
          unfold pairT
          simp only [Bool.or_eq_false_iff, Bool.and_eq_false_iff, beq_eq_false_iff_ne, ne_eq, ht, not_false_eq_true,
            true_or, true_and, List.contains_eq_mem, decide_eq_false_iff_not]
          refine ⟨?_, ?_⟩
          · by_cases hn : x'.1 = 'ん'
            · exact Or.inr (j3 (Or.inl hn))
            · exact Or.inl hn
          · by_cases hc : x'.1 ∈ Spec.contractionHeads
            · exact Or.inr (j4 hc)
            · exact Or.inl hc
      · by_cases ht : x'.1 = 'っ'
        · exact Or.inr ⟨ht, j2 (Or.inr e)⟩
        · left
          have hc : (['っ', 'ん', 'ー', '・', 'ヵ', 'ヶ', 'あ', 'い', 'う', 'え', 'お'].all fun c =>
            !Spec.contractionHeads.contains c) = true := by decide
          have := List.all_eq_true.1 hc _ hm
          simp only [List.contains_eq_mem, Bool.not_eq_true', decide_eq_false_iff_not] at this
          unfold pairT
          simp only [Bool.or_eq_false_iff, Bool.and_eq_false_iff, beq_eq_false_iff_ne, ne_eq, ht, not_false_eq_true,
            true_or, true_and, List.contains_eq_mem, decide_eq_false_iff_not]
          exact ⟨Or.inr (j3 (Or.inr e)), Or.inl this⟩

/-- the two texts that show that `x` and `y` are joined -/
def joinWitness (x y : Char) : Str × Str :=
  if y ∈ Spec.chain then (if x ∈ Spec.chain then ['カ', x] else [x], if y = 'ー' then [y] else [y, 'ー'])
  else if Spec.toHira y ∈ Spec.afterN then (if x = 'ー' then ['ン', 'ー'] else [x], [y])
  else (if x = 'ー' then ['ッ', 'ー'] else [x], if Spec.toHira y = 'ん' then [y, 'あ'] else [y])

/-- the witness works -/
def joinCheck (x y : Char) : Bool :=
  let w := joinWitness x y
  match to_romaji modernStd w.1, to_romaji modernStd w.2, to_romaji modernStd (w.1 ++ w.2) with
  | .ok ra, .ok rb, .ok r => decide (r ≠ ra ++ rb)
  | _, _, _ => false

/-- all kana -/
def kanaList : List Char := (List.range 0xBC).map fun i => Char.ofNat (0x3041 + i)

/-- the kana that can be joined to a following one in any way but by ー -/
def leftList : List Char := "っッんンーきぎくしじちぢにひびぴふみりキギクシジチヂニヒビピフミリ".toList

theorem join_check_chain : (Spec.chain.all fun y => kanaList.all fun x =>
    x == 'ゔ' || x == 'ヴ' || !decide (Spec.Joined x y) || joinCheck x y) = true := by
  decide +kernel

theorem join_check_left : (leftList.all fun x => kanaList.all fun y =>
    y == 'ゔ' || y == 'ヴ' || !decide (Spec.Joined x y) || joinCheck x y) = true := by
  decide +kernel

theorem mem_kanaList {c : Char} (h : 0x3041 ≤ c.toNat ∧ c.toNat ≤ 0x30FC) : c ∈ kanaList := by
  unfold kanaList
  rw [List.mem_map]
  refine ⟨c.toNat - 0x3041, List.mem_range.2 (by omega), ?_⟩
  rw [show 0x3041 + (c.toNat - 0x3041) = c.toNat by omega]
  exact Char.ofNat_toNat c

theorem toHira_kanaList {c : Char} (h : 0x3041 ≤ (Spec.toHira c).toNat ∧ (Spec.toHira c).toNat ≤ 0x3096) : c ∈ kanaList := by
  apply mem_kanaList
  rw [toHira_toNat] at h
  repeat' split at h
  all_goals omega

theorem hira_of_mem {l : List Char} (h : (l.all fun c => decide (0x3041 ≤ c.toNat ∧ c.toNat ≤ 0x3096)) = true) {c : Char}
    (hc : c ∈ l) : 0x3041 ≤ c.toNat ∧ c.toNat ≤ 0x3096 := by
  simpa using List.all_eq_true.1 h c hc

theorem joined_lists {x y : Char} (hx : x ∉ ['ゔ', 'ヴ']) (h : Spec.Joined x y) :
    x ∈ kanaList ∧ y ∈ Spec.chain ∨ x ∈ leftList ∧ y ∈ kanaList := by
  have hleft : (kanaList.all fun x => x == 'ゔ' || x == 'ヴ' || leftList.contains x ||
      !(Spec.toHira x == 'っ' || x == 'ー' || Spec.toHira x == 'ん' || Spec.contractionHeads.contains (Spec.toHira x))) = true := by
    decide +kernel
  have left : x ∈ kanaList → (Spec.toHira x = 'っ' ∨ x = 'ー' ∨ Spec.toHira x = 'ん' ∨ Spec.toHira x ∈ Spec.contractionHeads) →
      x ∈ leftList := by
    intro hk ho
    have := List.all_eq_true.1 hleft x hk
    simp only [List.mem_cons, List.not_mem_nil, or_false, not_or] at hx
    simp only [Bool.or_eq_true, beq_iff_eq, hx.1, hx.2, false_or, List.contains_iff_mem, Bool.not_eq_true',
      Bool.or_eq_false_iff, beq_eq_false_iff_ne, ne_eq] at this
    rcases this with h | ⟨⟨⟨h1, h2⟩, h3⟩, h4⟩
    · exact h
    · rcases ho with h | h | h | h
      · exact absurd h h1
      · exact absurd h h2
      · exact absurd h h3
      · rw [← List.contains_iff_mem, h4] at h; cases h
  rcases h with ⟨hy, hx'⟩ | ⟨hx', hy⟩ | ⟨hx', hy⟩ | ⟨hx', hy⟩
  · refine Or.inl ⟨?_, hy⟩
    apply mem_kanaList
    rcases hx' with h | h
    · simp only [Spec.chain, List.mem_cons, List.not_mem_nil, or_false] at h
      rcases h with rfl | rfl | rfl | rfl <;> decide
    · unfold Spec.KatakanaLetter Spec.In at h
      omega
  · right
    refine ⟨?_, toHira_kanaList (hira_of_mem (by decide +kernel) hy)⟩
    rcases hx' with h | h
    · exact left (toHira_kanaList (by rw [h]; decide)) (Or.inl h)
    · exact left (mem_kanaList (by rw [h]; decide)) (Or.inr (Or.inl h))
  · right
    refine ⟨?_, toHira_kanaList (hira_of_mem (by decide +kernel) hy)⟩
    rcases hx' with h | h
    · exact left (toHira_kanaList (by rw [h]; decide)) (Or.inr (Or.inr (Or.inl h)))
    · exact left (mem_kanaList (by rw [h]; decide)) (Or.inr (Or.inl h))
  · right
    exact ⟨left (toHira_kanaList (hira_of_mem (by decide +kernel) hx')) (Or.inr (Or.inr (Or.inr hx'))),
      toHira_kanaList (hira_of_mem (by decide +kernel) hy)⟩

theorem join_check {x y : Char} (hx : x ∉ ['ゔ', 'ヴ']) (hy : y ∉ ['ゔ', 'ヴ']) (h : Spec.Joined x y) :
    joinCheck x y = true := by
  have hx2 := hx
  simp only [List.mem_cons, List.not_mem_nil, or_false, not_or] at hx2 hy
  rcases joined_lists hx h with ⟨h1, h2⟩ | ⟨h1, h2⟩
  · have := List.all_eq_true.1 (List.all_eq_true.1 join_check_chain y h2) x h1
    simpa [hx2, h] using this
  · have := List.all_eq_true.1 (List.all_eq_true.1 join_check_left x h1) y h2
    simpa [hy, h] using this

theorem joinWitness_ends (x y : Char) : (joinWitness x y).1.getLast? = some x ∧ (joinWitness x y).2.head? = some y := by
  unfold joinWitness
  repeat' split
  all_goals simp_all

theorem joinWitness_mem {x y c : Char} (h : c ∈ (joinWitness x y).1 ++ (joinWitness x y).2) :
    c = x ∨ c = y ∨ c ∈ ['カ', 'ン', 'ッ', 'ー', 'あ'] := by
  unfold joinWitness at h
  repeat' split at h
  all_goals
    simp only [List.cons_append, List.nil_append, List.mem_cons, List.not_mem_nil, or_false] at h ⊢
    grind

/-- **C81** exactly which neighbours make a difference (ゔ and ヴ apart, whose romaji is not determined): two
characters are not joined iff every text may be cut between them. -/
theorem C81_exact {std : Std} (hstd : std.Lawful) (x y : Char) (hx : x ∉ ['ゔ', 'ヴ']) (hy : y ∉ ['ゔ', 'ヴ']) (o : Options)
    (ho : o.upcase_katakana = false) :
    (∀ a b ra rb, a.getLast? = some x → b.head? = some y → to_romaji_with_opt std a o = .ok ra →
      to_romaji_with_opt std b o = .ok rb → to_romaji_with_opt std (a ++ b) o = .ok (ra ++ rb)) ↔ ¬ Spec.Joined x y := by
  constructor
  · intro h hj
    have hc := join_check hx hy hj
    obtain ⟨e1, e2⟩ := joinWitness_ends x y
    have hm : ∀ s : Str, s.Sublist ((joinWitness x y).1 ++ (joinWitness x y).2) →
        to_romaji modernStd s = to_romaji_with_opt std s o := by
      intro s hs
      have no : ∀ v ∈ ['ゔ', 'ヴ'], v ∉ s := by
        intro v hv hvs
        rcases joinWitness_mem (hs.subset hvs) with rfl | rfl | hl
        · exact hx hv
        · exact hy hv
        · simp only [List.mem_cons, List.not_mem_nil, or_false] at hv hl
          rcases hv with rfl | rfl <;> revert hl <;> decide
      rw [C33_deterministic_partial hstd modernStd_lawful _ _ (no _ (by simp)) (no _ (by simp)),
        to_romaji_upcase modernStd_lawful, ho]
      rfl
    unfold joinCheck at hc
    simp only [hm _ (List.sublist_append_left _ _), hm _ (List.sublist_append_right _ _), hm _ (List.Sublist.refl _)] at hc
    split at hc
    · rename_i ra rb r h1 h2 h3
      rw [h _ _ _ _ e1 e2 h1 h2] at h3
      cases h3
      simp at hc
    · cases hc
  · intro hj a b ra rb ha hb h1 h2
    refine C81_cut hstd a b o ho (fun x' y' hx' hy' => ?_) h1 h2
    rw [ha] at hx'; cases hx'
    rw [hb] at hy'; cases hy'
    exact hj

/-- っ|な and か|ぃ are not joined, ー|か and ヵ|・ are -/
example : ¬ Spec.Joined 'っ' 'な' ∧ ¬ Spec.Joined 'か' 'ぃ' ∧ Spec.Joined 'ー' 'か' ∧ Spec.Joined 'ヵ' '・' := by decide +kernel
example : to_romaji modernStd "ッー".toList = .ok [] ∧ to_romaji modernStd "か".toList = .ok "ka".toList
    ∧ to_romaji modernStd "ッーか".toList = .ok "kka".toList := by decide +kernel

end WanaKana
