import Verif.Props.RomajiPairs
import Verif.Spec.RomajiPieces
import Verif.Props.TokenKana
import Verif.Props.Tokenize2
/-! # C98: exactly when a text can be converted to romaji piece by piece -/

namespace WanaKana
open RNode

/-- the romaji of hiragana -/
def romH (std : Std) (h : Str) : Str := rom std false (h.map fun c => (c, false))

theorem rom_romH (std : Std) (z : List (Char × Bool)) : rom std false z = romH std (z.map Prod.fst) := by
  apply rom_flag
  rw [List.map_map]
  exact (List.map_id _).symm

theorem romH_nil (std : Std) : romH std [] = [] := rom_nil _ _

theorem map_fst_false (h : Str) : (h.map fun c => (c, false)).map Prod.fst = h := by
  rw [List.map_map]; exact List.map_id _

theorem romH_hit {std : Std} {h : Str} {n : RNode} {k : Nat} (hs : RStops std TO_ROMAJI_NODE_TREE h n k) (hk : k ≠ 0) :
    romH std h = n.output ++ romH std (h.drop k) := by
  unfold romH
  rw [rom_hit (by rw [map_fst_false]; exact hs) hk, List.map_drop]
  simp

theorem romH_miss {std : Std} {c : Char} {h : Str} (hf : TO_ROMAJI_NODE_TREE.rfind std c = none) :
    romH std (c :: h) = c :: romH std h := by
  unfold romH
  rw [List.map_cons, rom_miss hf]

theorem romH_kept {std : Std} (hstd : std.Lawful) (z w : Str)
    (h : ∀ x y, z.getLast? = some x → w.head? = some y → pairT x y = false ∨ x = 'っ' ∧ y ∉ Spec.changedBySokuon) :
    romH std (z ++ w) = romH std z ++ romH std w := by
  unfold romH
  rw [List.map_append]
  apply rom_append_kept hstd
  intro x y hx hy
  rw [List.getLast?_map] at hx
  rw [List.head?_map] at hy
  obtain ⟨x', hx', rfl⟩ := Option.map_eq_some_iff.1 hx
  obtain ⟨y', hy', rfl⟩ := Option.map_eq_some_iff.1 hy
  exact h x' y' hx' hy'

/-! ## Counting the dashes -/

/-- the characters that are written as a dash -/
def isMark (c : Char) : Bool := c == 'ー' || c == '-'

theorem romH_dashes {std : Std} (hstd : std.Lawful) (h : Str) : (romH std h).countP (· == '-') = h.countP isMark := by
  have key : ∀ z : List (Char × Bool), (rom std false z).countP (· == '-') = (z.map Prod.fst).countP isMark := by
    intro z
    induction z using rom_ind (std := std) with
    | nil => rw [rom_nil]; rfl
    | miss c b z h ih =>
      rw [rom_miss h, List.map_cons, List.countP_cons, List.countP_cons, ih]
      have hc : c ≠ 'ー' := by
        rintro rfl
        obtain ⟨n, hn⟩ := root_some hstd (c := 'ー') (by decide)
        rw [h] at hn; cases hn
      simp [isMark, hc]
    | hit z n k hk h ih =>
      have hc : (TO_ROMAJI_NODE_TREE.paths.all fun q => q.2.output.countP (· == '-') == q.1.countP isMark) = true := by
        decide +kernel
      have hn := rwalk_check hstd hc h.walk
      rw [rom_hit h hk, List.countP_append, ih, List.map_drop]
      simp only [Bool.and_false, if_false, Bool.false_eq_true]
      rw [beq_iff_eq] at hn
      rw [hn, ← List.countP_append, List.take_append_drop]
  have := key (h.map fun c => (c, false))
  rwa [map_fst_false] at this

theorem longOut_isMark {std : Std} (hstd : std.Lawful) {p : Char} (h : PrevOk (some p)) (c : Char) :
    (longOut std true c p).countP isMark = 0 := by
  rw [List.countP_eq_zero]
  intro d hd
  have hm := longOut_mem hstd (h p rfl).1 (h p rfl).2 true c d hd
  simp only [List.mem_cons, List.not_mem_nil, or_false] at hm
  rcases hm with rfl | rfl | rfl | rfl | rfl <;> decide

theorem k2hChar_isMark {c : Char} (hk : keeps c = false) (hd : isDash c = false) (ha : is_char_katakana c = true) :
    isMark (k2hChar c) = false := by
  have := k2hChar_prevOk hk hd ha _ rfl
  unfold isMark
  simp only [Bool.or_eq_false_iff, beq_eq_false_iff_ne, ne_eq, char_eq_iff, Char.reduceToNat]
  omega

theorem k2hP_marks_le {std : Std} (hstd : std.Lawful) (s : Str) : ∀ {p : Option Char}, PrevOk p →
    (k2hP std true p s).countP isMark ≤ (k2hP std true none s).countP isMark := by
  induction s with
  | nil => intro p _; cases p <;> simp [k2hP]
  | cons c s ih =>
    intro p hp
    rw [k2hP_cons, k2hP_cons]
    by_cases hk : keeps c = true
    · rw [if_pos hk, if_pos hk, List.countP_cons, List.countP_cons]
      have := ih hp
      omega
    · by_cases hd : isDash c = true
      · rw [if_neg hk, if_pos hd, if_neg hk, if_pos hd]
        cases p with
        | none => exact Nat.le_refl _
        | some p =>
          have := ih hp
          simp only [List.countP_append, longOut_isMark hstd hp, List.countP_cons]
          omega
      · simp only [hk, hd, if_false, Bool.false_eq_true]
        exact Nat.le_refl _

theorem k2hP_marks_lt {std : Std} (hstd : std.Lawful) (s : Str) {p : Char} (hp : PrevOk (some p))
    (h : 'ー' ∈ s.takeWhile fun c => decide (c ∈ Spec.chain)) :
    (k2hP std true (some p) s).countP isMark < (k2hP std true none s).countP isMark := by
  induction s with
  | nil => cases h
  | cons c s ih =>
    rw [k2hP_cons, k2hP_cons]
    by_cases hk : keeps c = true
    · rw [List.takeWhile_cons_of_pos (by simpa using chain_iff.2 (by simp [hk]))] at h
      rw [if_pos hk, if_pos hk, List.countP_cons, List.countP_cons]
      have := ih (by
        rcases List.mem_cons.1 h with e | e
        · subst e; exact absurd hk (by decide)
        · exact e)
      omega
    · by_cases hd : isDash c = true
      · rw [if_neg hk, if_pos hd, if_neg hk, if_pos hd]
        have e : c = 'ー' := char_ext (isDash_iff.1 hd)
        have := k2hP_marks_le hstd s hp
        simp only [List.countP_append, longOut_isMark hstd hp, List.countP_cons]
        rw [if_pos (by rw [e]; decide)]
        omega
      · rw [List.takeWhile_cons_of_neg (by rw [decide_eq_true_iff, chain_iff]; simp [hk, hd])] at h
        cases h

/-- a katakana letter that governs the end of a text is what the loop remembers -/
theorem k2hPrev_of_governing {a : Str} {g : Char} (hg : Spec.governing a = some g) (hk : Spec.KatakanaLetter g) :
    k2hPrev none a = some (k2hChar g) := by
  rw [k2hPrev_governing, hg, Option.bind_some, if_pos]
  rw [is_char_katakana_iff]
  unfold Spec.KatakanaLetter Spec.In at hk
  omega

/-- the marks kept in a text are at most those kept in its pieces -/
theorem marks_pieces {std : Std} (hstd : std.Lawful) (ps : List Str) : ∀ {q : Option Char}, PrevOk q →
    (k2hP std true q ps.flatten).countP isMark ≤ (ps.flatMap (k2hP std true none)).countP isMark := by
  induction ps with
  | nil => intro q _; cases q <;> simp [k2hP]
  | cons p ps ih =>
    intro q hq
    rw [List.flatten_cons, List.flatMap_cons, k2hP_append, List.countP_append, List.countP_append]
    have h1 := k2hP_marks_le hstd p hq
    have h2 := ih (k2hPrev_ok p hq)
    omega

theorem marks_pieces_lt {std : Std} (hstd : std.Lawful) (l r : List Str) (p : Str) (h : Spec.Prolonged l.flatten p) :
    (k2hP std true none (l ++ p :: r).flatten).countP isMark <
      ((l ++ p :: r).flatMap (k2hP std true none)).countP isMark := by
  obtain ⟨g, hg, hk, hm⟩ := h
  have hprev := k2hPrev_of_governing hg hk
  have hok := k2hPrev_ok l.flatten prevOk_none
  rw [hprev] at hok
  rw [List.flatten_append, List.flatten_cons, k2hP_append, hprev, k2hP_append, List.flatMap_append, List.flatMap_cons]
  simp only [List.countP_append]
  have h1 := marks_pieces hstd l prevOk_none
  have h2 := k2hP_marks_lt hstd p hok hm
  have h3 := marks_pieces hstd r (k2hPrev_ok p hok)
  omega

/-! ## Hiragana -/

/-- what the tree gives for a whole key, and whether it ends there -/
def keyInfo (q : Str) : Option (Str × Bool) :=
  (TO_ROMAJI_NODE_TREE.mwalk q).map fun n => (n.output, n.ts.isEmpty)

theorem romH_leaf {std : Std} (hstd : std.Lawful) {q out : Str} (hv : 'ゔ' ∉ q) (hq : q ≠ [])
    (h : keyInfo q = some (out, true)) (v : Str) : romH std (q ++ v) = out ++ romH std v := by
  unfold keyInfo at h
  obtain ⟨n, hn, e⟩ := Option.map_eq_some_iff.1 h
  rw [Prod.mk.injEq] at e
  obtain ⟨rfl, e⟩ := e
  have hts : n.ts = [] := by simpa using e
  have hs : RStops std TO_ROMAJI_NODE_TREE (q ++ v) n q.length := by
    refine ⟨by simp, ?_, ?_⟩
    · rw [List.take_left', rwalk_eq_mwalk hstd q hv, hn]
      rfl
    · intro c _
      unfold rfind
      rw [hts]
      cases std.binarySearch _ c <;> simp
  rw [romH_hit hs (by simpa using hq), List.drop_left']
  rfl

theorem romH_end {std : Std} (hstd : std.Lawful) {q out : Str} {b : Bool} (hv : 'ゔ' ∉ q) (hq : q ≠ [])
    (h : keyInfo q = some (out, b)) : romH std q = out := by
  unfold keyInfo at h
  obtain ⟨n, hn, e⟩ := Option.map_eq_some_iff.1 h
  cases e
  have hs : RStops std TO_ROMAJI_NODE_TREE q n q.length := by
    refine ⟨by simp, ?_, by simp⟩
    rw [List.take_length, rwalk_eq_mwalk hstd q hv, hn]
  rw [romH_hit hs (by simpa using hq), List.drop_length, romH_nil, List.append_nil]

theorem pairT_left {x y : Char} (h1 : y ∉ Spec.afterN) (h2 : y ∉ Spec.smallKana) (h3 : x ≠ 'っ' ∨ y = 'っ') :
    pairT x y = false := by
  unfold pairT
  have a1 : Spec.afterN.contains y = false := by simpa using h1
  have a2 : Spec.smallKana.contains y = false := by simpa using h2
  rw [a1, a2]
  rcases h3 with h | h <;> simp [h]

/-- in front of a kana that merges with nothing but a っ the text can be cut (before the っ) -/
theorem romH_split {std : Std} (hstd : std.Lawful) {c : Char} (h1 : c ∉ Spec.afterN) (h2 : c ∉ Spec.smallKana) (z : Str) :
    ∃ z' pre, z = z' ++ pre ∧ (pre = [] ∧ z.getLast? ≠ some 'っ' ∨ pre = ['っ'] ∧ z.getLast? = some 'っ') ∧
      ∀ v, romH std (z ++ c :: v) = romH std z' ++ romH std (pre ++ c :: v) := by
  by_cases hl : z.getLast? = some 'っ'
  · obtain ⟨z', rfl⟩ := List.getLast?_eq_some_iff.1 hl
    refine ⟨z', ['っ'], rfl, Or.inr ⟨rfl, hl⟩, fun v => ?_⟩
    rw [List.append_assoc]
    apply romH_kept hstd
    intro x y _ hy
    cases hy
    exact Or.inl (pairT_left (by decide) (by decide) (Or.inr rfl))
  · refine ⟨z, [], by simp, Or.inl ⟨rfl, hl⟩, fun v => ?_⟩
    apply romH_kept hstd
    intro x y hx hy
    cases hy
    exact Or.inl (pairT_left h1 h2 (Or.inl (by rintro rfl; exact hl hx)))

theorem romH_cut_sokuon {std : Std} (hstd : std.Lawful) (z v : Str) :
    romH std (z ++ 'っ' :: v) = romH std z ++ romH std ('っ' :: v) := by
  apply romH_kept hstd
  intro x y _ hy
  cases hy
  exact Or.inl (pairT_left (by decide) (by decide) (Or.inr rfl))

theorem romH_sokuon_end {std : Std} (hstd : std.Lawful) (z : Str) : romH std (z ++ ['っ']) = romH std z := by
  rw [romH_cut_sokuon hstd, romH_end hstd (q := ['っ']) (out := []) (b := false) (by decide) (by simp) (by decide +kernel), List.append_nil]

theorem contraction_table : (Spec.contractionHeads.all fun h => h == 'ゔ' || Spec.smallKana.all fun k =>
    [[], ['っ']].all fun pre => match keyInfo (pre ++ [h]), keyInfo (pre ++ [h, k]) with
      | some (a, _), some (b, true) => decide (a.length ≤ b.length) && !a.isPrefixOf b
      | _, _ => false) = true := by decide +kernel

theorem nBefore_table : (Spec.afterN.all fun y => match keyInfo ['ん', y], keyInfo [y] with
    | some ('n' :: '\'' :: _, true), some (d :: _, true) => d != '\''
    | _, _ => false) = true := by decide +kernel

theorem sokuonN : keyInfo ['っ', 'ん'] = some (['n'], true) := by decide +kernel
theorem nAlone : keyInfo ['ん'] = some (['n'], false) := by decide +kernel

/-- the first two letters after っ -/
def doubled : Str → Bool
  | c :: d :: _ => c == d || c == 't' && d == 'c'
  | _ => false

/-- first two letters that are not doubled -/
def single : Str → Bool
  | c :: d :: _ => !(c == d || c == 't' && d == 'c')
  | _ => false

theorem romH_doubled {std : Std} (hstd : std.Lawful) {y : Char} (hy : y ∈ Spec.changedBySokuon) (hn : y ≠ 'ん') (v : Str) :
    (∃ r t, romH std ('っ' :: y :: v) = r ++ t ∧ doubled r = true) ∧
    ∃ r t, romH std (y :: v) = r ++ t ∧ single r = true := by
  have hk : romajiKey y = true := by
    have : (Spec.changedBySokuon.all romajiKey) = true := by decide +kernel
    exact List.all_eq_true.1 this y hy
  constructor
  · have h := rlook_stops std (y :: v) sokuonNode
    have hs := rstops_cons (sokuonNode_walk hstd) h
    have hpos : (sokuonNode.rlook std (y :: v)).2 ≠ 0 := by
      have hin : (Spec.changedBySokuon.all fun y => (sokuonNode.ts.map fun t => t.1).contains y) = true := by decide +kernel
      have hp : (['っ'], sokuonNode) ∈ TO_ROMAJI_NODE_TREE.paths := by
        apply rwalk_mem_paths hstd _ romaji_sorted
        rw [rwalk_singleton]; exact sokuonNode_walk hstd
      have hw : TO_ROMAJI_NODE_TREE.rwalk std ['っ'] = some sokuonNode := by
        rw [rwalk_singleton]; exact sokuonNode_walk hstd
      have := List.all_eq_true.1 hin y hy
      rw [List.contains_iff_mem] at this
      obtain ⟨⟨y', m⟩, hm, rfl⟩ := List.mem_map.1 this
      obtain ⟨x, hx⟩ := rfind_isSome hstd hw hm
      rw [rlook, hx]
      simp
    have hc : (TO_ROMAJI_NODE_TREE.paths.all fun q => match q.1 with
        | 'っ' :: y :: _ => !Spec.changedBySokuon.contains y || y == 'ん' || doubled q.2.output
        | _ => true) = true := by decide +kernel
    have hw := rwalk_check hstd hc hs.walk
    rw [romH_hit hs (by omega)]
    refine ⟨_, _, rfl, ?_⟩
    obtain ⟨j, hj⟩ := Nat.exists_eq_succ_of_ne_zero hpos
    rw [hj] at hw
    simpa [hy, hn] using hw
  · have hs := rlook_stops std (y :: v) TO_ROMAJI_NODE_TREE
    obtain ⟨x, hx⟩ := root_some hstd hk
    have hpos : (TO_ROMAJI_NODE_TREE.rlook std (y :: v)).2 ≠ 0 := by rw [rlook, hx]; simp
    have hc : (TO_ROMAJI_NODE_TREE.paths.all fun q => match q.1 with
        | y :: _ => !Spec.changedBySokuon.contains y || y == 'ん' || single q.2.output
        | _ => true) = true := by decide +kernel
    have hw := rwalk_check hstd hc hs.walk
    rw [romH_hit hs hpos]
    refine ⟨_, _, rfl, ?_⟩
    obtain ⟨j, hj⟩ := Nat.exists_eq_succ_of_ne_zero hpos
    rw [hj] at hw
    simpa [hy, hn] using hw

theorem doubled_ne_single {r t r' t' : Str} (h : doubled r = true) (h' : single r' = true) : r ++ t ≠ r' ++ t' := by
  intro e
  match r, r', h, h' with
  | a :: b :: r, c :: d :: r', h, h' =>
    simp only [List.cons_append, List.cons.injEq] at e
    obtain ⟨rfl, rfl, -⟩ := e
    simp only [doubled, single] at h h'
    rw [h] at h'
    cases h'

/-! ## Where two hiragana texts meet -/

theorem romH_bad {std : Std} (hstd : std.Lawful) {z w : Str} (h : Spec.MergedKana z w)
    (hv : z.getLast? = some 'ゔ' → ∀ y ∈ Spec.smallKana, w.head? ≠ some y) (v X : Str) :
    romH std (z ++ (w ++ v)) ≠ romH std z ++ (romH std w ++ X) := by
  obtain ⟨x, y, hx, hy, h⟩ := h
  obtain ⟨z, rfl⟩ := List.getLast?_eq_some_iff.1 hx
  obtain ⟨w, rfl⟩ := List.head?_eq_some_iff.1 hy
  rcases h with ⟨rfl, hc, hn⟩ | ⟨rfl, hc, hn⟩ | ⟨hc, hs⟩
  · rw [romH_sokuon_end hstd, List.append_assoc, List.singleton_append, List.cons_append, romH_cut_sokuon hstd]
    intro e
    have e := List.append_cancel_left e
    by_cases hyn : y = 'ん'
    · subst hyn
      obtain ⟨u, hu, hw⟩ := hn rfl
      have hw' : w.head? = some u := by simpa [List.head?_eq_getElem?] using hw
      obtain ⟨w, rfl⟩ := List.head?_eq_some_iff.1 hw'
      have ht := List.all_eq_true.1 nBefore_table u hu
      have huv : u ≠ 'ゔ' := by rintro rfl; revert hu; decide
      split at ht
      · rename_i a d b h1 h2
        rw [show ('っ' :: 'ん' :: (u :: w ++ v)) = ['っ', 'ん'] ++ ([u] ++ (w ++ v)) from rfl,
          romH_leaf hstd (by decide) (by simp) sokuonN, romH_leaf hstd (by simp [Ne.symm huv]) (by simp) h2,
          show ('ん' :: u :: w) = ['ん', u] ++ w from rfl, romH_leaf hstd (by simp [Ne.symm huv]) (by simp) h1] at e
        simp only [List.cons_append, List.nil_append, List.cons.injEq, true_and] at e
        rw [e.1] at ht
        simp at ht
      · cases ht
    · obtain ⟨⟨r, t, e1, d1⟩, _⟩ := romH_doubled hstd hc hyn (w ++ v)
      obtain ⟨_, r', t', e2, d2⟩ := romH_doubled hstd hc hyn w
      rw [e1, e2, List.append_assoc] at e
      exact doubled_ne_single d1 d2 e
  · obtain ⟨z', pre, rfl, hp, hsp⟩ := romH_split hstd (c := 'ん') (by decide) (by decide) z
    rw [List.dropLast_concat] at hn
    rcases hp with ⟨rfl, -⟩ | ⟨rfl, hl⟩
    · have h2 := hsp []
      rw [List.append_assoc, List.singleton_append, hsp, h2]
      intro e
      rw [List.append_assoc] at e
      have e := List.append_cancel_left e
      have ht := List.all_eq_true.1 nBefore_table y hc
      have huv : y ≠ 'ゔ' := by rintro rfl; revert hc; decide
      split at ht
      · rename_i a d b h3 h4
        rw [List.nil_append, List.cons_append, show ('ん' :: y :: (w ++ v)) = ['ん', y] ++ (w ++ v) from rfl,
          romH_leaf hstd (by simp [Ne.symm huv]) (by simp) h3, List.nil_append,
          romH_end hstd (by decide) (by simp) nAlone, show (y :: w) = [y] ++ w from rfl,
          romH_leaf hstd (by simp [Ne.symm huv]) (by simp) h4] at e
        simp only [List.cons_append, List.nil_append, List.cons.injEq, true_and] at e
        rw [← e.1] at ht
        simp at ht
      · cases ht
    · exact absurd hl hn
  · have hxv : x ≠ 'ゔ' := by
      rintro rfl
      exact hv (by simp) y hs rfl
    have hyv : y ≠ 'ゔ' := by rintro rfl; revert hs; decide
    have hd : (Spec.contractionHeads.all fun c => !Spec.afterN.contains c && !Spec.smallKana.contains c) = true := by decide
    have hd := List.all_eq_true.1 hd x hc
    simp only [Bool.and_eq_true, Bool.not_eq_true', List.contains_eq_mem, decide_eq_false_iff_not] at hd
    obtain ⟨z', pre, rfl, hp, hsp⟩ := romH_split hstd hd.1 hd.2 z
    have ht := List.all_eq_true.1 contraction_table x hc
    rw [Bool.or_eq_true, beq_iff_eq] at ht
    have ht := List.all_eq_true.1 (ht.resolve_left hxv) y hs
    have ht := List.all_eq_true.1 ht pre (by rcases hp with h | h <;> simp [h.1])
    have hpv : 'ゔ' ∉ pre := by
      rcases hp with h | h <;> rw [h.1]
      · simp
      · decide
    split at ht
    · rename_i a c b h1 h2
      rw [Bool.and_eq_true, decide_eq_true_iff, Bool.not_eq_true'] at ht
      have h3 := hsp []
      rw [List.append_assoc, List.singleton_append, hsp, h3]
      intro e
      rw [List.append_assoc] at e
      have e := List.append_cancel_left e
      rw [romH_end hstd (by simp [hpv, Ne.symm hxv]) (by simp) h1,
        show pre ++ x :: (y :: w ++ v) = (pre ++ [x, y]) ++ (w ++ v) by simp,
        romH_leaf hstd (by simp [hpv, Ne.symm hxv, Ne.symm hyv]) (by simp) h2] at e
      have hpre : a <+: b := by
        refine ⟨b.drop a.length, ?_⟩
        have := congrArg (List.take a.length) e
        rw [List.take_append_of_le_length ht.1, List.take_left'] at this
        · calc a ++ b.drop a.length = b.take a.length ++ b.drop a.length := by rw [this]
            _ = b := List.take_append_drop _ _
        · rfl
      rw [← List.isPrefixOf_iff_prefix, ht.2] at hpre
      cases hpre
    · cases ht

theorem romH_good {std : Std} (hstd : std.Lawful) {z w : Str} (h : ¬ Spec.MergedKana z w) :
    romH std (z ++ w) = romH std z ++ romH std w := by
  cases hx : z.getLast? with
  | none => rw [List.getLast?_eq_none_iff.1 hx, romH_nil]; rfl
  | some x =>
    cases hy : w.head? with
    | none => rw [List.head?_eq_none_iff.1 hy, romH_nil, List.append_nil, List.append_nil]
    | some y =>
      have hm : ¬ (x = 'っ' ∧ y ∈ Spec.changedBySokuon ∧ (y = 'ん' → ∃ u ∈ Spec.afterN, w[1]? = some u) ∨
          x = 'ん' ∧ y ∈ Spec.afterN ∧ z.dropLast.getLast? ≠ some 'っ' ∨
          x ∈ Spec.contractionHeads ∧ y ∈ Spec.smallKana) := fun hh => h ⟨x, y, hx, hy, hh⟩
      simp only [not_or] at hm
      obtain ⟨m1, m2, m3⟩ := hm
      by_cases hp : pairT x y = false ∨ x = 'っ' ∧ y ∉ Spec.changedBySokuon
      · apply romH_kept hstd
        intro x' y' hx' hy'
        rw [hx] at hx'; cases hx'
        rw [hy] at hy'; cases hy'
        exact hp
      · rw [not_or] at hp
        obtain ⟨z, rfl⟩ := List.getLast?_eq_some_iff.1 hx
        obtain ⟨w, rfl⟩ := List.head?_eq_some_iff.1 hy
        by_cases hxt : x = 'っ'
        · subst hxt
          have hc : y ∈ Spec.changedBySokuon := Classical.byContradiction fun hc => hp.2 ⟨rfl, hc⟩
          have hyn : y = 'ん' := Classical.byContradiction fun hyn => m1 ⟨rfl, hc, fun e => absurd e hyn⟩
          subst hyn
          have hu : ∀ u, w.head? = some u → u ∉ Spec.afterN := by
            intro u hu hu'
            exact m1 ⟨rfl, hc, fun _ => ⟨u, hu', by simpa [List.head?_eq_getElem?] using hu⟩⟩
          rw [romH_sokuon_end hstd, List.append_assoc, List.singleton_append, romH_cut_sokuon hstd]
          rw [show ('っ' :: 'ん' :: w) = ['っ', 'ん'] ++ w from rfl, romH_leaf hstd (by decide) (by simp) sokuonN]
          rw [show ('ん' :: w) = ['ん'] ++ w from rfl, romH_kept hstd ['ん'] w, romH_end hstd (by decide) (by simp) nAlone]
          intro x' y' hx' hy'
          cases hx'
          left
          unfold pairT
          have := hu y' hy'
          simp only [Bool.or_eq_false_iff, Bool.and_eq_false_iff, beq_eq_false_iff_ne, ne_eq, List.contains_eq_mem,
            decide_eq_false_iff_not]
          exact ⟨⟨Or.inl (by decide), Or.inr this⟩, Or.inl (by decide)⟩
        · have hp1 := hp.1
          rw [Bool.not_eq_false] at hp1
          unfold pairT at hp1
          simp only [Bool.or_eq_true, Bool.and_eq_true, beq_iff_eq, hxt, false_and, false_or, List.contains_iff_mem] at hp1
          rcases hp1 with ⟨rfl, hc⟩ | hc
          · have hl : z.getLast? = some 'っ' := by
              apply Classical.byContradiction
              intro hl
              exact m2 ⟨rfl, hc, by rw [List.dropLast_concat]; exact hl⟩
            obtain ⟨z, rfl⟩ := List.getLast?_eq_some_iff.1 hl
            have e1 : ∀ v, (z ++ ['っ'] ++ ['ん']) ++ v = z ++ 'っ' :: (['ん'] ++ v) := by intro v; simp
            have e2 := romH_cut_sokuon hstd z (['ん'] ++ [])
            rw [← e1, List.append_nil] at e2
            rw [e1, romH_cut_sokuon hstd, e2]
            have e3 : ∀ v, ('っ' :: (['ん'] ++ v)) = ['っ', 'ん'] ++ v := fun _ => rfl
            rw [e3, e3, romH_leaf hstd (by decide) (by simp) sokuonN, romH_leaf hstd (by decide) (by simp) sokuonN, romH_nil]
            simp
          · exact absurd hc m3

theorem romH_pieces {std : Std} (hstd : std.Lawful) (r : List Str) : ∀ l : List Str,
    (∀ m p r', r = m ++ p :: r' → (l.flatten ++ m.flatten).getLast? = some 'ゔ' → ∀ y ∈ Spec.smallKana, p.head? ≠ some y) →
    (romH std (l.flatten ++ r.flatten) = romH std l.flatten ++ (r.map (romH std)).flatten ↔
      ∀ m p r', r = m ++ p :: r' → ¬ Spec.MergedKana (l.flatten ++ m.flatten) p) := by
  induction r with
  | nil =>
    intro l _
    simp
  | cons p r ih =>
    intro l hv
    have hl : ∀ m : List Str, (l ++ [p]).flatten ++ m.flatten = l.flatten ++ (p :: m).flatten := by intro m; simp
    by_cases hm : Spec.MergedKana l.flatten p
    · constructor
      · intro e
        exfalso
        rw [List.flatten_cons, List.map_cons, List.flatten_cons] at e
        exact romH_bad hstd hm (by simpa using hv [] p r rfl) _ _ e
      · intro h
        exact absurd hm (by simpa using h [] p r rfl)
    · have h1 := ih (l ++ [p]) (fun m q r' e => by rw [hl]; exact hv (p :: m) q r' (by rw [e]; rfl))
      rw [← hl] 
      rw [List.flatten_append, List.flatten_singleton, romH_good hstd hm, List.append_assoc (romH std _)] at h1
      rw [List.flatten_append, List.flatten_singleton, List.map_cons, List.flatten_cons, h1]
      constructor
      · intro h m q r' e
        cases m with
        | nil => cases e; simpa using hm
        | cons a m =>
          cases e
          have := h m q r' rfl
          rwa [← List.flatten_singleton (l := p), ← List.flatten_append, hl] at this
      · intro h m q r' e
        have := h (p :: m) q r' (by rw [e]; rfl)
        rwa [← hl, List.flatten_append, List.flatten_singleton] at this

/-! ## Vowels make no difference -/

theorem fold_mem (L : List Char) (h : (['あ', 'い', 'う', 'え', 'お'].all fun v => L.contains v == L.contains 'あ') = true)
    (c : Char) : foldVowel c ∈ L ↔ c ∈ L := by
  unfold foldVowel
  split
  · rename_i hc
    have := List.all_eq_true.1 h c hc
    rw [beq_iff_eq] at this
    rw [← List.contains_iff_mem, ← List.contains_iff_mem, this]
  · rfl

theorem fold_eq (d : Char) (h : d ∉ ['あ', 'い', 'う', 'え', 'お']) (c : Char) : foldVowel c = d ↔ c = d := by
  unfold foldVowel
  split
  · rename_i hc
    constructor
    · rintro rfl; exact absurd (by simp) h
    · rintro rfl; exact absurd hc h
  · rfl

theorem mergedKana_fold (z w : Str) : Spec.MergedKana (z.map foldVowel) (w.map foldVowel) ↔ Spec.MergedKana z w := by
  have hz : (z.map foldVowel).dropLast.getLast? = some 'っ' ↔ z.dropLast.getLast? = some 'っ' := by
    rw [List.map_dropLast.symm, List.getLast?_map]
    cases z.dropLast.getLast? with
    | none => simp
    | some t => simp [fold_eq 'っ' (by decide)]
  have hw : (∃ u ∈ Spec.afterN, (w.map foldVowel)[1]? = some u) ↔ ∃ u ∈ Spec.afterN, w[1]? = some u := by
    rw [List.getElem?_map]
    cases w[1]? with
    | none => simp
    | some t =>
      simp only [Option.map_some, Option.some.injEq, exists_eq_right']
      exact fold_mem _ (by decide +kernel) t
  unfold Spec.MergedKana
  rw [List.getLast?_map, List.head?_map, hw]
  simp only [ne_eq, hz]
  constructor
  · rintro ⟨x, y, hx, hy, h⟩
    obtain ⟨x', hx', rfl⟩ := Option.map_eq_some_iff.1 hx
    obtain ⟨y', hy', rfl⟩ := Option.map_eq_some_iff.1 hy
    refine ⟨x', y', hx', hy', ?_⟩
    rw [fold_eq 'っ' (by decide), fold_eq 'ん' (by decide), fold_eq 'ん' (by decide), fold_mem _ (by decide +kernel), fold_mem _ (by decide +kernel),
      fold_mem _ (by decide +kernel), fold_mem _ (by decide +kernel)] at h
    exact h
  · rintro ⟨x, y, hx, hy, h⟩
    refine ⟨foldVowel x, foldVowel y, by rw [hx]; rfl, by rw [hy]; rfl, ?_⟩
    rw [fold_eq 'っ' (by decide), fold_eq 'ん' (by decide), fold_eq 'ん' (by decide), fold_mem _ (by decide +kernel), fold_mem _ (by decide +kernel),
      fold_mem _ (by decide +kernel), fold_mem _ (by decide +kernel)]
    exact h

/-- the hiragana the code converts to, up to the vowel written for a ー after ヴ -/
theorem k2hP_form {std : Std} (hstd : std.Lawful) (a : Str) :
    (k2hP std true none a).map foldVowel = (Spec.hiraganaForm a).map foldVowel := by
  have := k2hP_hiraFromV hstd true a []
  rw [show k2hPrev none [] = none from rfl] at this
  rw [this]
  exact hiraFromV_fold _ _ _ _ _

theorem mergedKana_form {std : Std} (hstd : std.Lawful) (a b : Str) :
    Spec.MergedKana (k2hP std true none a) (k2hP std true none b) ↔
      Spec.MergedKana (Spec.hiraganaForm a) (Spec.hiraganaForm b) := by
  rw [← mergedKana_fold, k2hP_form hstd, k2hP_form hstd, mergedKana_fold]

theorem vuMeetsSmall_form {std : Std} (hstd : std.Lawful) {a b : Str} (h : ¬ Spec.VuMeetsSmall a b)
    (ha : (k2hP std true none a).getLast? = some 'ゔ') (y : Char) (hy : y ∈ Spec.smallKana) :
    (k2hP std true none b).head? ≠ some y := by
  intro hb
  apply h
  have h1 := congrArg List.getLast? (k2hP_form hstd a)
  have h2 := congrArg List.head? (k2hP_form hstd b)
  rw [List.getLast?_map, List.getLast?_map, ha] at h1
  rw [List.head?_map, List.head?_map, hb] at h2
  obtain ⟨x', hx, ex⟩ := Option.map_eq_some_iff.1 h1.symm
  obtain ⟨y', hy', ey⟩ := Option.map_eq_some_iff.1 h2.symm
  refine ⟨?_, y', ?_, hy'⟩
  · rw [hx, (fold_eq 'ゔ' (by decide) x').1 (by rw [ex]; decide)]
  · rw [← fold_mem _ (by decide +kernel), ey, fold_mem _ (by decide +kernel)]
    exact hy

theorem k2hP_parts (std : Std) (r : List Str) : ∀ l : List Str,
    (∀ m p r', r = m ++ p :: r' → ¬ Spec.Prolonged (l.flatten ++ m.flatten) p) →
    k2hP std true none (l.flatten ++ r.flatten) = k2hP std true none l.flatten ++ (r.map (k2hP std true none)).flatten := by
  induction r with
  | nil => intro l _; simp
  | cons p r ih =>
    intro l h
    have hl : ∀ m : List Str, (l ++ [p]).flatten ++ m.flatten = l.flatten ++ (p :: m).flatten := by intro m; simp
    rw [← hl, ih (l ++ [p]) (fun m q r' e => by rw [hl]; exact h (p :: m) q r' (by rw [e]; rfl)),
      List.flatten_append, List.flatten_singleton, k2hP_cut, List.map_cons, List.flatten_cons, List.append_assoc]
    intro _ hg hk hm
    exact h [] p r rfl ⟨_, by simpa using hg, hk, hm⟩

/-! ## C98 -/

/-- **C98** the romaji of the pieces of a text are the romaji of the text exactly if no piece is romanized together with the
text before it -/
theorem C98_pieces {std : Std} (hstd : std.Lawful) (o : Options) (ho : o.upcase_katakana = false) (ps rs : List Str)
    (h : ps.mapM (fun p => to_romaji_with_opt std p o) = .ok rs)
    (hv : ∀ l p r, ps = l ++ p :: r → ¬ Spec.VuMeetsSmall l.flatten p) :
    to_romaji_with_opt std ps.flatten o = .ok rs.flatten ↔ ∀ l p r, ps = l ++ p :: r → ¬ Spec.Merged l.flatten p := by
  have hr : ∀ s, to_romaji_with_opt std s o = .ok (romH std (k2hP std true none s)) := by
    intro s
    rw [to_romaji_eq hstd, ho, rom_romH, flagged_fst hstd]
  rw [mapM_ok ps hr] at h
  cases h
  rw [hr, Except.ok.injEq]
  by_cases hp : ∀ l p r, ps = l ++ p :: r → ¬ Spec.Prolonged l.flatten p
  · have e := k2hP_parts std ps [] (by simpa using hp)
    have ep : ∀ l r, ps = l ++ r → (l.map (k2hP std true none)).flatten = k2hP std true none l.flatten := by
      rintro l r rfl
      have := k2hP_parts std l [] (fun m p r' e => by
        have := hp m p (r' ++ r) (by rw [e]; simp)
        simpa using this)
      rw [List.flatten_nil, List.nil_append, show k2hP std true none [] = [] from rfl, List.nil_append] at this
      exact this.symm
    have hm := romH_pieces hstd (ps.map (k2hP std true none)) [] (by
      intro m p r' e
      obtain ⟨l, q, rfl, rfl, e2⟩ := List.map_eq_append_iff.1 e
      obtain ⟨p', r, rfl, rfl, rfl⟩ := List.map_eq_cons_iff.1 e2
      rw [List.flatten_nil, List.nil_append, ep l (p' :: r) rfl]
      exact vuMeetsSmall_form hstd (hv l p' r rfl))
    rw [List.flatten_nil, List.nil_append, romH_nil, List.nil_append, List.map_map] at hm
    rw [List.flatten_nil, List.nil_append, show k2hP std true none [] = [] from rfl, List.nil_append] at e
    rw [e]
    refine hm.trans ⟨?_, ?_⟩
    · intro hm l p r e hmer
      rcases hmer with hmer | hmer
      · exact hp l p r e hmer
      · refine hm (l.map (k2hP std true none)) (k2hP std true none p) (r.map (k2hP std true none)) (by rw [e]; simp) ?_
        rw [List.nil_append, ep l (p :: r) e, mergedKana_form hstd]
        exact hmer
    · intro hm m p r' e hmer
      obtain ⟨l, q, rfl, rfl, e2⟩ := List.map_eq_append_iff.1 e
      obtain ⟨p', r, rfl, rfl, rfl⟩ := List.map_eq_cons_iff.1 e2
      rw [List.nil_append, ep l (p' :: r) rfl, mergedKana_form hstd] at hmer
      exact hm l p' r rfl (Or.inr hmer)
  · constructor
    · intro e
      exfalso
      apply hp
      rintro l p r rfl hpr
      have hlt := marks_pieces_lt hstd l r p hpr
      have e := congrArg (List.countP (· == '-')) e
      rw [romH_dashes hstd] at e
      have hs : ∀ L : List Str, (L.map fun s => romH std (k2hP std true none s)).flatten.countP (· == '-') =
          (L.flatMap (k2hP std true none)).countP isMark := by
        intro L
        induction L with
        | nil => rfl
        | cons a L ih =>
          rw [List.map_cons, List.flatten_cons, List.countP_append, ih, romH_dashes hstd, List.flatMap_cons,
            List.countP_append]
      rw [hs] at e
      omega
    · intro hm
      exact absurd (fun l p r e hpr => hm l p r e (Or.inl hpr)) hp

/-- **C98** two texts may be converted separately exactly if they are not romanized together where they meet -/
theorem C98_cut {std : Std} (hstd : std.Lawful) (o : Options) (ho : o.upcase_katakana = false) (a b ra rb : Str)
    (h1 : to_romaji_with_opt std a o = .ok ra) (h2 : to_romaji_with_opt std b o = .ok rb)
    (hv : ¬ Spec.VuMeetsSmall a b) :
    to_romaji_with_opt std (a ++ b) o = .ok (ra ++ rb) ↔ ¬ Spec.Merged a b := by
  have hnil : ∀ p : Str, ¬ Spec.VuMeetsSmall [] p ∧ ¬ Spec.Merged [] p := by
    refine fun p => ⟨?_, ?_⟩
    · rintro ⟨h, -⟩; cases h
    · rintro (⟨g, h, -⟩ | ⟨x, y, h, -⟩) <;> cases h
  have h := C98_pieces hstd o ho [a, b] [ra, rb] (by rw [List.mapM_cons, h1, ok_bind, List.mapM_cons, h2]; rfl) (by
    intro l p r e
    match l, e with
    | [], e => exact (hnil p).1
    | [x], e => cases e; simpa using hv
    | x :: y :: l, e => cases l <;> cases e)
  simp only [List.flatten_cons, List.flatten_nil, List.append_nil] at h
  rw [h]
  constructor
  · intro h
    simpa using h [a] b [] rfl
  · intro h l p r e
    match l, e with
    | [], e => exact (hnil p).2
    | [x], e => cases e; simpa using h
    | x :: y :: l, e => cases l <;> cases e

/-- **C98** in particular for the tokens of a text -/
theorem C98_tokens {std : Std} (hstd : std.Lawful) (o : Options) (ho : o.upcase_katakana = false) (s : Str) (compact : Bool)
    (rs : List Str) (h : (tokenize_with_opt s compact).mapM (fun p => to_romaji_with_opt std p o) = .ok rs)
    (hv : ∀ l p r, tokenize_with_opt s compact = l ++ p :: r → ¬ Spec.VuMeetsSmall l.flatten p) :
    to_romaji_with_opt std s o = .ok rs.flatten ↔
      ∀ l p r, tokenize_with_opt s compact = l ++ p :: r → ¬ Spec.Merged l.flatten p := by
  have := C98_pieces hstd o ho _ rs h hv
  rwa [(C45_concat s compact).1] at this

theorem kana_compact_ja : (kanaList.all fun c =>
    decide (Spec.toHira c = 'ゔ' ∨ Spec.toHira c ∈ Spec.smallKana → get_type c true = .Ja)) = true := by decide +kernel

/-- the compact tokens never separate ゔ from a small kana -/
theorem compact_vu (s : Str) (l : List Str) (p : Str) (r : List Str) (h : tokenize_with_opt s true = l ++ p :: r) :
    ¬ Spec.VuMeetsSmall l.flatten p := by
  rintro ⟨hx, y, hy, hy'⟩
  have hstd := modernStd_lawful
  have h1 := congrArg List.getLast? (k2hP_form hstd l.flatten)
  have h2 := congrArg List.head? (k2hP_form hstd p)
  rw [List.getLast?_map, List.getLast?_map, hx] at h1
  rw [List.head?_map, List.head?_map, hy', k2hP_head_hira] at h2
  obtain ⟨x', hx', ex⟩ := Option.map_eq_some_iff.1 h1
  obtain ⟨y', hy', ey⟩ := Option.map_eq_some_iff.1 h2
  obtain ⟨d, hd, rfl⟩ := Option.map_eq_some_iff.1 hy'
  have ex : x' = 'ゔ' := (fold_eq 'ゔ' (by decide) x').1 (by rw [ex]; decide)
  have ey : Spec.toHira d ∈ Spec.smallKana := by
    rw [← fold_mem _ (by decide), ey, fold_mem _ (by decide)]; exact hy
  subst ex
  have kx : ∃ c, l.flatten.getLast? = some c ∧ Spec.toHira c = 'ゔ' := by
    cases hl : l.flatten.getLast? with
    | none => rw [List.getLast?_eq_none_iff.1 hl] at hx'; cases hx'
    | some c =>
      rcases k2hP_last hstd hl hx' with ⟨-, e⟩ | ⟨-, e⟩
      · exact ⟨c, rfl, e.symm⟩
      · exact absurd e (by decide)
  obtain ⟨c, hc, ec⟩ := kx
  have e1 := C68_retokenize s true [] l (p :: r) h
  have e2 := C68_retokenize s true l (p :: r) [] (by simpa using h)
  have e3 : tokenize_with_opt (l.flatten ++ (p :: r).flatten) true =
      tokenize_with_opt l.flatten true ++ tokenize_with_opt (p :: r).flatten true := by
    rw [e1, e2, ← List.flatten_append, ← h, (C45_concat s true).1]
  have hne := (C48_split_iff _ _ true).1 e3 c d hc (by
    obtain ⟨p, rfl⟩ := List.head?_eq_some_iff.1 hd
    rfl)
  have t : ∀ k, Spec.toHira k = 'ゔ' ∨ Spec.toHira k ∈ Spec.smallKana → get_type k true = .Ja := by
    intro k hk
    have hm : k ∈ kanaList := by
      apply toHira_kanaList
      rcases hk with hk | hk
      · rw [hk]; decide
      · revert hk
        generalize Spec.toHira k = q
        have : (Spec.smallKana.all fun q => decide (0x3041 ≤ q.toNat ∧ q.toNat ≤ 0x3096)) = true := by decide
        intro hk
        simpa using List.all_eq_true.1 this q hk
    exact of_decide_eq_true (List.all_eq_true.1 kana_compact_ja k hm) hk
  exact hne ((t c (Or.inl ec)).trans (t d (Or.inr ey)).symm)

/-- **C98** compact tokens can always be compared -/
theorem C98_compact {std : Std} (hstd : std.Lawful) (o : Options) (ho : o.upcase_katakana = false) (s : Str)
    (rs : List Str) (h : (tokenize_with_opt s true).mapM (fun p => to_romaji_with_opt std p o) = .ok rs) :
    to_romaji_with_opt std s o = .ok rs.flatten ↔
      ∀ l p r, tokenize_with_opt s true = l ++ p :: r → ¬ Spec.Merged l.flatten p :=
  C98_tokens hstd o ho s true rs h (compact_vu s)

/-- 感じ and a reading in katakana may be taken apart; ラーメン not before its ー, which is a token of its own, and
さんえん not before the え -/
example : tokenize "ラーメン".toList = ["ラ".toList, "ー".toList, "メン".toList] ∧
    to_romaji modernStd "ラーメン".toList = .ok "raamen".toList ∧
    to_romaji modernStd "ー".toList = .ok "-".toList ∧
    Spec.Merged "ラ".toList "ー".toList ∧
    to_romaji modernStd "さんえん".toList = .ok "san'en".toList ∧
    Spec.Merged "さん".toList "えん".toList := by
  refine ⟨by decide, by decide +kernel, by decide +kernel, Or.inl ⟨'ラ', by decide, by decide, by decide⟩, by decide +kernel,
    Or.inr ⟨'ん', 'え', by decide, by decide, Or.inr (Or.inl ⟨rfl, by decide, by decide⟩)⟩⟩

/-- a small っ takes away the apostrophe of ん: っ|ん|い would be converted correctly in three pieces but not in two -/
example : to_romaji modernStd "っんい".toList = .ok "ni".toList ∧ to_romaji modernStd "っ".toList = .ok [] ∧
    to_romaji modernStd "ん".toList = .ok "n".toList ∧ to_romaji modernStd "い".toList = .ok "i".toList ∧
    to_romaji modernStd "んい".toList = .ok "n'i".toList := by decide +kernel

end WanaKana
