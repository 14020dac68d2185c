import Verif.Proofs.K2h
import Verif.Proofs.Scan
/-! # `to_romaji` as a pure scan

The scan runs over the hiragana text paired with the information whether the original
character *at the same position* is katakana. -/

namespace WanaKana
open RNode

namespace RNode

/-- the walk of `get` as a pure function -/
def rlook (std : Std) (t : RNode) : Str → RNode × Nat
  | [] => (t, 0)
  | c :: s => match t.rfind std c with
    | none => (t, 0)
    | some x => ((x.rlook std s).1, (x.rlook std s).2 + 1)

theorem rlook_stops (std : Std) (s : Str) : ∀ (t : RNode), RStops std t s (t.rlook std s).1 (t.rlook std s).2 := by
  induction s with
  | nil => intro t; exact ⟨by simp [rlook], rfl, by simp⟩
  | cons c s ih =>
    intro t
    rw [rlook]
    cases hf : t.rfind std c with
    | none => exact ⟨by simp, rfl, by intro d hd; simp at hd; subst hd; exact hf⟩
    | some x =>
      have h := ih x
      refine ⟨by have := h.le; simpa using this, ?_, ?_⟩
      · simp only [List.take_succ_cons, rwalk, hf]; exact h.walk
      · simpa using h.stop

end RNode

/-- ASCII capital -/
def aUp (c : Char) : Char := if 97 ≤ c.toNat ∧ c.toNat ≤ 122 then Char.ofNat (c.toNat - 32) else c

theorem aUp_toNat (c : Char) : (aUp c).toNat =
    if 97 ≤ c.toNat ∧ c.toNat ≤ 122 then c.toNat - 32 else c.toNat := by
  unfold aUp
  split
  · rw [toNat_ofNat_lt (by omega)]
  · rfl

/-- one step: output and number of characters -/
def rStep (std : Std) (up : Bool) (z : List (Char × Bool)) : Str × Nat :=
  let r := TO_ROMAJI_NODE_TREE.rlook std (z.map Prod.fst)
  if r.2 = 0 then ((z.map Prod.fst).take 1, 1)
  else (if (z.take r.2).all Prod.snd && up then r.1.output.map aUp else r.1.output, r.2)

/-- `to_romaji` on hiragana text paired with "the original was katakana" -/
def rom (std : Std) (up : Bool) (z : List (Char × Bool)) : Str := scan (rStep std up) z

theorem rom_nil (std : Std) (up : Bool) : rom std up [] = [] := scan_nil _

theorem rStep_pos (std : Std) (up : Bool) (z : List (Char × Bool)) : 1 ≤ (rStep std up z).2 := by
  unfold rStep
  simp only []
  split
  · exact Nat.le_refl _
  · simp only []; omega

theorem rom_step (std : Std) (up : Bool) {z : List (Char × Bool)} (hz : z ≠ []) :
    rom std up z = (rStep std up z).1 ++ rom std up (z.drop (rStep std up z).2) :=
  scan_step _ hz (rStep_pos std up z)

theorem rlook_zero {std : Std} {c : Char} {s : Str} (h : (TO_ROMAJI_NODE_TREE.rlook std (c :: s)).2 = 0) :
    TO_ROMAJI_NODE_TREE.rfind std c = none := by
  rw [rlook] at h
  cases hf : TO_ROMAJI_NODE_TREE.rfind std c with
  | none => rfl
  | some x => rw [hf] at h; cases h

/-- a character without entry is passed through -/
theorem rom_miss {std : Std} {up : Bool} {c : Char} {b : Bool} {z : List (Char × Bool)}
    (h : TO_ROMAJI_NODE_TREE.rfind std c = none) : rom std up ((c, b) :: z) = c :: rom std up z := by
  rw [rom_step _ _ (List.cons_ne_nil _ _)]
  have : rStep std up ((c, b) :: z) = ([c], 1) := by
    unfold rStep
    simp only [List.map_cons, rlook, h, if_true, List.take_succ_cons, List.take_zero]
  rw [this]
  rfl

/-- a hit -/
theorem rom_hit {std : Std} {up : Bool} {z : List (Char × Bool)} {n : RNode} {k : Nat}
    (h : RStops std TO_ROMAJI_NODE_TREE (z.map Prod.fst) n k) (hk : k ≠ 0) :
    rom std up z = (if (z.take k).all Prod.snd && up then n.output.map aUp else n.output)
      ++ rom std up (z.drop k) := by
  have hz : z ≠ [] := by
    intro e; subst e
    have := h.le
    simp at this; omega
  obtain ⟨e1, e2⟩ := rstops_unique _ h (rlook_stops std (z.map Prod.fst) TO_ROMAJI_NODE_TREE)
  rw [rom_step _ _ hz]
  have : rStep std up z = (if (z.take k).all Prod.snd && up then n.output.map aUp else n.output, k) := by
    unfold rStep
    simp only [← e1, ← e2, if_neg hk]
  rw [this]

/-- every text starts with a hit or a miss -/
theorem rom_cases (std : Std) (c : Char) (s : Str) :
    TO_ROMAJI_NODE_TREE.rfind std c = none ∨
    ∃ n k, k ≠ 0 ∧ RStops std TO_ROMAJI_NODE_TREE (c :: s) n k := by
  by_cases h : (TO_ROMAJI_NODE_TREE.rlook std (c :: s)).2 = 0
  · exact Or.inl (rlook_zero h)
  · exact Or.inr ⟨_, _, h, rlook_stops std _ _⟩

/-! ## Finite facts about the tree -/

/-- characters used as keys of the tree -/
def romajiKey (c : Char) : Bool :=
  decide (0x3041 ≤ c.toNat ∧ c.toNat ≤ 0x3094) || "　、。「」『』〜・ーヷ！（）：？［］｛｝".toList.contains c

/-- characters occurring in outputs -/
def romajiOut (c : Char) : Bool :=
  decide (97 ≤ c.toNat ∧ c.toNat ≤ 122) || " ,.‘’“”~/-!():?[]{}'".toList.contains c

theorem rwalk_facts {std : Std} (hstd : std.Lawful) {p : Str} {n : RNode}
    (h : TO_ROMAJI_NODE_TREE.rwalk std p = some n) :
    (∀ c ∈ p, romajiKey c = true) ∧ (∀ c ∈ n.output, romajiOut c = true)
      ∧ n.output.length ≤ 3 * p.length ∧ p.length ≤ 3 := by
  have hc : (TO_ROMAJI_NODE_TREE.paths.all fun x => x.1.all romajiKey && x.2.output.all romajiOut
      && decide (x.2.output.length ≤ 3 * x.1.length) && decide (x.1.length ≤ 3)) = true := by decide +kernel
  have := rwalk_check hstd hc h
  simp only [Bool.and_eq_true, List.all_eq_true, decide_eq_true_iff] at this
  exact ⟨this.1.1.1, this.1.1.2, this.1.2, this.2⟩

theorem romajiKey_iff {c : Char} : romajiKey c = true ↔ (0x3041 ≤ c.toNat ∧ c.toNat ≤ 0x3094) ∨
    c.toNat ∈ [0x3000, 0x3001, 0x3002, 0x300C, 0x300D, 0x300E, 0x300F, 0x301C, 0x30FB, 0x30FC, 0x30F7,
      0xFF01, 0xFF08, 0xFF09, 0xFF1A, 0xFF1F, 0xFF3B, 0xFF3D, 0xFF5B, 0xFF5D] := by
  have h : "　、。「」『』〜・ーヷ！（）：？［］｛｝".toList = ['　', '、', '。', '「', '」', '『', '』', '〜', '・', 'ー',
    'ヷ', '！', '（', '）', '：', '？', '［', '］', '｛', '｝'] := by decide
  simp only [romajiKey, h, Bool.or_eq_true, decide_eq_true_iff, List.contains_iff_mem, List.mem_cons,
    List.not_mem_nil, or_false, char_eq_iff, Char.reduceToNat]

theorem romajiOut_iff {c : Char} : romajiOut c = true ↔ (97 ≤ c.toNat ∧ c.toNat ≤ 122) ∨
    c.toNat ∈ [0x20, 0x2C, 0x2E, 0x2018, 0x2019, 0x201C, 0x201D, 0x7E, 0x2F, 0x2D, 0x21, 0x28, 0x29, 0x3A,
      0x3F, 0x5B, 0x5D, 0x7B, 0x7D, 0x27] := by
  have h : " ,.‘’“”~/-!():?[]{}'".toList = [' ', ',', '.', '‘', '’', '“', '”', '~', '/', '-', '!', '(', ')', ':',
    '?', '[', ']', '{', '}', '\''] := by decide
  simp only [romajiOut, h, Bool.or_eq_true, decide_eq_true_iff, List.contains_iff_mem, List.mem_cons,
    List.not_mem_nil, or_false, char_eq_iff, Char.reduceToNat]

theorem rfind_key {std : Std} (hstd : std.Lawful) {p : Str} {n x : RNode}
    (h : TO_ROMAJI_NODE_TREE.rwalk std p = some n) {c : Char} (hf : n.rfind std c = some x) :
    romajiKey c = true := by
  apply (rwalk_facts hstd (p := p ++ [c]) (n := x) _).1 c (by simp)
  rw [rwalk_append, h]
  simp [rwalk_singleton, hf]

theorem root_none {std : Std} (hstd : std.Lawful) {c : Char} (h : romajiKey c = false) :
    TO_ROMAJI_NODE_TREE.rfind std c = none := by
  cases hf : TO_ROMAJI_NODE_TREE.rfind std c with
  | none => rfl
  | some x => rw [rfind_key hstd (p := []) rfl hf] at h; cases h

theorem root_some {std : Std} (hstd : std.Lawful) {c : Char} (h : romajiKey c = true) :
    ∃ n, TO_ROMAJI_NODE_TREE.rfind std c = some n := by
  rw [romajiKey_iff] at h
  rcases h with h | h
  · exact root_has hstd h.1 h.2
  · have hc : ("　、。「」『』〜・ーヷ！（）：？［］｛｝".toList.all fun c =>
        (TO_ROMAJI_NODE_TREE.ts.map fun t => t.1).contains c) = true := by decide +kernel
    have hm : c ∈ "　、。「」『』〜・ーヷ！（）：？［］｛｝".toList := by
      have : romajiKey c = true := romajiKey_iff.2 (Or.inr h)
      simp only [romajiKey, Bool.or_eq_true, decide_eq_true_iff, List.contains_iff_mem] at this
      rcases this with h1 | h1
      · simp only [List.mem_cons, List.not_mem_nil, or_false] at h
        omega
      · exact h1
    have := List.all_eq_true.1 hc c hm
    rw [List.contains_iff_mem, List.mem_map] at this
    obtain ⟨⟨d, x⟩, hx, hd⟩ := this
    simp at hd; subst hd
    exact rfind_isSome hstd (p := []) rfl hx

theorem toUppercase_out {std : Std} (hstd : std.Lawful) {o : Str} (h : ∀ c ∈ o, romajiOut c = true) :
    std.toUppercase o = o.map aUp := by
  unfold Std.toUppercase
  induction o with
  | nil => rfl
  | cons c o ih =>
    rw [List.flatMap_cons, ih fun d hd => h d (List.mem_cons_of_mem _ hd)]
    have hc := romajiOut_iff.1 (h c List.mem_cons_self)
    simp only [List.mem_cons, List.not_mem_nil, or_false] at hc
    by_cases ha : c.toNat < 128
    · rw [hstd.upperChar_ascii c ha]; rfl
    · rw [hstd.upperChar_uncased c (by unfold Uncased; omega)]
      have : aUp c = c := by unfold aUp; rw [if_neg (by omega)]
      rw [List.map_cons, this]; rfl

/-! ## the loop computes the scan -/

theorem toRomajiLoop_eq {std : Std} (hstd : std.Lawful) (o : Options) (orig chars : Str)
    (hle : chars.length ≤ orig.length) :
    ∀ (fuel pos : Nat) (out : Str), pos ≤ chars.length → chars.length - pos < fuel →
      toRomajiLoop std o orig chars chars.length fuel pos out
        = .ok (out ++ rom std o.upcase_katakana ((chars.zip (orig.map is_char_katakana)).drop pos)) := by
  intro fuel
  induction fuel with
  | zero => intro pos out _ h; omega
  | succ fuel ih =>
    intro pos out hpos hfuel
    rw [toRomajiLoop]
    have hzl : (chars.zip (orig.map is_char_katakana)).length = chars.length := by
      simp [List.length_zip]; omega
    by_cases hp : pos = chars.length
    · subst hp
      rw [if_neg (by simp), List.drop_eq_nil_of_le (by omega)]
      simp [rom_nil]
    · rw [if_pos hp]
      have hsl : sliceFrom chars pos = .ok (chars.drop pos) := by unfold sliceFrom; rw [if_pos hpos]
      have hfst : ((chars.zip (orig.map is_char_katakana)).drop pos).map Prod.fst = chars.drop pos := by
        rw [List.map_drop, List.map_fst_zip (by simpa using hle)]
      obtain ⟨c, r, hd⟩ : ∃ c r, (chars.zip (orig.map is_char_katakana)).drop pos = c :: r := by
        cases hd : (chars.zip (orig.map is_char_katakana)).drop pos with
        | nil => have := congrArg List.length hd; rw [List.length_drop, hzl] at this; simp at this; omega
        | cons c r => exact ⟨c, r, rfl⟩
      have hr : r = (chars.zip (orig.map is_char_katakana)).drop (pos + 1) := by
        have := congrArg (List.drop 1) hd
        simpa using this.symm
      rw [hd, List.map_cons] at hfst
      obtain ⟨n, k, hget, hst⟩ := rget_ok hstd romaji_sorted (chars.drop pos)
      rw [hsl, ok_bind, hget, ok_bind]
      by_cases hk : k = 0
      · subst hk
        have hnone : TO_ROMAJI_NODE_TREE.rfind std c.1 = none := by
          have h1 := hst.walk
          simp only [List.take_zero, rwalk, Option.some.injEq] at h1
          subst h1
          exact hst.stop c.1 (by rw [← hfst]; rfl)
        have hidx : index chars pos = .ok c.1 := by
          unfold index
          rw [getElem?_of_drop hfst.symm]; rfl
        simp only [beq_self_eq_true, if_true, hidx, ok_bind]
        rw [ih (pos + 1) _ (by omega) (by omega), hd, hr]
        rw [show (c :: (chars.zip (orig.map is_char_katakana)).drop (pos + 1))
          = ((c.1, c.2) :: (chars.zip (orig.map is_char_katakana)).drop (pos + 1)) from rfl, rom_miss hnone]
        simp
      · have hkl : pos + k ≤ chars.length := by
          have := hst.le; simp [List.length_drop] at this; omega
        have hslice : slice orig pos (pos + k) = .ok ((orig.drop pos).take k) := by
          unfold slice
          rw [if_pos (by omega)]
          congr 2; omega
        have hb : ¬ ((k == 0) = true) := by simpa using hk
        simp only [hb, hslice, ok_bind]
        rw [ih (pos + k) _ hkl (by omega)]
        have hall : (((chars.zip (orig.map is_char_katakana)).drop pos).take k).all Prod.snd
            = ((orig.drop pos).take k).all is_char_katakana := by
          rw [List.zip, List.drop_zipWith, List.take_zipWith, ← List.map_drop, ← List.map_take]
          have hl : ((orig.drop pos).take k).length ≤ ((chars.drop pos).take k).length := by
            simp; omega
          revert hl
          generalize (orig.drop pos).take k = x
          generalize (chars.drop pos).take k = y
          induction x generalizing y with
          | nil => intro _; cases y <;> rfl
          | cons a x ih =>
            intro hl
            cases y with
            | nil => simp at hl
            | cons b y =>
              simp only [List.map_cons, List.zipWith_cons_cons, List.all_cons]
              rw [ih y (by simpa using hl)]
        rw [rom_hit (z := (chars.zip (orig.map is_char_katakana)).drop pos) (n := n) (k := k) (by
          rw [hd, List.map_cons, hfst]; exact hst) hk]
        rw [hall, List.drop_drop, toUppercase_out hstd (rwalk_facts hstd hst.walk).2.1]
        cases ((orig.drop pos).take k).all is_char_katakana <;> cases o.upcase_katakana <;>
          simp

/-- text paired with the katakana flags of the original -/
def flagged (std : Std) (s : Str) : List (Char × Bool) :=
  (k2hP std true none s).zip (s.map is_char_katakana)

theorem k2hP_length_le {std : Std} (hstd : std.Lawful) (dest : Bool) (s : Str) : ∀ {prev}, PrevOk prev →
    (k2hP std dest prev s).length ≤ s.length := by
  induction s with
  | nil => intro prev _; cases prev <;> simp [k2hP]
  | cons c s ih =>
    intro prev hok
    rw [k2hP_cons]
    by_cases hk : keeps c = true
    · have := ih hok; simp [hk, this]
    · by_cases hd : isDash c = true
      · cases prev with
        | none => have := ih hok; simp [hk, hd, this]
        | some p =>
          have h1 := ih hok
          obtain ⟨n, hn⟩ := root_has hstd (hok p rfl).1 (hok p rfl).2
          have h2 : (longOut std dest c p).length ≤ 1 := by
            rw [longOut, hn]
            simp only []
            split
            · simp
            · cases n.output.getLast?.bind LONG_VOWELS <;> simp
          simp [hk, hd]; omega
      · by_cases ha : is_char_katakana c = true
        · have := ih (k2hChar_prevOk (by simpa using hk) (by simpa using hd) ha)
          simp [hk, hd, ha, this]
        · have := ih prevOk_none
          simp [hk, hd, ha, this]

theorem flagged_fst {std : Std} (hstd : std.Lawful) (s : Str) :
    (flagged std s).map Prod.fst = k2hP std true none s := by
  unfold flagged
  rw [List.map_fst_zip]
  simpa using k2hP_length_le hstd true s prevOk_none

/-- `to_romaji_with_opt` never fails -/
theorem to_romaji_eq {std : Std} (hstd : std.Lawful) (s : Str) (o : Options) :
    to_romaji_with_opt std s o = .ok (rom std o.upcase_katakana (flagged std s)) := by
  unfold to_romaji_with_opt
  rw [k2h_eq hstd, ok_bind,
    toRomajiLoop_eq hstd o s _ (k2hP_length_le hstd true s prevOk_none) _ 0 [] (by omega) (by omega)]
  rfl

end WanaKana
