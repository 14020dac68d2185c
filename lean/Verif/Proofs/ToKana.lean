import Verif.Model.Convert
import Verif.Proofs.Chars
import Verif.Proofs.Scan
import Verif.Proofs.KanaTrie
/-! # `to_kana_with_opt` as a pure scan over the trie of the selected mode -/

namespace WanaKana

theorem ok_bind {α β : Type} (a : α) (f : α → Res β) : (Except.ok a : Res α) >>= f = f a := rfl

/-! ## hiragana_to_katakana -/

/-- the katakana counterpart of a hiragana letter -/
def h2kP (c : Char) : Char :=
  if 0x3041 ≤ c.toNat ∧ c.toNat ≤ 0x3096 then Char.ofNat (c.toNat + 0x60) else c

theorem h2kChar_eq (c : Char) : h2kChar c = .ok (h2kP c) := by
  have hv := char_valid c
  unfold h2kChar h2kP
  by_cases h : 0x3041 ≤ c.toNat ∧ c.toNat ≤ 0x3096
  · have h1 : is_char_long_dash c = false := by
      rw [Bool.eq_false_iff, Ne, is_char_long_dash_iff]; omega
    have h2 : is_char_slash_dot c = false := by
      rw [Bool.eq_false_iff, Ne, is_char_slash_dot_iff]; omega
    have h3 : is_char_hiragana c = true := by rw [is_char_hiragana_iff]; omega
    have h4 : i32AsU32 ((c.toNat : Int) + ((KATAKANA_START : Int) - (HIRAGANA_START : Int)))
        = c.toNat + 0x60 := by
      unfold i32AsU32 KATAKANA_START HIRAGANA_START; omega
    have h5 : (c.toNat + 0x60).isValidChar := Or.inl (by omega)
    simp only [h1, h2, h3, h4, if_pos h, Bool.or_self, Bool.false_eq_true, if_false, if_true,
      charFromU32, if_pos h5, unwrap]
  · rw [if_neg h]
    by_cases h1 : is_char_long_dash c || is_char_slash_dot c
    · rw [if_pos h1]
    · rw [if_neg h1]
      have h3 : is_char_hiragana c = false := by
        rw [Bool.eq_false_iff, Ne, is_char_hiragana_iff]
        simp only [Bool.or_eq_true, is_char_long_dash_iff, is_char_slash_dot_iff] at h1
        omega
      simp [h3]

theorem hiragana_to_katakana_eq (s : Str) : hiragana_to_katakana s = .ok (s.map h2kP) := by
  induction s with
  | nil => rfl
  | cons c s ih => simp only [hiragana_to_katakana, h2kChar_eq, ih]; rfl

theorem h2kP_toNat (c : Char) : (h2kP c).toNat =
    if 0x3041 ≤ c.toNat ∧ c.toNat ≤ 0x3096 then c.toNat + 0x60 else c.toNat := by
  unfold h2kP
  split
  · rw [toNat_ofNat_lt (by omega)]
  · rfl

theorem h2kP_idem (c : Char) : h2kP (h2kP c) = h2kP c := by
  apply char_ext
  simp only [h2kP_toNat]
  repeat' split
  all_goals omega

/-! ## lower case -/

theorem toAsciiLowercase_toNat (c : Char) : (toAsciiLowercase c).toNat =
    if 65 ≤ c.toNat ∧ c.toNat ≤ 90 then c.toNat + 32 else c.toNat := by
  unfold toAsciiLowercase
  split
  · rw [toNat_ofNat_lt (by omega)]
  · rfl

theorem toAsciiLowercase_idem (c : Char) :
    toAsciiLowercase (toAsciiLowercase c) = toAsciiLowercase c := by
  apply char_ext
  simp only [toAsciiLowercase_toNat]
  repeat' split
  all_goals omega

/-- ASCII capital -/
def aUpper (c : Char) : Bool := decide (65 ≤ c.toNat ∧ c.toNat ≤ 90)

theorem aUpper_iff {c : Char} : aUpper c = true ↔ 65 ≤ c.toNat ∧ c.toNat ≤ 90 := decide_eq_true_iff

theorem toAsciiLowercase_of_not_upper {c : Char} (h : aUpper c = false) : toAsciiLowercase c = c := by
  apply char_ext
  rw [toAsciiLowercase_toNat, if_neg]
  rw [← aUpper_iff, h]; simp

/-! ## the three modes -/

/-- which of the three trees is used -/
inductive Mode | normal | obsolete | ime
deriving DecidableEq, Repr

/-- the mode selected by the options -/
def modeOf (o : Options) : Mode :=
  if o.use_obsolete_kana then .obsolete else if o.imemode then .ime else .normal

/-- the tree of a mode (the fallback is never used, see `obs_ok`, `ime_ok`) -/
def tree : Mode → KNode
  | .normal => TO_KANA_NODE_TREE
  | .obsolete => match TO_KANA_NODE_TREE_OBSOLETE with
    | .ok t => t
    | .error _ => .mk [] none
  | .ime => match TO_KANA_NODE_TREE_IMEMODE with
    | .ok t => t
    | .error _ => .mk [] none

/-- `Except` succeeded -/
def Res.isOk' {α : Type} : Res α → Bool
  | .ok _ => true
  | .error _ => false

theorem obs_isOk : Res.isOk' TO_KANA_NODE_TREE_OBSOLETE = true := by decide +kernel
theorem ime_isOk : Res.isOk' TO_KANA_NODE_TREE_IMEMODE = true := by decide +kernel

theorem obs_ok : TO_KANA_NODE_TREE_OBSOLETE = .ok (tree .obsolete) := by
  have h := obs_isOk
  unfold tree
  cases e : TO_KANA_NODE_TREE_OBSOLETE with
  | ok t => rfl
  | error f => rw [e] at h; cases h

theorem ime_ok : TO_KANA_NODE_TREE_IMEMODE = .ok (tree .ime) := by
  have h := ime_isOk
  unfold tree
  cases e : TO_KANA_NODE_TREE_IMEMODE with
  | ok t => rfl
  | error f => rw [e] at h; cases h

theorem toKanaLookup_eq (o : Options) (s : Str) :
    toKanaLookup o s = .ok ((tree (modeOf o)).get s) := by
  unfold toKanaLookup modeOf
  by_cases h1 : o.use_obsolete_kana
  · simp only [h1, if_true, obs_ok]; rfl
  · by_cases h2 : o.imemode
    · simp only [h1, h2, if_true, ime_ok]; rfl
    · simp only [h1, h2]; rfl

/-- check every node of all three trees -/
def allModes (f : Mode → Str × KNode → Bool) : Bool :=
  [Mode.normal, .obsolete, .ime].all fun m => (tree m).paths.all (f m)

theorem allModes_walk {f : Mode → Str × KNode → Bool} (h : allModes f = true) {m : Mode} {p : Str}
    {n : KNode} (hw : (tree m).walk p = some n) : f m (p, n) = true := by
  have h' : ((tree m).paths.all (f m)) = true := by
    apply List.all_eq_true.1 h
    cases m <;> simp
  exact KNode.walk_check h' hw

/-! ## facts about all nodes of all trees -/

theorem tree_output (m : Mode) : (tree m).output = none := by cases m <;> decide +kernel

/-- characters on the paths of the tries -/
def keyChar (c : Char) : Bool :=
  decide (97 ≤ c.toNat ∧ c.toNat ≤ 122) || ['!', '\'', '(', ')', ',', '-', '.', '/', ':', '?', '[', ']', '{', '}', '~',
    '‘', '’', '“', '”', ' '].contains c

theorem walk_keyChar {m : Mode} {p : Str} {n : KNode} (hw : (tree m).walk p = some n) :
    ∀ c ∈ p, keyChar c = true := by
  have h : allModes (fun _ x => x.1.all keyChar) = true := by decide +kernel
  exact fun c hc => List.all_eq_true.1 (allModes_walk h hw) c hc

theorem keyChar_iff {c : Char} : keyChar c = true ↔ (97 ≤ c.toNat ∧ c.toNat ≤ 122) ∨
    c.toNat ∈ [33, 39, 40, 41, 44, 45, 46, 47, 58, 63, 91, 93, 123, 125, 126, 0x2018, 0x2019,
      0x201C, 0x201D, 32] := by
  simp only [keyChar, Bool.or_eq_true, decide_eq_true_iff, List.contains_iff_mem, List.mem_cons,
    List.not_mem_nil, or_false, char_eq_iff, Char.reduceToNat]

/-! ## the pure step -/

/-- kana produced for the consumed text: katakana iff all of it is in capitals -/
def styled (consumed out : Str) : Str := if consumed.all aUpper then out.map h2kP else out

/-- one iteration of the loop: output and number of characters consumed -/
def kStep (t : KNode) (s : Str) : Str × Nat :=
  match t.get s with
  | (some out, k + 1) => (styled (s.take (k + 1)) out, k + 1)
  | _ => (s.take 1, 1)

/-- `to_kana` as a pure function -/
def kana (m : Mode) (s : Str) : Str := scan (kStep (tree m)) s

theorem kStep_of_stops {m : Mode} {s : Str} {n : KNode} {k : Nat} (h : KNode.Stops (tree m) s n k) :
    kStep (tree m) s = match n.output with
      | some out => (styled (s.take k) out, k)
      | none => (s.take 1, 1) := by
  unfold kStep
  rw [KNode.get_of_stops h]
  cases ho : n.output with
  | none => rfl
  | some out =>
    cases k with
    | zero =>
      have hw := h.walk
      simp only [List.take_zero, KNode.low, List.map_nil, KNode.walk, Option.some.injEq] at hw
      rw [← hw, tree_output] at ho
      cases ho
    | succ k => rfl

theorem stops_pos {m : Mode} {s : Str} {n : KNode} {k : Nat} (h : KNode.Stops (tree m) s n k)
    {out : Str} (ho : n.output = some out) : 1 ≤ k := by
  cases k with
  | zero =>
    have hw := h.walk
    simp only [List.take_zero, KNode.low, List.map_nil, KNode.walk, Option.some.injEq] at hw
    rw [← hw, tree_output] at ho
    cases ho
  | succ k => omega

theorem kStep_pos (m : Mode) (s : Str) : 1 ≤ (kStep (tree m) s).2 := by
  obtain ⟨n, k, h⟩ := KNode.exists_stops (tree m) s
  rw [kStep_of_stops h]
  cases ho : n.output with
  | none => exact Nat.le_refl _
  | some out => exact stops_pos h ho

theorem kStep_le (m : Mode) {s : Str} (hs : s ≠ []) : (kStep (tree m) s).2 ≤ s.length := by
  obtain ⟨n, k, h⟩ := KNode.exists_stops (tree m) s
  rw [kStep_of_stops h]
  cases ho : n.output with
  | none => exact List.length_pos_iff.2 hs
  | some out => exact h.le

theorem kana_nil (m : Mode) : kana m [] = [] := scan_nil _

theorem kana_step (m : Mode) {s : Str} (hs : s ≠ []) :
    kana m s = (kStep (tree m) s).1 ++ kana m (s.drop (kStep (tree m) s).2) :=
  scan_step _ hs (kStep_pos m s)

/-- a hit -/
theorem kana_hit {m : Mode} {s : Str} {n : KNode} {k : Nat} {out : Str}
    (h : KNode.Stops (tree m) s n k) (ho : n.output = some out) :
    kana m s = styled (s.take k) out ++ kana m (s.drop k) := by
  have hk := stops_pos h ho
  have hs : s ≠ [] := by
    intro e; subst e
    have := h.le
    simp at this; omega
  have := kana_step m hs
  rwa [kStep_of_stops h, ho] at this

/-- a miss -/
theorem kana_miss {m : Mode} {c : Char} {s : Str} {n : KNode} {k : Nat}
    (h : KNode.Stops (tree m) (c :: s) n k) (ho : n.output = none) :
    kana m (c :: s) = c :: kana m s := by
  have := kana_step m (List.cons_ne_nil c s)
  rwa [kStep_of_stops h, ho] at this

/-! ## the loop computes the scan -/

theorem all_upper_of_keys {std : Std} (hstd : std.Lawful) {s : Str}
    (h : ∀ c ∈ s.map toAsciiLowercase, keyChar c = true) : s.all std.isUppercase = s.all aUpper := by
  induction s with
  | nil => rfl
  | cons c s ih =>
    simp only [List.all_cons]
    rw [ih (fun d hd => h d (by simp only [List.map_cons, List.mem_cons]; exact Or.inr hd))]
    congr 1
    have hc := h (toAsciiLowercase c) (by simp)
    rw [keyChar_iff, toAsciiLowercase_toNat] at hc
    rw [Bool.eq_iff_iff, aUpper_iff]
    by_cases ha : c.toNat < 128
    · exact hstd.isUppercase_ascii c ha
    · rw [if_neg (by omega)] at hc
      have : Uncased c := by
        unfold Uncased
        simp only [List.mem_cons, List.not_mem_nil, or_false] at hc
        omega
      rw [hstd.isUppercase_uncased c this]
      constructor
      · intro h; cases h
      · intro h; omega

theorem getElem?_of_drop {α : Type} {l : List α} {i : Nat} {a : α} {r : List α}
    (h : l.drop i = a :: r) : l[i]? = some a := by
  have : (l.drop i)[0]? = some a := by rw [h]; rfl
  simpa using this

theorem toKanaLoop_eq {std : Std} (hstd : std.Lawful) (o : Options) (s : Str) :
    ∀ (fuel pos : Nat) (out : Str), pos ≤ s.length → s.length - pos < fuel →
      toKanaLoop std o s s.length fuel pos out = .ok (out ++ kana (modeOf o) (s.drop pos)) := by
  intro fuel
  induction fuel with
  | zero => intro pos out _ h; omega
  | succ fuel ih =>
    intro pos out hle hfuel
    rw [toKanaLoop]
    by_cases hp : pos = s.length
    · subst hp
      simp [kana_nil]
    · rw [if_pos hp]
      have hlt : pos < s.length := by omega
      obtain ⟨c, r, hd⟩ : ∃ c r, s.drop pos = c :: r := by
        cases hd : s.drop pos with
        | nil => have := congrArg List.length hd; simp at this; omega
        | cons c r => exact ⟨c, r, rfl⟩
      have hr : r = s.drop (pos + 1) := by
        have := congrArg (List.drop 1) hd
        simpa using this.symm
      have hsl : sliceFrom s pos = .ok (s.drop pos) := by unfold sliceFrom; rw [if_pos hle]
      obtain ⟨n, k, hst⟩ := KNode.exists_stops (tree (modeOf o)) (s.drop pos)
      have hget := KNode.get_of_stops hst
      have hkle : k ≤ s.length - pos := by have := hst.le; simpa using this
      simp only [hsl, toKanaLookup_eq, ok_bind, hget]
      cases ho : n.output with
      | none =>
        have hi : index s pos = .ok c := by
          unfold index; rw [getElem?_of_drop hd]; rfl
        have e : (do
            let c ← index s pos
            toKanaLoop std o s s.length fuel (pos + 1) (out ++ [c]))
            = .ok (out ++ kana (modeOf o) (s.drop pos)) := by
          rw [hi]
          show toKanaLoop std o s s.length fuel (pos + 1) (out ++ [c]) = _
          rw [ih (pos + 1) _ (by omega) (by omega), hd, kana_miss (hd ▸ hst) ho, hr]
          simp
        exact e
      | some x =>
        have hk := stops_pos hst ho
        have hz : (k == 0) = false := by simp; omega
        have hsl2 : slice s pos (pos + k) = .ok ((s.drop pos).take k) := by
          unfold slice
          rw [if_pos ⟨by omega, by omega⟩]
          congr 2; omega
        have hup : ((s.drop pos).take k).all std.isUppercase = ((s.drop pos).take k).all aUpper :=
          all_upper_of_keys hstd (walk_keyChar hst.walk)
        have e : (do
            let consumed ← slice s pos (pos + k)
            let out' ← unwrap (some x)
            if consumed.all std.isUppercase = true then do
              let kata ← hiragana_to_katakana out'
              toKanaLoop std o s s.length fuel (pos + k) (out ++ kata)
            else
              toKanaLoop std o s s.length fuel (pos + k) (out ++ out'))
            = .ok (out ++ kana (modeOf o) (s.drop pos)) := by
          rw [hsl2]
          show (if ((s.drop pos).take k).all std.isUppercase = true then do
              let kata ← hiragana_to_katakana x
              toKanaLoop std o s s.length fuel (pos + k) (out ++ kata)
            else
              toKanaLoop std o s s.length fuel (pos + k) (out ++ x)) = _
          rw [hup, hiragana_to_katakana_eq]
          rw [kana_hit hst ho, List.drop_drop]
          unfold styled
          split
          · show toKanaLoop std o s s.length fuel (pos + k) (out ++ x.map h2kP) = _
            rw [ih (pos + k) _ (by omega) (by omega)]
            simp
          · rw [ih (pos + k) _ (by omega) (by omega)]
            simp
        have hc : (k == 0 || (some x).isNone) = false := by rw [hz]; rfl
        show (if (k == 0 || (some x).isNone) = true then _ else _) = _
        rw [hc, if_neg (by simp)]
        exact e

/-- `to_kana_with_opt` never fails and equals the pure scan. -/
theorem to_kana_eq {std : Std} (hstd : std.Lawful) (s : Str) (o : Options) :
    to_kana_with_opt std s o = .ok (kana (modeOf o) s) := by
  unfold to_kana_with_opt
  rw [toKanaLoop_eq hstd o s _ 0 [] (by omega) (by omega)]
  simp

end WanaKana
