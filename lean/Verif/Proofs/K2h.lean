import Verif.Proofs.RomajiTrie
import Verif.Proofs.ToKana
import Verif.Model.Convert
/-! # `katakana_to_hiragana` as a pure function of the remaining text and `previous_kana` -/

namespace WanaKana
open RNode

/-- characters copied without touching `previous_kana` -/
def keeps (c : Char) : Bool := decide (c.toNat = 0x30FB ∨ c.toNat = 0x30F5 ∨ c.toNat = 0x30F6)

theorem keeps_iff {c : Char} : keeps c = true ↔ c.toNat = 0x30FB ∨ c.toNat = 0x30F5 ∨ c.toNat = 0x30F6 :=
  decide_eq_true_iff

/-- the long vowel mark -/
def isDash (c : Char) : Bool := decide (c.toNat = 0x30FC)

theorem isDash_iff {c : Char} : isDash c = true ↔ c.toNat = 0x30FC := decide_eq_true_iff

/-- what replaces ー after the kana `p` -/
def longOut (std : Std) (dest : Bool) (c p : Char) : Str :=
  match TO_ROMAJI_NODE_TREE.rfind std p with
  | none => [c]
  | some n =>
    if n.output.getLast? = some 'o' ∧ dest = true then ['お']
    else (n.output.getLast?.bind LONG_VOWELS).toList

/-- pure version of `k2hLoop` -/
def k2hP (std : Std) (dest : Bool) : Option Char → Str → Str
  | _, [] => []
  | prev, c :: rest =>
    if keeps c then c :: k2hP std dest prev rest
    else if isDash c then
      match prev with
      | none => c :: k2hP std dest none rest
      | some p => longOut std dest c p ++ k2hP std dest (some p) rest
    else if is_char_katakana c then k2hChar c :: k2hP std dest (some (k2hChar c)) rest
    else c :: k2hP std dest none rest

theorem k2hP_cons (std : Std) (dest : Bool) (prev : Option Char) (c : Char) (rest : Str) :
    k2hP std dest prev (c :: rest) = if keeps c then c :: k2hP std dest prev rest
    else if isDash c then
      match prev with
      | none => c :: k2hP std dest none rest
      | some p => longOut std dest c p ++ k2hP std dest (some p) rest
    else if is_char_katakana c then k2hChar c :: k2hP std dest (some (k2hChar c)) rest
    else c :: k2hP std dest none rest := by
  rw [k2hP.eq_def]

theorem k2hLoop_keep {std : Std} {input : Str} {dest : Bool} {c : Char} {rest : Str} {i : Nat}
    {prev : Option Char} {hira : Str}
    (hc : (is_char_slash_dot c || is_char_initial_long_dash c i || is_kana_as_symbol c) = true) :
    k2hLoop std input dest (c :: rest) i prev hira
      = k2hLoop std input dest rest (i + 1) prev (hira ++ [c]) := by
  rw [k2hLoop.eq_def]
  simp only []
  rw [if_pos hc]

theorem k2hLoop_eq {std : Std} (hstd : std.Lawful) (input : Str) (dest : Bool) (rest : Str) :
    ∀ (i : Nat) (prev : Option Char) (hira : Str), input.drop i = rest →
      (∀ p, prev = some p → i ≠ 0 ∧ ∃ d, input[i - 1]? = some d ∧ is_char_katakana d = true) →
      k2hLoop std input dest rest i prev hira = .ok (hira ++ k2hP std dest prev rest) := by
  induction rest with
  | nil => intro i prev hira _ _; simp [k2hLoop, k2hP]
  | cons c rest ih =>
    intro i prev hira hdrop hprev
    have hget : input[i]? = some c := getElem?_of_drop hdrop
    have hdrop' : input.drop (i + 1) = rest := by
      rw [← List.drop_drop, hdrop]; rfl
    have next : ∀ prev' hira', (∀ p, prev' = some p → is_char_katakana c = true) →
        k2hLoop std input dest rest (i + 1) prev' hira' = .ok (hira' ++ k2hP std dest prev' rest) := by
      intro prev' hira' h'
      apply ih (i + 1) prev' hira' hdrop'
      intro p hp
      exact ⟨by omega, c, by simpa using hget, h' p hp⟩
    have e1 : is_char_slash_dot c = decide (c.toNat = 0x30FB) := rfl
    have e2 : is_char_long_dash c = decide (c.toNat = 0x30FC) := rfl
    have e3 : is_kana_as_symbol c = decide (c.toNat = 0x30F5 ∨ c.toNat = 0x30F6) := by
      rw [Bool.eq_iff_iff, decide_eq_true_iff]
      simp only [is_kana_as_symbol, Bool.or_eq_true, beq_iff_eq, char_eq_iff, Char.reduceToNat]
      omega
    by_cases hk : keeps c = true
    · have hk' := keeps_iff.1 hk
      have hc : (is_char_slash_dot c || is_char_initial_long_dash c i || is_kana_as_symbol c) = true := by
        rw [e1, e3]; simp only [Bool.or_eq_true, decide_eq_true_iff]; omega
      rw [k2hLoop_keep hc, next _ _ ?_]
      · rw [k2hP_cons, if_pos hk]; simp
      · intro _ _; rw [is_char_katakana_iff]; omega
    · have hk' : ¬ (c.toNat = 0x30FB ∨ c.toNat = 0x30F5 ∨ c.toNat = 0x30F6) := fun h => hk (keeps_iff.2 h)
      rw [k2hP_cons, if_neg hk]
      by_cases hd : isDash c = true
      · have hd' := isDash_iff.1 hd
        have hkat : is_char_katakana c = true := by rw [is_char_katakana_iff]; omega
        rw [if_pos hd]
        by_cases hi : i = 0
        · have hc : (is_char_slash_dot c || is_char_initial_long_dash c i || is_kana_as_symbol c) = true := by
            simp [is_char_initial_long_dash, e2, hd', hi]
          rw [k2hLoop_keep hc, next _ _ (fun _ _ => hkat)]
          cases prev with
          | none => simp
          | some p => exact absurd hi (hprev p rfl).1
        · have hc : ¬ (is_char_slash_dot c || is_char_initial_long_dash c i || is_kana_as_symbol c) = true := by
            rw [e1, e3]; simp [is_char_initial_long_dash, hi, hd']
          have hin : is_char_inner_long_dash c i = true := by
            simp [is_char_inner_long_dash, e2, hd', hi]
          rw [k2hLoop.eq_def]; simp only []; rw [if_neg hc]
          cases prev with
          | none =>
            simp only [e2, hd', decide_true, Bool.not_true, Bool.false_and, Bool.false_eq_true, if_false]
            rw [next _ _ (fun _ _ => hkat)]
            simp
          | some p =>
            obtain ⟨_, d, hd1, hd2⟩ := hprev p rfl
            simp only [hin]
            rw [find_ok hstd (romaji_sorted _ (self_mem_paths _)) p, ok_bind]
            have hsub : usizeSub i 1 = .ok (i - 1) := by unfold usizeSub; rw [if_pos (by omega)]
            cases hf : TO_ROMAJI_NODE_TREE.rfind std p with
            | none =>
              simp only []
              rw [next _ _ (fun _ _ => hkat)]
              simp [longOut, hf]
            | some n =>
              simp only [hsub, ok_bind, hd1, hd2, Bool.true_and]
              by_cases ho : n.output.getLast? = some 'o' ∧ dest = true
              · have : (n.output.getLast? == some 'o' && dest) = true := by simp [ho.1, ho.2]
                rw [if_pos this, next _ _ (fun _ _ => hkat)]
                simp [longOut, hf, ho]
              · have : ¬ (n.output.getLast? == some 'o' && dest) = true := by simpa using ho
                rw [if_neg this]
                cases hb : n.output.getLast?.bind LONG_VOWELS with
                | none =>
                  simp only []
                  rw [next _ _ (fun _ _ => hkat)]
                  simp [longOut, hf, ho, hb]
                | some hit =>
                  simp only []
                  rw [next _ _ (fun _ _ => hkat)]
                  simp [longOut, hf, ho, hb]
      · have hd' : ¬ c.toNat = 0x30FC := fun h => hd (isDash_iff.2 h)
        have hc : ¬ (is_char_slash_dot c || is_char_initial_long_dash c i || is_kana_as_symbol c) = true := by
          rw [e1, e3]; simp [is_char_initial_long_dash, e2, hd']; omega
        have hin : is_char_inner_long_dash c i = false := by simp [is_char_inner_long_dash, e2, hd']
        rw [if_neg hd, k2hLoop.eq_def]; simp only []; rw [if_neg hc]
        by_cases hkat : is_char_katakana c = true
        · rw [if_pos hkat]
          simp only [hin]
          cases prev <;> simp only [e2, hd', hkat, decide_false, Bool.not_false, Bool.and_true, if_true] <;>
            rw [next _ _ (fun _ _ => hkat)] <;> simp
        · rw [if_neg hkat]
          simp only [hin]
          cases prev <;> simp only [hkat, Bool.and_false, Bool.false_eq_true, if_false] <;>
            rw [next _ _ (fun _ h => by cases h)] <;> simp

theorem k2h_eq {std : Std} (hstd : std.Lawful) (s : Str) (dest : Bool) :
    katakana_to_hiragana_with_opt std s dest = .ok (k2hP std dest none s) := by
  unfold katakana_to_hiragana_with_opt
  rw [k2hLoop_eq hstd s dest s 0 none [] rfl (by intro p h; cases h)]
  rfl

/-- `previous_kana` after reading `s` -/
def k2hPrev : Option Char → Str → Option Char
  | prev, [] => prev
  | prev, c :: rest =>
    if keeps c || isDash c then k2hPrev prev rest
    else if is_char_katakana c then k2hPrev (some (k2hChar c)) rest
    else k2hPrev none rest

theorem k2hP_append (std : Std) (dest : Bool) (a b : Str) : ∀ prev,
    k2hP std dest prev (a ++ b) = k2hP std dest prev a ++ k2hP std dest (k2hPrev prev a) b := by
  induction a with
  | nil => intro prev; rfl
  | cons c a ih =>
    intro prev
    simp only [List.cons_append, k2hP_cons, k2hPrev]
    by_cases hk : keeps c = true
    · simp [hk, ih]
    · by_cases hd : isDash c = true
      · cases prev <;> simp [hk, hd, ih]
      · by_cases ha : is_char_katakana c = true <;> simp [hk, hd, ha, ih]

/-- code point of the hiragana counterpart of a katakana letter -/
theorem k2hChar_toNat {c : Char} (h : 0x30A1 ≤ c.toNat) (h' : c.toNat ≤ 0x30FC) :
    (k2hChar c).toNat = if c.toNat = 0x30F7 then 0x308F else if c.toNat = 0x30F8 then 0x3090
      else if c.toNat = 0x30F9 then 0x3091 else if c.toNat = 0x30FA then 0x3092
      else c.toNat - 0x60 := by
  by_cases h1 : c = 'ヷ'
  · subst h1; rfl
  by_cases h2 : c = 'ヸ'
  · subst h2; rfl
  by_cases h3 : c = 'ヹ'
  · subst h3; rfl
  by_cases h4 : c = 'ヺ'
  · subst h4; rfl
  have e : k2hChar c = Char.ofNat (c.toNat - 0x60) := by
    unfold k2hChar
    split
    · exact absurd rfl h1
    · exact absurd rfl h2
    · exact absurd rfl h3
    · exact absurd rfl h4
    · simp only [i32AsU32, HIRAGANA_START, KATAKANA_START]
      have : (((c.toNat : Int) + ((0x3041 : Nat) - (0x30A1 : Nat))) % 4294967296).toNat = c.toNat - 0x60 := by omega
      rw [this, charFromU32, if_pos (Or.inl (by omega))]
      rfl
  rw [e, toNat_ofNat_lt (by omega)]
  simp only [char_eq_iff, Char.reduceToNat] at h1 h2 h3 h4
  simp [h1, h2, h3, h4]

/-- the possible values of `previous_kana` -/
def PrevOk (prev : Option Char) : Prop := ∀ p, prev = some p → 0x3041 ≤ p.toNat ∧ p.toNat ≤ 0x3094

theorem prevOk_none : PrevOk none := fun _ h => by cases h

theorem k2hChar_prevOk {c : Char} (hk : keeps c = false) (hd : isDash c = false)
    (ha : is_char_katakana c = true) : PrevOk (some (k2hChar c)) := by
  intro p hp
  cases hp
  rw [is_char_katakana_iff] at ha
  have h1 : ¬ (c.toNat = 0x30FB ∨ c.toNat = 0x30F5 ∨ c.toNat = 0x30F6) :=
    fun h => by rw [keeps_iff.2 h] at hk; cases hk
  have h2 : ¬ c.toNat = 0x30FC := fun h => by rw [isDash_iff.2 h] at hd; cases hd
  rw [k2hChar_toNat ha.1 ha.2]
  repeat' split
  all_goals omega

theorem k2hPrev_ok (s : Str) : ∀ {prev}, PrevOk prev → PrevOk (k2hPrev prev s) := by
  induction s with
  | nil => intro prev h; exact h
  | cons c s ih =>
    intro prev h
    rw [k2hPrev]
    by_cases hk : keeps c = true
    · simp [hk, ih h]
    · by_cases hd : isDash c = true
      · simp [hd, ih h]
      · by_cases ha : is_char_katakana c = true
        · simp only [hk, hd, ha, if_true]
          exact ih (k2hChar_prevOk (by simpa using hk) (by simpa using hd) ha)
        · simp only [hk, hd, ha]
          exact ih prevOk_none

/-- every hiragana letter up to ゔ has a romaji entry -/
theorem root_has {std : Std} (hstd : std.Lawful) {p : Char} (h : 0x3041 ≤ p.toNat) (h' : p.toNat ≤ 0x3094) :
    ∃ n, TO_ROMAJI_NODE_TREE.rfind std p = some n := by
  have hall : ((List.range (0x3094 - 0x3041 + 1)).all fun i =>
      (TO_ROMAJI_NODE_TREE.ts.map fun t => t.1).contains (Char.ofNat (0x3041 + i))) = true := by
    decide +kernel
  have := List.all_eq_true.1 hall (p.toNat - 0x3041) (by rw [List.mem_range]; omega)
  have e : Char.ofNat (0x3041 + (p.toNat - 0x3041)) = p := by
    apply char_ext; rw [toNat_ofNat_lt (by omega)]; omega
  rw [e, List.contains_iff_mem, List.mem_map] at this
  obtain ⟨⟨d, x⟩, hx, hd⟩ := this
  simp at hd; subst hd
  exact rfind_isSome hstd (p := []) rfl hx

/-- the vowel of the ゔ node that the search finds -/
def vuOf (std : Std) : Char :=
  ((TO_ROMAJI_NODE_TREE.rfind std 'ゔ').bind fun n => n.output.getLast?).getD 'u'

end WanaKana
