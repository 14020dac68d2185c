import Verif.Proofs.ToKana
/-! # Facts about every node of the three romaji → kana tries, and their consequences

The finite facts are checked by the kernel over all nodes of all trees and lifted by
`allModes_walk`. -/

namespace WanaKana
open KNode

/-! ## finite facts -/

/-- lowercase ASCII letter -/
def aLower (c : Char) : Bool := decide (97 ≤ c.toNat ∧ c.toNat ≤ 122)

theorem aLower_iff {c : Char} : aLower c = true ↔ 97 ≤ c.toNat ∧ c.toNat ≤ 122 := decide_eq_true_iff

/-- characters that can continue a path -/
def tailChar (m : Mode) (c : Char) : Bool := aLower c || c == '\'' || (decide (m = .ime) && c == ' ')

theorem walk_tail {m : Mode} {p : Str} {n : KNode} (hw : (tree m).walk p = some n) :
    ∀ c ∈ p.tail, tailChar m c = true := by
  have h : allModes (fun m x => x.1.tail.all (tailChar m)) = true := by decide +kernel
  exact fun c hc => List.all_eq_true.1 (allModes_walk h hw) c hc

/-- characters that can start a path: letters and the punctuation of the table -/
def headChar (c : Char) : Bool :=
  aLower c || ['!', '(', ')', ',', '-', '.', '/', ':', '?', '[', ']', '{', '}', '~',
    '‘', '’', '“', '”'].contains c

theorem walk_head {m : Mode} {p : Str} {n : KNode} (hw : (tree m).walk p = some n) :
    ∀ c ∈ p.head?, headChar c = true := by
  have h : allModes (fun _ x => x.1.head?.all headChar) = true := by decide +kernel
  intro c hc
  have := allModes_walk h hw
  rw [Option.mem_def.1 hc] at this
  exact this

theorem headChar_iff {c : Char} : headChar c = true ↔ (97 ≤ c.toNat ∧ c.toNat ≤ 122) ∨
    c.toNat ∈ [33, 40, 41, 44, 45, 46, 47, 58, 63, 91, 93, 123, 125, 126, 0x2018, 0x2019,
      0x201C, 0x201D] := by
  simp only [headChar, Bool.or_eq_true, aLower_iff, List.contains_iff_mem, List.mem_cons,
    List.not_mem_nil, or_false, char_eq_iff, Char.reduceToNat]

theorem tailChar_iff {m : Mode} {c : Char} : tailChar m c = true ↔
    (97 ≤ c.toNat ∧ c.toNat ≤ 122) ∨ c.toNat = 39 ∨ (m = .ime ∧ c.toNat = 32) := by
  simp only [tailChar, Bool.or_eq_true, Bool.and_eq_true, decide_eq_true_iff, aLower_iff, beq_iff_eq,
    char_eq_iff, Char.reduceToNat, or_assoc]

/-- characters of the outputs: hiragana letters, the katakana ヵ ヶ and Japanese punctuation -/
def outChar (c : Char) : Bool :=
  decide (0x3041 ≤ c.toNat ∧ c.toNat ≤ 0x3094) ||
    ['ヵ', 'ヶ', '！', '？', '。', '：', '・', '、', '〜', 'ー', '「', '」', '『', '』', '［', '］', '（', '）', '｛', '｝'].contains c

theorem outChar_iff {c : Char} : outChar c = true ↔ (0x3041 ≤ c.toNat ∧ c.toNat ≤ 0x3094) ∨
    c.toNat ∈ [0x30F5, 0x30F6, 0xFF01, 0xFF1F, 0x3002, 0xFF1A, 0x30FB, 0x3001, 0x301C, 0x30FC,
      0x300C, 0x300D, 0x300E, 0x300F, 0xFF3B, 0xFF3D, 0xFF08, 0xFF09, 0xFF5B, 0xFF5D] := by
  simp only [outChar, Bool.or_eq_true, decide_eq_true_iff, List.contains_iff_mem, List.mem_cons,
    List.not_mem_nil, or_false, char_eq_iff, Char.reduceToNat]

theorem walk_output {m : Mode} {p : Str} {n : KNode} (hw : (tree m).walk p = some n) {out : Str}
    (ho : n.output = some out) :
    out ≠ [] ∧ out.length ≤ p.length ∧ ∀ c ∈ out, outChar c = true := by
  have h : allModes (fun _ x => match x.2.output with
    | none => true
    | some out => !out.isEmpty && decide (out.length ≤ x.1.length) && out.all outChar) = true := by
    decide +kernel
  have := allModes_walk h hw
  simp only [ho, Bool.and_eq_true, Bool.not_eq_true', List.isEmpty_eq_false_iff,
    decide_eq_true_iff, List.all_eq_true] at this
  exact ⟨this.1.1, this.1.2, this.2⟩

/-- only "n" (not in IME mode) has an output and can be continued -/
theorem walk_inner_output {m : Mode} {p : Str} {n : KNode} (hw : (tree m).walk p = some n) {out : Str}
    (ho : n.output = some out) : n.transitions = [] ∨ (p = ['n'] ∧ m ≠ .ime) := by
  have h : allModes (fun m x => x.2.output.isNone || x.2.transitions.isEmpty ||
    (decide (x.1 = ['n']) && decide (m ≠ .ime))) = true := by decide +kernel
  have := allModes_walk h hw
  simp only [ho, Bool.or_eq_true, Bool.and_eq_true, decide_eq_true_iff, List.isEmpty_iff] at this
  rcases this with (h | h) | h
  · cases h
  · exact Or.inl h
  · exact Or.inr h

theorem find_none_of_leaf {n : KNode} (h : n.transitions = []) (c : Char) :
    n.find_transition_node c = none := by
  unfold find_transition_node; rw [h]; rfl

/-! ## consequences for walks -/

/-- no path continues with `c` -/
theorem find_none_of_not_tail {m : Mode} {p : Str} {n : KNode} (hw : (tree m).walk p = some n)
    (hp : p ≠ []) {c : Char} (hc : tailChar m c = false) : n.find_transition_node c = none := by
  cases hf : n.find_transition_node c with
  | none => rfl
  | some k =>
    have hw2 : (tree m).walk (p ++ [c]) = some k := by
      rw [walk_append, hw]
      show n.walk [c] = some k
      rw [walk_singleton, hf]
    have := walk_tail hw2 c (by
      cases p with
      | nil => exact absurd rfl hp
      | cons d p => simp)
    rw [hc] at this; cases this

/-- no path starts with `c` -/
theorem find_none_of_not_head {m : Mode} {c : Char} (hc : headChar c = false) :
    (tree m).find_transition_node c = none := by
  cases hf : (tree m).find_transition_node c with
  | none => rfl
  | some k =>
    have := walk_head (m := m) (p := [c]) (n := k) (by rw [walk_singleton, hf]) c (by simp)
    rw [hc] at this; cases this

/-- A character that neither starts nor continues a path. -/
def Inert (m : Mode) (c : Char) : Prop :=
  headChar (toAsciiLowercase c) = false ∧ tailChar m (toAsciiLowercase c) = false

theorem Inert.find {m : Mode} {c : Char} (h : Inert m c) {p : Str} {n : KNode}
    (hw : (tree m).walk p = some n) : n.find_transition_node (toAsciiLowercase c) = none := by
  cases p with
  | nil =>
    simp only [KNode.walk, Option.some.injEq] at hw
    rw [← hw]; exact find_none_of_not_head h.1
  | cons d p => exact find_none_of_not_tail hw (by simp) h.2

theorem inert_of_ge {m : Mode} {c : Char} (h : 0x2100 ≤ c.toNat) : Inert m c := by
  constructor
  · rw [Bool.eq_false_iff, Ne, headChar_iff, toAsciiLowercase_toNat, if_neg (by omega)]
    simp only [List.mem_cons, List.not_mem_nil, or_false]
    omega
  · rw [Bool.eq_false_iff, Ne, tailChar_iff, toAsciiLowercase_toNat, if_neg (by omega)]
    omega

theorem outChar_ge {c : Char} (h : outChar c = true) : 0x3001 ≤ c.toNat := by
  rw [outChar_iff] at h
  simp only [List.mem_cons, List.not_mem_nil, or_false] at h
  omega

theorem h2kP_ge {c : Char} (h : 0x2100 ≤ c.toNat) : 0x2100 ≤ (h2kP c).toNat := by
  rw [h2kP_toNat]; split <;> omega

theorem styled_ge {m : Mode} {p : Str} {n : KNode} (hw : (tree m).walk p = some n) {out : Str}
    (ho : n.output = some out) (x : Str) : ∀ c ∈ styled x out, 0x2100 ≤ c.toNat := by
  have h := (walk_output hw ho).2.2
  intro c hc
  unfold styled at hc
  split at hc
  · obtain ⟨d, hd, rfl⟩ := List.mem_map.1 hc
    have := outChar_ge (h d hd)
    exact h2kP_ge (by omega)
  · have := outChar_ge (h c hc); omega

theorem styled_length (x out : Str) : (styled x out).length = out.length := by
  unfold styled; split <;> simp

theorem styled_ne_nil {x out : Str} (h : out ≠ []) : styled x out ≠ [] := by
  unfold styled; split
  · simpa using h
  · exact h

/-! ## basic equations of `kana` -/

/-- a character that starts no path passes through -/
theorem kana_cons_not_head {m : Mode} {c : Char} (h : headChar (toAsciiLowercase c) = false) (s : Str) :
    kana m (c :: s) = c :: kana m s := by
  have hst : Stops (tree m) (c :: s) (tree m) 0 :=
    ⟨by simp, rfl, by
      intro d hd
      simp at hd; subst hd
      exact find_none_of_not_head h⟩
  exact kana_miss hst (tree_output m)

theorem kana_of_not_head {m : Mode} {s : Str} (h : ∀ c ∈ s, headChar (toAsciiLowercase c) = false)
    (r : Str) : kana m (s ++ r) = s ++ kana m r := by
  induction s with
  | nil => rfl
  | cons c s ih =>
    rw [List.cons_append, kana_cons_not_head (h c (by simp)), ih (fun d hd => h d (by simp [hd]))]
    rfl

/-- text of large code points passes through -/
theorem kana_of_ge {m : Mode} {s : Str} (h : ∀ c ∈ s, 0x2100 ≤ c.toNat) (r : Str) :
    kana m (s ++ r) = s ++ kana m r :=
  kana_of_not_head (fun c hc => (inert_of_ge (m := m) (h c hc)).1) r

/-- `Cut m a b`: no path that reads up to the end of `a` continues into `b`. -/
def Cut (m : Mode) (a b : Str) : Prop :=
  ∀ a1 a2 n, a = a1 ++ a2 → a2 ≠ [] → (tree m).walk (low a2) = some n →
    ∀ c, b.head? = some c → n.find_transition_node (toAsciiLowercase c) = none

theorem Cut.suffix {m : Mode} {a b x y : Str} (h : Cut m a b) (e : a = x ++ y) : Cut m y b := by
  intro a1 a2 n ha
  exact h (x ++ a1) a2 n (by rw [e, ha, List.append_assoc])

/-- Text can be converted in pieces at a cut. -/
theorem kana_append {m : Mode} (a b : Str) (h : Cut m a b) : kana m (a ++ b) = kana m a ++ kana m b := by
  induction a using list_strong with
  | _ a ih =>
    cases a with
    | nil => simp [kana_nil]
    | cons c a =>
      obtain ⟨n, k, hst⟩ := exists_stops (tree m) (c :: a)
      have hst2 : Stops (tree m) (c :: a ++ b) n k := hst.append fun hk => by
        have hw := hst.walk
        rw [hk, List.take_length] at hw
        exact h [] (c :: a) n rfl (by simp) hw
      cases ho : n.output with
      | none =>
        rw [kana_miss hst ho, List.cons_append, kana_miss (s := a ++ b) hst2 ho,
          ih a (by simp) (h.suffix (x := [c]) rfl)]
        rfl
      | some out =>
        have hk := stops_pos hst ho
        have hle := hst.le
        rw [kana_hit hst ho, kana_hit hst2 ho, List.drop_append_of_le_length hle,
          List.take_append_of_le_length hle,
          ih ((c :: a).drop k) (by simp [List.length_drop] at *; omega)
            (h.suffix (x := (c :: a).take k) (List.take_append_drop k _).symm),
          List.append_assoc]

theorem cut_of_not_tail {m : Mode} {a b : Str}
    (h : ∀ c, b.head? = some c → tailChar m (toAsciiLowercase c) = false) : Cut m a b := by
  intro a1 a2 n _ hne hw c hc
  exact find_none_of_not_tail hw (by simpa using hne) (h c hc)

theorem cut_of_inert {m : Mode} {a : Str} {c : Char} {b : Str} (h : Inert m c) : Cut m a (c :: b) :=
  cut_of_not_tail fun d hd => by
    simp at hd; subst hd; exact h.2

theorem kana_append_inert {m : Mode} (a : Str) {c : Char} (h : Inert m c) (b : Str) :
    kana m (a ++ c :: b) = kana m a ++ c :: kana m b := by
  rw [kana_append a (c :: b) (cut_of_inert h), kana_cons_not_head h.1]

/-! ## shape of the output -/

/-- The output copies a prefix of the input; if it does not copy all of it, the next character
is a produced one. -/
theorem kana_shape (m : Mode) (s : Str) : ∃ k rest, kana m s = s.take k ++ rest ∧ k ≤ s.length ∧
    ((k = s.length ∧ rest = []) ∨ ∃ c r, rest = c :: r ∧ 0x2100 ≤ c.toNat) := by
  induction s with
  | nil => exact ⟨0, [], by simp [kana_nil], by simp, Or.inl ⟨rfl, rfl⟩⟩
  | cons c s ih =>
    obtain ⟨n, k, hst⟩ := exists_stops (tree m) (c :: s)
    cases ho : n.output with
    | none =>
      obtain ⟨j, rest, h1, h2, h3⟩ := ih
      refine ⟨j + 1, rest, ?_, by simp; omega, ?_⟩
      · rw [kana_miss hst ho, h1]; rfl
      · rcases h3 with ⟨h3, h4⟩ | h3
        · exact Or.inl ⟨by simp [h3], h4⟩
        · exact Or.inr h3
    | some out =>
      have hne := (walk_output hst.walk ho).1
      have hge := styled_ge hst.walk ho ((c :: s).take k)
      rw [kana_hit hst ho]
      cases hs : styled ((c :: s).take k) out with
      | nil => exact absurd hs (styled_ne_nil hne)
      | cons d r =>
        refine ⟨0, d :: (r ++ kana m ((c :: s).drop k)), by simp, by omega, Or.inr ⟨d, _, rfl, ?_⟩⟩
        exact hge d (by rw [hs]; simp)

/-- the walk only depends on the lowercased text -/
theorem low_low (s : Str) : low (low s) = low s := by
  simp [low, toAsciiLowercase_idem]

theorem stops_congr_low {t n : KNode} {s s' : Str} {k : Nat} (h : Stops t s n k) (e : low s = low s') :
    Stops t s' n k := by
  have hl : s.length = s'.length := by have := congrArg List.length e; simpa using this
  refine ⟨hl ▸ h.le, ?_, ?_⟩
  · have : low (s'.take k) = low (s.take k) := by
      have e1 : low (s.take k) = (low s).take k := List.map_take
      have e2 : low (s'.take k) = (low s').take k := List.map_take
      rw [e1, e2, e]
    rw [this]; exact h.walk
  · intro c hc
    have e1 : (low (s.drop k)) = low (s'.drop k) := by
      have e1 : low (s.drop k) = (low s).drop k := List.map_drop
      have e2 : low (s'.drop k) = (low s').drop k := List.map_drop
      rw [e1, e2, e]
    cases hd' : s'.drop k with
    | nil => rw [hd'] at hc; cases hc
    | cons x xs =>
      rw [hd'] at hc
      simp at hc; subst hc
      cases hd : s.drop k with
      | nil => rw [hd, hd'] at e1; simp [low] at e1
      | cons y ys =>
        rw [hd, hd'] at e1
        simp [low] at e1
        rw [← e1.1]
        exact h.stop y (by rw [hd]; rfl)

end WanaKana
