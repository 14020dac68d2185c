import Verif.Props.RomajiPieces
import Verif.Props.RoundTrip
/-! # C143: exactly when katakana may be converted to hiragana piece by piece -/

namespace WanaKana

theorem longOut_noMark {std : Std} (hstd : std.Lawful) (dest : Bool) {p : Char} (h : PrevOk (some p)) (c : Char) :
    (longOut std dest c p).countP isMark = 0 := by
  rw [List.countP_eq_zero]
  intro d hd
  have hm := longOut_mem hstd (h p rfl).1 (h p rfl).2 dest c d hd
  simp only [List.mem_cons, List.not_mem_nil, or_false] at hm
  rcases hm with rfl | rfl | rfl | rfl | rfl <;> decide

theorem k2hP_kept_le {std : Std} (hstd : std.Lawful) (dest : Bool) (s : Str) : ∀ {p : Option Char}, PrevOk p →
    (k2hP std dest p s).countP isMark ≤ (k2hP std dest none s).countP isMark := by
  induction s with
  | nil => intro p _; cases p <;> simp [k2hP]
  | cons c s ih =>
    intro p hp
    rw [k2hP_cons, k2hP_cons]
    by_cases hk : keeps c = true
    · rw [if_pos hk, if_pos hk, List.countP_cons, List.countP_cons]
      have := ih hp
      omega
    · by_cases hd : isDash c = true
      · rw [if_neg hk, if_pos hd, if_neg hk, if_pos hd]
        cases p with
        | none => exact Nat.le_refl _
        | some p =>
          have := ih hp
          simp only [List.countP_append, longOut_noMark hstd dest hp, List.countP_cons]
          omega
      · simp only [hk, hd, if_false, Bool.false_eq_true]
        exact Nat.le_refl _

theorem k2hP_kept_lt {std : Std} (hstd : std.Lawful) (dest : Bool) (s : Str) {p : Char} (hp : PrevOk (some p))
    (h : 'ー' ∈ s.takeWhile fun c => decide (c ∈ Spec.chain)) :
    (k2hP std dest (some p) s).countP isMark < (k2hP std dest none s).countP isMark := by
  induction s with
  | nil => cases h
  | cons c s ih =>
    rw [k2hP_cons, k2hP_cons]
    by_cases hk : keeps c = true
    · rw [List.takeWhile_cons_of_pos (by simpa using chain_iff.2 (by simp [hk]))] at h
      rw [if_pos hk, if_pos hk, List.countP_cons, List.countP_cons]
      have := ih (by
        rcases List.mem_cons.1 h with e | e
        · subst e; exact absurd hk (by decide)
        · exact e)
      omega
    · by_cases hd : isDash c = true
      · rw [if_neg hk, if_pos hd, if_neg hk, if_pos hd]
        have e : c = 'ー' := char_ext (isDash_iff.1 hd)
        have := k2hP_kept_le hstd dest s hp
        simp only [List.countP_append, longOut_noMark hstd dest hp, List.countP_cons]
        rw [if_pos (by rw [e]; decide)]
        omega
      · rw [List.takeWhile_cons_of_neg (by rw [decide_eq_true_iff, chain_iff]; simp [hk, hd])] at h
        cases h

theorem kept_pieces {std : Std} (hstd : std.Lawful) (dest : Bool) (ps : List Str) : ∀ {q : Option Char}, PrevOk q →
    (k2hP std dest q ps.flatten).countP isMark ≤ (ps.flatMap (k2hP std dest none)).countP isMark := by
  induction ps with
  | nil => intro q _; cases q <;> simp [k2hP]
  | cons p ps ih =>
    intro q hq
    rw [List.flatten_cons, List.flatMap_cons, k2hP_append, List.countP_append, List.countP_append]
    have h1 := k2hP_kept_le hstd dest p hq
    have h2 := ih (k2hPrev_ok p hq)
    omega

theorem kept_pieces_lt {std : Std} (hstd : std.Lawful) (dest : Bool) (l r : List Str) (p : Str) (h : Spec.Prolonged l.flatten p) :
    (k2hP std dest none (l ++ p :: r).flatten).countP isMark <
      ((l ++ p :: r).flatMap (k2hP std dest none)).countP isMark := by
  obtain ⟨g, hg, hk, hm⟩ := h
  have hprev := k2hPrev_of_governing hg hk
  have hok := k2hPrev_ok l.flatten prevOk_none
  rw [hprev] at hok
  rw [List.flatten_append, List.flatten_cons, k2hP_append, hprev, k2hP_append, List.flatMap_append, List.flatMap_cons]
  simp only [List.countP_append]
  have h1 := kept_pieces hstd dest l prevOk_none
  have h2 := k2hP_kept_lt hstd dest p hok hm
  have h3 := kept_pieces hstd dest r (k2hPrev_ok p hok)
  omega

theorem k2hP_cut_any (std : Std) (dest : Bool) (a b : Str) (h : ∀ g, Spec.governing a = some g → Spec.KatakanaLetter g →
    'ー' ∉ b.takeWhile fun c => decide (c ∈ Spec.chain)) :
    k2hP std dest none (a ++ b) = k2hP std dest none a ++ k2hP std dest none b := by
  rw [k2hP_append]
  congr 1
  cases hp : k2hPrev none a with
  | none => rfl
  | some p =>
    rw [k2hPrev_governing] at hp
    cases hg : Spec.governing a with
    | none => rw [hg] at hp; cases hp
    | some g =>
      rw [hg, Option.bind_some] at hp
      split at hp
      · rename_i hkat
        have hch : g ∉ Spec.chain := by
          intro hm
          unfold Spec.governing at hg
          have := List.head?_dropWhile_not (p := fun c => decide (c ∈ Spec.chain)) (l := a.reverse)
          rw [hg] at this
          simp [hm] at this
        apply k2hP_of_takeWhile
        apply h g hg
        have h1 := is_char_katakana_iff.1 hkat
        rw [chain_iff, Bool.or_eq_true, keeps_iff, isDash_iff] at hch
        unfold Spec.KatakanaLetter Spec.In
        omega
      · cases hp

theorem k2hP_parts_any (std : Std) (dest : Bool) (r : List Str) : ∀ l : List Str,
    (∀ m p r', r = m ++ p :: r' → ¬ Spec.Prolonged (l.flatten ++ m.flatten) p) →
    k2hP std dest none (l.flatten ++ r.flatten) = k2hP std dest none l.flatten ++ (r.map (k2hP std dest none)).flatten := by
  induction r with
  | nil => intro l _; simp
  | cons p r ih =>
    intro l h
    have hl : ∀ m : List Str, (l ++ [p]).flatten ++ m.flatten = l.flatten ++ (p :: m).flatten := by intro m; simp
    rw [← hl, ih (l ++ [p]) (fun m q r' e => by rw [hl]; exact h (p :: m) q r' (by rw [e]; rfl)),
      List.flatten_append, List.flatten_singleton, k2hP_cut_any, List.map_cons, List.flatten_cons, List.append_assoc]
    intro _ hg hk hm
    exact h [] p r rfl ⟨_, by simpa using hg, hk, hm⟩

/-- **C143** The hiragana of the pieces of a text are the hiragana of the text exactly if no long vowel mark at the
beginning of a piece prolongs (or is lost after) a katakana letter before it. -/
theorem C143_pieces {std : Std} (hstd : std.Lawful) (dest : Bool) (ps rs : List Str)
    (h : ps.mapM (fun p => katakana_to_hiragana_with_opt std p dest) = .ok rs) :
    katakana_to_hiragana_with_opt std ps.flatten dest = .ok rs.flatten ↔
      ∀ l p r, ps = l ++ p :: r → ¬ Spec.Prolonged l.flatten p := by
  rw [mapM_ok ps fun s => k2h_eq hstd s dest] at h
  cases h
  rw [k2h_eq hstd, Except.ok.injEq]
  constructor
  · rintro e l p r rfl hpr
    have hlt := kept_pieces_lt hstd dest l r p hpr
    rw [e, ← List.flatMap_def] at hlt
    omega
  · intro hp
    have := k2hP_parts_any std dest ps [] (by simpa using hp)
    rwa [List.flatten_nil, List.nil_append, show k2hP std dest none [] = [] from rfl, List.nil_append] at this

/-- **C143** for two texts -/
theorem C143_cut {std : Std} (hstd : std.Lawful) (dest : Bool) (a b ra rb : Str)
    (h1 : katakana_to_hiragana_with_opt std a dest = .ok ra) (h2 : katakana_to_hiragana_with_opt std b dest = .ok rb) :
    katakana_to_hiragana_with_opt std (a ++ b) dest = .ok (ra ++ rb) ↔ ¬ Spec.Prolonged a b := by
  have h := C143_pieces hstd dest [a, b] [ra, rb] (by rw [List.mapM_cons, h1, ok_bind, List.mapM_cons, h2]; rfl)
  simp only [List.flatten_cons, List.flatten_nil, List.append_nil] at h
  rw [h]
  constructor
  · intro h
    simpa using h [a] b [] rfl
  · intro h l p r e
    match l, e with
    | [], e => rintro ⟨g, hg, -⟩; cases hg
    | [x], e => cases e; simpa using h
    | x :: y :: l, e => cases l <;> cases e

/-- **C143** for the tokens of a text -/
theorem C143_tokens {std : Std} (hstd : std.Lawful) (dest : Bool) (s : Str) (compact : Bool) (rs : List Str)
    (h : (tokenize_with_opt s compact).mapM (fun p => katakana_to_hiragana_with_opt std p dest) = .ok rs) :
    katakana_to_hiragana_with_opt std s dest = .ok rs.flatten ↔
      ∀ l p r, tokenize_with_opt s compact = l ++ p :: r → ¬ Spec.Prolonged l.flatten p := by
  have := C143_pieces hstd dest _ rs h
  rwa [(C45_concat s compact).1] at this

/-- **C143** After a beginning in hiragana the rest of a text is converted as if it stood alone, so converting the
beginning first makes no difference exactly under the same condition. -/
theorem C143_resume {std : Std} (hstd : std.Lawful) (dest : Bool) (a b ra rb : Str)
    (h1 : katakana_to_hiragana_with_opt std a dest = .ok ra) (h2 : katakana_to_hiragana_with_opt std b dest = .ok rb) :
    katakana_to_hiragana_with_opt std (ra ++ b) dest = .ok (ra ++ rb) ∧
    (katakana_to_hiragana_with_opt std (ra ++ b) dest = katakana_to_hiragana_with_opt std (a ++ b) dest ↔
      ¬ Spec.Prolonged a b) := by
  have hk := C23_no_katakana hstd a ra dest h1
  have h3 : katakana_to_hiragana_with_opt std (ra ++ b) dest = .ok (ra ++ rb) := by
    refine (C143_cut hstd dest ra b ra rb (C23_unchanged hstd ra dest hk) h2).2 ?_
    rintro ⟨g, hg, hgk, -⟩
    have hm := (governing_mem hg)
    exact hm.2 (hk g hm.1 (Or.inl hgk))
  refine ⟨h3, ?_⟩
  rw [h3, ← C143_cut hstd dest a b ra rb h1 h2, eq_comm]

/-- コーヒー may be cut before the ヒ only -/
example : katakana_to_hiragana modernStd "コー".toList = .ok "こう".toList ∧
    katakana_to_hiragana modernStd "ヒー".toList = .ok "ひい".toList ∧
    katakana_to_hiragana modernStd "コーヒー".toList = .ok "こうひい".toList ∧
    katakana_to_hiragana modernStd "ーヒー".toList = .ok "ーひい".toList ∧
    katakana_to_hiragana modernStd "こーヒー".toList = .ok "こーひい".toList ∧
    Spec.governing "コ".toList = some 'コ' ∧ Spec.KatakanaLetter 'コ' := by decide +kernel

end WanaKana
