import Verif.Spec.Checks
import Verif.Props.Complete
import Verif.Props.Convert4
import Verif.Props.Predicates
import Verif.Props.ToRomaji
import Verif.Proofs.StdUnicode
/-! # C93: exactly which results pass the checks -/

namespace WanaKana
open KNode

/-- facts about all rows: when the kana of a row pass the checks -/
theorem row_facts {m : Mode} {p : Str} {n : KNode} {out : Str} (hw : (tree m).walk p = some n)
    (ho : n.output = some out) : out ≠ [] ∧ ((∀ d ∈ out, Spec.Kana d) ↔ ∀ c ∈ p, Spec.KanaText c) ∧
      ∀ d ∈ out, d ≠ 'ゕ' ∧ d ≠ 'ゖ' := by
  have h : (allModes fun _ x => match x.2.output with
      | none => true
      | some out => !out.isEmpty && (decide (∀ d ∈ out, Spec.Kana d) == decide (∀ c ∈ x.1, Spec.KanaText c)) &&
          decide (∀ d ∈ out, d ≠ 'ゕ' ∧ d ≠ 'ゖ')) = true := by decide +kernel
  have := allModes_walk h hw
  simp only [ho, Bool.and_eq_true, Bool.not_eq_true', List.isEmpty_eq_false_iff, beq_iff_eq, decide_eq_decide] at this
  exact ⟨this.1.1, this.1.2, of_decide_eq_true this.2⟩

theorem kanaText_low {c : Char} : Spec.KanaText (toAsciiLowercase c) ↔ Spec.KanaText c := by
  have h := toAsciiLowercase_toNat c
  simp only [Spec.KanaText, specKana_iff, Spec.AsciiLetter, Spec.In, List.mem_cons, List.not_mem_nil, or_false,
    char_eq_iff, Char.reduceToNat, h]
  split <;> omega

theorem mem_low {P : Char → Prop} {s : Str} : (∀ c ∈ low s, P c) ↔ ∀ c ∈ s, P (toAsciiLowercase c) := by
  simp [low]

theorem kana_styled {x out : Str} : (∀ d ∈ styled x out, Spec.Kana d) ↔ ∀ d ∈ out, Spec.Kana d := by
  unfold styled
  split
  · simp only [List.mem_map, forall_exists_index, and_imp, forall_apply_eq_imp_iff₂]
    apply forall_congr'; intro d
    have := h2kP_toNat d
    rw [specKana_iff, specKana_iff]
    constructor <;> (intro h hd; have := h hd; revert this; rw [‹(h2kP d).toNat = _›]; split <;> omega)
  · rfl

theorem forall_append {P : Char → Prop} {a b : Str} : (∀ d ∈ a ++ b, P d) ↔ (∀ d ∈ a, P d) ∧ ∀ d ∈ b, P d := by
  simp only [List.mem_append]
  exact ⟨fun h => ⟨fun d hd => h d (Or.inl hd), fun d hd => h d (Or.inr hd)⟩,
    fun h d hd => hd.elim (h.1 d) (h.2 d)⟩

/-- the result is all kana exactly if no ASCII is left and every character can become kana -/
theorem kana_all_kana (m : Mode) (s : Str) : (∀ d ∈ kana m s, Spec.Kana d) ↔
    (∀ d ∈ kana m s, 0x80 ≤ d.toNat) ∧ ∀ c ∈ s, Spec.KanaText c := by
  induction s using list_strong with
  | _ s ih =>
    cases s with
    | nil => simp [kana_nil]
    | cons c s =>
      obtain ⟨n, k, hst⟩ := exists_stops (tree m) (c :: s)
      cases ho : n.output with
      | none =>
        rw [kana_miss hst ho]
        simp only [List.forall_mem_cons, ih s (by simp)]
        have : Spec.Kana c ↔ 0x80 ≤ c.toNat ∧ Spec.KanaText c := by
          simp only [Spec.KanaText, specKana_iff, Spec.AsciiLetter, Spec.In, List.mem_cons, List.not_mem_nil, or_false,
            char_eq_iff, Char.reduceToNat]
          omega
        rw [this]
        constructor
        · rintro ⟨⟨a, b⟩, c, d⟩; exact ⟨⟨a, c⟩, b, d⟩
        · rintro ⟨⟨a, c⟩, b, d⟩; exact ⟨⟨a, b⟩, c, d⟩
      | some out =>
        have hk := stops_pos hst ho
        have hle := hst.le
        have f := row_facts hst.walk ho
        have hh := (complete_facts hst.walk).1 out ho
        rw [kana_hit hst ho, forall_append, forall_append, ih _ (by simp [List.length_drop]; omega), kana_styled, f.2.1,
          mem_low]
        simp only [kanaText_low]
        have e : (∀ x ∈ c :: s, Spec.KanaText x) ↔ (∀ x ∈ (c :: s).take k, Spec.KanaText x) ∧
            ∀ x ∈ (c :: s).drop k, Spec.KanaText x := by
          rw [← forall_append, List.take_append_drop]
        rw [e]
        have hs := styled_high (w := (c :: s).take k) hh
        constructor
        · rintro ⟨a, b, d⟩; exact ⟨⟨hs, b⟩, a, d⟩
        · rintro ⟨⟨_, b⟩, a, d⟩; exact ⟨a, b, d⟩

theorem kana_eq_nil {m : Mode} {s : Str} : kana m s = [] ↔ s = [] := by
  constructor
  · intro h
    cases s with
    | nil => rfl
    | cons c s =>
      exfalso
      obtain ⟨n, k, hst⟩ := exists_stops (tree m) (c :: s)
      cases ho : n.output with
      | none => rw [kana_miss hst ho] at h; cases h
      | some out =>
        rw [kana_hit hst ho, List.append_eq_nil_iff] at h
        have := styled_length ((c :: s).take k) out
        rw [h.1] at this
        exact (row_facts hst.walk ho).1 (List.length_eq_zero_iff.1 this.symm)
  · rintro rfl; exact kana_nil m

/-- **C93** `to_kana` gives pure kana exactly for texts of table keys and kana — no marks other than `-` and `/` — that
are converted completely (C90) -/
theorem C93_is_kana {std : Std} (hstd : std.Lawful) (s r : Str) (o : Options) (h : to_kana_with_opt std s o = .ok r) :
    is_kana r = true ↔ s ≠ [] ∧ (∀ c ∈ s, Spec.KanaText c) ∧
      (∃ ws : List Str, s = ws.flatten ∧
        ∀ w ∈ ws, Spec.IsKey (Spec.tableFor o.use_obsolete_kana o.imemode) w ∨ ∃ c, w = [c] ∧ ¬ Spec.Ascii c) ∧
      (o.use_obsolete_kana = true ∨ o.imemode = false →
        ∀ a b, s.map Spec.asciiLower = a ++ 'n' :: 'y' :: 'y' :: b → a.getLast? = some 'x') := by
  have h90 := C90_complete hstd s r o h
  rw [to_kana_eq hstd] at h
  cases h
  rw [C01_is_kana, kana_all_kana, ← h90, Ne, kana_eq_nil]
  have ha : ∀ c, ¬ Spec.Ascii c ↔ 0x80 ≤ c.toNat := by intro c; unfold Spec.Ascii; omega
  simp only [ha]
  constructor
  · rintro ⟨a, b, c⟩; exact ⟨a, c, b⟩
  · rintro ⟨a, c, b⟩; exact ⟨a, b, c⟩

example : to_kana_with_opt modernStd "ラーmen-Ya".toList {} = .ok "ラーめんーや".toList ∧
    is_kana "ラーめんーや".toList = true ∧
    to_kana_with_opt modernStd "ra-men.".toList {} = .ok "らーめん。".toList ∧
    is_kana "らーめん。".toList = false := by decide +kernel

/-! ## to_hiragana and to_katakana -/

/-- kana other than the symbols in `X` -/
def KanaBut (X : Str) (d : Char) : Prop := Spec.Kana d ∧ d ∉ X

theorem kanaBut_low {X : Str} {c : Char} : KanaBut X (toAsciiLowercase c) ↔ KanaBut X c := by
  unfold KanaBut
  by_cases h : aUpper c = true
  · have h1 := aUpper_iff.1 h
    have h2 := toAsciiLowercase_toNat c
    rw [if_pos h1] at h2
    rw [specKana_iff, specKana_iff]
    constructor
    · rintro ⟨h, _⟩; omega
    · rintro ⟨h, _⟩; omega
  · rw [toAsciiLowercase_of_not_upper (by simpa using h)]

theorem kanaBut_h2kP {X : Str} (hX : ∀ x ∈ X, x ∈ ['・', 'ヵ', 'ヶ']) {d : Char} (h1 : d ≠ 'ゕ') (h2 : d ≠ 'ゖ') :
    KanaBut X (h2kP d) ↔ KanaBut X d := by
  have hn := h2kP_toNat d
  by_cases h : 12353 ≤ d.toNat ∧ d.toNat ≤ 12438
  · rw [if_pos h] at hn
    have a1 : Spec.Kana d := by rw [specKana_iff]; omega
    have a2 : Spec.Kana (h2kP d) := by rw [specKana_iff]; omega
    have hd : d.toNat ≠ 0x3095 ∧ d.toNat ≠ 0x3096 := by
      rw [Ne, char_eq_iff] at h1 h2
      exact ⟨h1, h2⟩
    have a3 : d ∉ X := by
      intro hm
      have := hX d hm
      simp only [List.mem_cons, List.not_mem_nil, or_false, char_eq_iff, Char.reduceToNat] at this
      omega
    have a4 : h2kP d ∉ X := by
      intro hm
      have := hX _ hm
      simp only [List.mem_cons, List.not_mem_nil, or_false, char_eq_iff, Char.reduceToNat] at this
      omega
    exact ⟨fun _ => ⟨a1, a3⟩, fun _ => ⟨a2, a4⟩⟩
  · rw [if_neg h] at hn
    have : h2kP d = d := by rw [char_eq_iff]; exact hn
    rw [this]

/-- letter case does not matter for this -/
theorem kanaBut_case {X : Str} (hX : ∀ x ∈ X, x ∈ ['・', 'ヵ', 'ヶ']) (m : Mode) (s s' : Str) (h : low s = low s') :
    (∀ d ∈ kana m s, KanaBut X d) ↔ ∀ d ∈ kana m s', KanaBut X d := by
  have hstyled : ∀ {x out : Str}, (∀ d ∈ out, d ≠ 'ゕ' ∧ d ≠ 'ゖ') →
      ((∀ d ∈ styled x out, KanaBut X d) ↔ ∀ d ∈ out, KanaBut X d) := by
    intro x out ho
    unfold styled
    split
    · simp only [List.mem_map, forall_exists_index, and_imp, forall_apply_eq_imp_iff₂]
      constructor
      · intro h d hd; exact (kanaBut_h2kP hX (ho d hd).1 (ho d hd).2).1 (h d hd)
      · intro h d hd; exact (kanaBut_h2kP hX (ho d hd).1 (ho d hd).2).2 (h d hd)
    · rfl
  induction s using list_strong generalizing s' with
  | _ s ih =>
    have hl : s.length = s'.length := by have := congrArg List.length h; simpa using this
    cases s with
    | nil =>
      cases s' with
      | nil => exact Iff.rfl
      | cons _ _ => simp at hl
    | cons c s =>
      cases s' with
      | nil => simp at hl
      | cons c' s' =>
        obtain ⟨n, k, hst⟩ := exists_stops (tree m) (c :: s)
        have hst' := stops_congr_low hst h
        have hcs : toAsciiLowercase c = toAsciiLowercase c' ∧ low s = low s' := by
          simpa [low] using h
        cases ho : n.output with
        | none =>
          have ih1 : (∀ d ∈ kana m s, KanaBut X d) ↔ ∀ d ∈ kana m s', KanaBut X d := ih s (by simp) s' hcs.2
          rw [kana_miss hst ho, kana_miss hst' ho, List.forall_mem_cons, List.forall_mem_cons, ih1,
            ← kanaBut_low (c := c), hcs.1, kanaBut_low]
        | some out =>
          have hk := stops_pos hst ho
          have hf := (row_facts hst.walk ho).2.2
          rw [kana_hit hst ho, kana_hit hst' ho, forall_append, forall_append, hstyled hf, hstyled hf]
          have e1 : low ((c :: s).drop k) = (low (c :: s)).drop k := List.map_drop
          have e2 : low ((c' :: s').drop k) = (low (c' :: s')).drop k := List.map_drop
          have ih1 : (∀ d ∈ kana m ((c :: s).drop k), KanaBut X d) ↔ ∀ d ∈ kana m ((c' :: s').drop k), KanaBut X d :=
            ih ((c :: s).drop k) (by simp [List.length_drop]; omega) ((c' :: s').drop k) (by rw [e1, e2, h])
          rw [ih1]

/-- no character outside ASCII is lower-cased to ASCII alone (true in Unicode of all but the Kelvin sign) -/
def LowerSound (std : Std) (s : Str) : Prop :=
  ∀ c ∈ s, ¬ Spec.Ascii c → ∃ d ∈ std.lowerChar c, ¬ Spec.Ascii d

theorem lower_has {std : Std} (s : Str) {c : Char} (hc : c ∈ s) : ∀ pre,
    (c = 'Σ' ∧ ('ς' ∈ std.lowerFrom pre s ∨ 'σ' ∈ std.lowerFrom pre s)) ∨
    (∀ d ∈ std.lowerChar c, d ∈ std.lowerFrom pre s) := by
  induction s with
  | nil => cases hc
  | cons x s ih =>
    intro pre
    rw [Std.lowerFrom]
    rcases List.mem_cons.1 hc with rfl | h
    · split
      · next h =>
        left
        refine ⟨h, ?_⟩
        split
        · exact Or.inl (by simp)
        · exact Or.inr (by simp)
      · right; intro d hd; exact List.mem_append_left _ hd
    · rcases ih h (pre ++ [x]) with ⟨h1, h2⟩ | h1
      · left
        exact ⟨h1, h2.imp (fun h => List.mem_append_right _ h) fun h => List.mem_append_right _ h⟩
      · right; intro d hd; exact List.mem_append_right _ (h1 d hd)

theorem kanaText_high {d : Char} (h : Spec.KanaText d) (ha : ¬ Spec.Ascii d) : Spec.Kana d := by
  simp only [Spec.KanaText, specKana_iff, Spec.AsciiLetter, Spec.In, List.mem_cons, List.not_mem_nil, or_false,
    char_eq_iff, Char.reduceToNat, Spec.Ascii] at *
  omega

theorem kanaText_of_lower {std : Std} (hstd : std.Lawful) {s : Str} (hs : LowerSound std s)
    (h : ∀ d ∈ std.toLowercase s, Spec.KanaText d) : ∀ c ∈ s, Spec.KanaText c := by
  intro c hc
  rcases lower_has (std := std) s hc [] with ⟨_, h1 | h1⟩ | h1
  · exact absurd (h _ h1) (by decide)
  · exact absurd (h _ h1) (by decide)
  · by_cases ha : Spec.Ascii c
    · have := hstd.lowerChar_ascii c ha
      exact kanaText_low.1 (h _ (h1 _ (by rw [this]; simp)))
    · obtain ⟨d, hd, hda⟩ := hs c hc ha
      have hk := kanaText_high (h d (h1 d hd)) hda
      have : d = c := by
        apply Classical.byContradiction
        intro hne
        exact hstd.lowerChar_target c d hd hne (kana_uncased hk)
      subst this
      exact Or.inl hk

theorem lower_of_kanaText {std : Std} (hstd : std.Lawful) {s : Str} (h : ∀ c ∈ s, Spec.KanaText c) :
    std.toLowercase s = low s := by
  have key : ∀ (s pre : Str), (∀ c ∈ s, Spec.KanaText c) → std.lowerFrom pre s = low s := by
    intro s
    induction s with
    | nil => intro _ _; rfl
    | cons c s ih =>
      intro pre h
      have hc := h c (by simp)
      have hsig : c ≠ 'Σ' := by rintro rfl; exact absurd hc (by decide)
      rw [Std.lowerFrom, if_neg hsig, ih _ fun d hd => h d (by simp [hd])]
      have : std.lowerChar c = [toAsciiLowercase c] := by
        by_cases ha : Spec.Ascii c
        · exact hstd.lowerChar_ascii c ha
        · rw [hstd.lowerChar_uncased c (kana_uncased (kanaText_high hc ha))]
          rw [toAsciiLowercase_of_not_upper]
          rw [Bool.eq_false_iff, Ne, aUpper_iff]
          unfold Spec.Ascii at ha; omega
      rw [this]; rfl
  exact key s [] h

/-- lower-casing first makes no difference -/
theorem kanaBut_lower {std : Std} (hstd : std.Lawful) {X : Str} (hX : ∀ x ∈ X, x ∈ ['・', 'ヵ', 'ヶ']) (m : Mode) {s : Str}
    (hs : LowerSound std s) :
    (∀ d ∈ kana m (std.toLowercase s), KanaBut X d) ↔ ∀ d ∈ kana m s, KanaBut X d := by
  have key : (∀ c ∈ s, Spec.KanaText c) → ((∀ d ∈ kana m (std.toLowercase s), KanaBut X d) ↔ ∀ d ∈ kana m s, KanaBut X d) := by
    intro h
    rw [lower_of_kanaText hstd h]
    exact kanaBut_case hX m _ _ (low_low s)
  constructor
  · intro h
    exact (key (kanaText_of_lower hstd hs ((kana_all_kana m _).1 fun d hd => (h d hd).1).2)).1 h
  · intro h
    exact (key ((kana_all_kana m _).1 fun d hd => (h d hd).1).2).2 h

theorem kanaBut_k2hP {std : Std} (hstd : std.Lawful) {X : Str} (hX : ∀ x ∈ X, x ∈ ['・', 'ヵ', 'ヶ']) (s : Str) :
    ∀ {prev}, PrevOk prev → ((∀ d ∈ k2hP std false prev s, KanaBut X d) ↔ ∀ c ∈ s, KanaBut X c) := by
  have hnot : ∀ d : Char, d.toNat ≠ 0x30FB → d.toNat ≠ 0x30F5 → d.toNat ≠ 0x30F6 → d ∉ X := by
    intro d h1 h2 h3 hm
    have := hX d hm
    simp only [List.mem_cons, List.not_mem_nil, or_false, char_eq_iff, Char.reduceToNat] at this
    omega
  induction s with
  | nil => intro prev _; cases prev <;> simp [k2hP]
  | cons c s ih =>
    intro prev hok
    rw [k2hP_cons]
    by_cases hk : keeps c = true
    · rw [if_pos hk, List.forall_mem_cons, List.forall_mem_cons, ih hok]
    · rw [if_neg hk]
      have hk' := mt keeps_iff.2 hk
      by_cases hd : isDash c = true
      · rw [if_pos hd]
        cases prev with
        | none => simp only []; rw [List.forall_mem_cons, List.forall_mem_cons, ih hok]
        | some p =>
          simp only []
          have hd' := isDash_iff.1 hd
          rw [forall_append, List.forall_mem_cons, ih hok]
          have hc : KanaBut X c := ⟨by rw [specKana_iff]; omega, hnot c (by omega) (by omega) (by omega)⟩
          have hl : ∀ d ∈ longOut std false c p, KanaBut X d := by
            intro d hd
            have := longOut_mem hstd (hok p rfl).1 (hok p rfl).2 false c d hd
            simp only [List.mem_cons, List.not_mem_nil, or_false] at this
            refine ⟨?_, hnot d ?_ ?_ ?_⟩ <;> rcases this with rfl | rfl | rfl | rfl | rfl <;> decide
          exact ⟨fun h => ⟨hc, h.2⟩, fun h => ⟨hl, h.2⟩⟩
      · rw [if_neg hd]
        have hd' := mt isDash_iff.2 hd
        by_cases ha : is_char_katakana c = true
        · rw [if_pos ha]
          have hp := k2hChar_prevOk (by simpa using hk) (by simpa using hd) ha
          rw [List.forall_mem_cons, List.forall_mem_cons, ih hp]
          have ha' := is_char_katakana_iff.1 ha
          have hp' := hp _ rfl
          have hc : KanaBut X c := ⟨by rw [specKana_iff]; omega, hnot c (by omega) (by omega) (by omega)⟩
          have hc' : KanaBut X (k2hChar c) := ⟨by rw [specKana_iff]; omega, hnot _ (by omega) (by omega) (by omega)⟩
          exact ⟨fun h => ⟨hc, h.2⟩, fun h => ⟨hc', h.2⟩⟩
        · rw [if_neg ha, List.forall_mem_cons, List.forall_mem_cons, ih prevOk_none]

theorem k2hP_ne_nil (std : Std) (dest : Bool) {s : Str} (h : s ≠ []) : k2hP std dest none s ≠ [] := by
  cases s with
  | nil => exact absurd rfl h
  | cons c s =>
    rw [k2hP_cons]
    repeat' split
    all_goals simp_all

/-- neither does the kana shift -/
theorem kanaBut_kana_k2hP {std : Std} (hstd : std.Lawful) {X : Str} (hX : ∀ x ∈ X, x ∈ ['・', 'ヵ', 'ヶ']) (m : Mode) (s : Str) :
    (∀ d ∈ kana m (k2hP std false none s), KanaBut X d) ↔ ∀ d ∈ kana m s, KanaBut X d := by
  obtain ⟨ts, hr⟩ := C60_runs_exist s
  have hk : ∀ x ∈ ts, x.1 = true → x.2 ≠ [] ∧ ∀ c ∈ x.2, Spec.Kana c := fun x hx hb =>
    ⟨(hr.runs x hx).1, fun c hc => ((hr.runs x hx).2 c hc).2 hb⟩
  have e1 := kana_runs m ts hk hr.alternating
  have e2 := k2hP_runs std false ts hr.runs hr.alternating
  have e3 := kana_runs m (ts.map fun x => (x.1, if x.1 then k2hP std false none x.2 else x.2)) (by
    intro x hx hb
    obtain ⟨y, hy, rfl⟩ := List.mem_map.1 hx
    simp only at hb ⊢
    rw [if_pos hb]
    obtain ⟨h1, h2⟩ := hk y hy hb
    exact ⟨k2hP_ne_nil std false h1, k2hP_allKana hstd false y.2 h2⟩) (alternating_map (f := fun x => (x.1, if x.1 then k2hP std false none x.2 else x.2)) (fun _ => rfl) ts hr.alternating)
  rw [List.flatMap_map, List.flatMap_map] at e3
  rw [hr.text] at e1 e2
  rw [e1, e2, e3]
  simp only [List.mem_flatMap, forall_exists_index, and_imp]
  constructor
  · intro h d x hx hd
    cases hb : x.1 with
    | true =>
      rw [hb, if_pos rfl] at hd
      refine (kanaBut_k2hP hstd hX x.2 prevOk_none).1 (fun e he => h e x hx ?_) d hd
      simpa [hb] using he
    | false => exact h d x hx (by simpa [hb] using hd)
  · intro h d x hx hd
    cases hb : x.1 with
    | true =>
      refine (kanaBut_k2hP hstd hX x.2 prevOk_none).2 (fun e he => h e x hx ?_) d (by simpa [hb] using hd)
      simpa [hb] using he
    | false => exact h d x hx (by simpa [hb] using hd)

theorem lower_ne_nil {std : Std} (hstd : std.Lawful) {s : Str} (hs : LowerSound std s) (h : s ≠ []) :
    std.toLowercase s ≠ [] := by
  cases s with
  | nil => exact absurd rfl h
  | cons c s =>
    rcases lower_has (std := std) (c :: s) (List.mem_cons_self) [] with ⟨_, h1 | h1⟩ | h1
    · exact List.ne_nil_of_mem h1
    · exact List.ne_nil_of_mem h1
    · by_cases ha : Spec.Ascii c
      · have := hstd.lowerChar_ascii c ha
        exact List.ne_nil_of_mem (h1 (toAsciiLowercase c) (by rw [this]; simp))
      · obtain ⟨d, hd, _⟩ := hs c (by simp) ha
        exact List.ne_nil_of_mem (h1 d hd)

theorem lowerSound_k2hP {std : Std} (hstd : std.Lawful) {s : Str} (hs : LowerSound std s) :
    LowerSound std (k2hP std false none s) := by
  intro c hc ha
  obtain ⟨ps, h1, h2, h3⟩ := k2hP_pieces hstd false s prevOk_none
  rw [h2] at hc
  obtain ⟨p, hp, hcp⟩ := List.mem_flatMap.1 hc
  rcases h3 p hp with e | ⟨_, _, e⟩
  · rw [e] at hcp
    simp at hcp
    subst hcp
    exact hs _ (by rw [h1]; exact List.mem_map_of_mem hp) ha
  · have hk : Spec.Kana c := Or.inl (e c hcp)
    exact ⟨c, by rw [hstd.lowerChar_uncased c (kana_uncased hk)]; simp, ha⟩

/-- texts the dispatch leaves to the kana shift: all or nothing -/
theorem all_kana_of_rest {X : Str} {m : Mode} {s : Str} (hm : is_mixed s = false) (hr : is_romaji s = false)
    (h : ∀ d ∈ kana m s, KanaBut X d) : ∀ c ∈ s, Spec.Kana c := by
  have hg := ((kana_all_kana m s).1 fun d hd => (h d hd).1).2
  rcases is_mixed_false_iff.1 hm with h1 | h1
  · intro c hc
    exfalso
    rw [Bool.eq_false_iff, Ne, C01_is_romaji] at hr
    apply hr
    refine ⟨List.ne_nil_of_mem hc, fun d hd => ?_⟩
    by_cases ha : Spec.Ascii d
    · exact Or.inl ha
    · exact absurd (kanaText_high (hg d hd) ha) (h1 d hd)
  · intro c hc
    apply kanaText_high (hg c hc)
    intro ha
    exact h1 c hc (Or.inl ha)

theorem kana_of_kana (m : Mode) {s : Str} (h : ∀ c ∈ s, Spec.Kana c) : kana m s = s := by
  have := kana_of_ge (m := m) (s := s) (fun c hc => kana_ge (h c hc)) []
  rwa [List.append_nil, kana_nil, List.append_nil] at this

theorem kanaBut_nil {d : Char} : KanaBut [] d ↔ Spec.Kana d := by simp [KanaBut]

theorem katakana_h2kP {d : Char} : Spec.Katakana (h2kP d) ↔ Spec.Kana d := by
  rw [specKana_iff, specKatakana_iff, h2kP_toNat]
  split <;> omega

/-- **C93** `to_katakana` gives pure katakana exactly if `to_kana` gives pure kana -/
theorem C93_is_katakana {std : Std} (hstd : std.Lawful) (s r k : Str) (o : Options) (hp : o.pass_romaji = false)
    (hs : LowerSound std s) (h : to_katakana_with_opt std s o = .ok r) (hk : to_kana_with_opt std s o = .ok k) :
    is_katakana r = is_kana k := by
  rw [to_katakana_eq hstd] at h
  rw [to_kana_eq hstd] at hk
  cases h; cases hk
  rw [Bool.eq_iff_iff, C01_is_katakana, C01_is_kana]
  unfold kataP
  rw [if_neg (by simp [hp])]
  have hX : ∀ x ∈ ([] : Str), x ∈ ['・', 'ヵ', 'ヶ'] := by simp
  simp only [Ne, kana_eq_nil]
  split
  · rw [List.map_eq_nil_iff, kana_eq_nil]
    simp only [List.mem_map, forall_exists_index, and_imp, forall_apply_eq_imp_iff₂, katakana_h2kP]
    have := kanaBut_lower hstd hX (modeOf o) hs
    simp only [kanaBut_nil] at this
    rw [this]
    constructor
    · rintro ⟨h1, h2⟩
      refine ⟨?_, h2⟩
      rintro rfl
      exact h1 rfl
    · rintro ⟨h1, h2⟩
      exact ⟨lower_ne_nil hstd hs h1, h2⟩
  · next hd =>
    simp only [Bool.or_eq_true, not_or, Bool.not_eq_true] at hd
    rw [List.map_eq_nil_iff]
    simp only [List.mem_map, forall_exists_index, and_imp, forall_apply_eq_imp_iff₂, katakana_h2kP]
    constructor
    · rintro ⟨h1, h2⟩
      exact ⟨h1, by rw [kana_of_kana _ h2]; exact h2⟩
    · rintro ⟨h1, h2⟩
      exact ⟨h1, all_kana_of_rest (X := []) hd.2 hd.1 fun d hd => kanaBut_nil.2 (h2 d hd)⟩

theorem hiragana_of_few {r : Str} (h : FewKatakana r) :
    (∀ d ∈ r, Spec.Hiragana d) ↔ ∀ d ∈ r, KanaBut ['・', 'ヵ', 'ヶ'] d := by
  constructor
  · intro h d hd
    have := h d hd
    rw [specHiragana_iff] at this
    refine ⟨by rw [specKana_iff]; omega, ?_⟩
    simp only [List.mem_cons, List.not_mem_nil, or_false, char_eq_iff, Char.reduceToNat]
    omega
  · intro h' d hd
    obtain ⟨h1, h2⟩ := h' d hd
    have h3 := h d hd
    rw [specKana_iff] at h1
    rw [specKatakana_iff] at h3
    simp only [List.mem_cons, List.not_mem_nil, or_false, char_eq_iff, Char.reduceToNat] at h2 h3
    rw [specHiragana_iff]
    omega

/-- **C93** `to_hiragana` gives pure hiragana exactly if `to_kana` gives pure kana other than ・ ヵ ヶ -/
theorem C93_is_hiragana {std : Std} (hstd : std.Lawful) (s r k : Str) (o : Options) (hp : o.pass_romaji = false)
    (hs : LowerSound std s) (h : to_hiragana_with_opt std s o = .ok r) (hk : to_kana_with_opt std s o = .ok k) :
    is_hiragana r = true ↔ is_kana k = true ∧ ∀ c ∈ k, c ∉ ['・', 'ヵ', 'ヶ'] := by
  rw [to_hiragana_eq hstd] at h
  rw [to_kana_eq hstd] at hk
  cases h; cases hk
  rw [C01_is_hiragana, C01_is_kana]
  have hX : ∀ x ∈ ['・', 'ヵ', 'ヶ'], x ∈ ['・', 'ヵ', 'ヶ'] := fun _ h => h
  have e0 : ((kana (modeOf o) s ≠ [] ∧ ∀ c ∈ kana (modeOf o) s, Spec.Kana c) ∧ ∀ c ∈ kana (modeOf o) s, c ∉ ['・', 'ヵ', 'ヶ']) ↔
      s ≠ [] ∧ ∀ d ∈ kana (modeOf o) s, KanaBut ['・', 'ヵ', 'ヶ'] d := by
    rw [Ne, kana_eq_nil]
    exact ⟨fun h => ⟨h.1.1, fun d hd => ⟨h.1.2 d hd, h.2 d hd⟩⟩,
      fun h => ⟨⟨h.1, fun d hd => (h.2 d hd).1⟩, fun d hd => (h.2 d hd).2⟩⟩
  rw [e0]
  unfold hiraP
  rw [if_neg (by simp [hp])]
  have hlow := kanaBut_lower hstd hX (modeOf o) hs
  have hlow' := kanaBut_lower hstd hX (modeOf o) (lowerSound_k2hP hstd hs)
  rw [kanaBut_kana_k2hP hstd hX] at hlow'
  split
  · rw [hiragana_of_few (few_lower hstd _ (few_k2h hstd s)), hlow', Ne, kana_eq_nil]
    constructor
    · rintro ⟨h1, h2⟩
      refine ⟨?_, h2⟩
      rintro rfl
      exact h1 rfl
    · rintro ⟨h1, h2⟩
      exact ⟨lower_ne_nil hstd (lowerSound_k2hP hstd hs) (k2hP_ne_nil std false h1), h2⟩
  · next hm =>
    split
    · next hr =>
      rw [Ne, kana_eq_nil]
      have hne : ¬ std.toLowercase s = [] ↔ s ≠ [] :=
        ⟨fun h e => h (by rw [e]; rfl), lower_ne_nil hstd hs⟩
      rw [hne]
      by_cases hrom : is_romaji s = true
      · rw [hiragana_of_few (few_lower hstd _ (few_romaji hrom)), hlow]
      · simp only [hrom, Bool.false_or] at hr
        have hno : ¬ ∀ c ∈ s, Spec.KanaText c := by
          intro hg
          rcases is_mixed_false_iff.1 (by simpa using hm) with h1 | h1
          · apply hrom
            rw [C01_is_romaji]
            refine ⟨by rintro rfl; simp at hr, fun d hd => ?_⟩
            by_cases ha : Spec.Ascii d
            · exact Or.inl ha
            · exact absurd (kanaText_high (hg d hd) ha) (h1 d hd)
          · cases s with
            | nil => simp at hr
            | cons c s =>
              have hc := kanaText_high (hg c (by simp)) (fun ha => h1 c (by simp) (Or.inl ha))
              simp only [List.head?_cons, Option.map_some, Option.getD_some] at hr
              have := (head_punct_iff (s := c :: s)).1 (by simpa using hr)
              obtain ⟨d, hd, hpun⟩ := this
              cases hd
              rcases englishPunct_romaji hpun with h2 | h2
              · exact h1 c (by simp) h2
              · rw [specKana_iff] at hc
                simp only [List.mem_cons, List.not_mem_nil, or_false, char_eq_iff, Char.reduceToNat] at h2
                omega
        constructor
        · rintro ⟨_, h2⟩
          exfalso
          apply hno
          apply kanaText_of_lower hstd hs
          exact ((kana_all_kana (modeOf o) _).1 fun d hd => by
            have := h2 d hd
            rw [specHiragana_iff] at this
            rw [specKana_iff]; omega).2
        · rintro ⟨_, h2⟩
          exact absurd ((kana_all_kana (modeOf o) _).1 fun d hd => (h2 d hd).1).2 hno
    · next hr =>
      simp only [Bool.or_eq_true, not_or, Bool.not_eq_true] at hr
      rw [hiragana_of_few (few_k2h hstd s), kanaBut_k2hP hstd hX s prevOk_none]
      constructor
      · rintro ⟨h1, h2⟩
        refine ⟨?_, ?_⟩
        · rintro rfl; exact h1 rfl
        · rw [kana_of_kana _ fun c hc => (h2 c hc).1]; exact h2
      · rintro ⟨h1, h2⟩
        refine ⟨k2hP_ne_nil std false h1, ?_⟩
        have := all_kana_of_rest (by simpa using hm) hr.1 h2
        rwa [kana_of_kana _ this] at h2

/-- **C93** in Unicode only the Kelvin sign is lower-cased to ASCII alone -/
theorem C93_lower_sound {search : List Char → Char → Option Nat} {s : Str} (hk : '\u212a' ∉ s) :
    LowerSound (unicodeStd search) s := by
  have ht : (Unicode.lowerTable.all fun x => Nat.ble x.1 0x7F || Nat.beq x.1 0x212a ||
      x.2.any fun d => decide d.isValidChar && Nat.ble 0x80 d) = true := by decide +kernel
  intro c hc ha
  show ∃ d ∈ uniMap Unicode.lowerTable c, _
  rcases uniMap_cases Unicode.lowerTable c with ⟨_, h⟩ | ⟨l, hl, _, h⟩
  · exact ⟨c, by rw [h]; simp, ha⟩
  · rw [h]
    have := List.all_eq_true.1 ht _ hl
    simp only [Bool.or_eq_true, Nat.ble_eq, Nat.beq_eq, List.any_eq_true, Bool.and_eq_true, decide_eq_true_iff] at this
    rcases this with (h1 | h1) | ⟨d, hd, hv, h1⟩
    · exact absurd (show c.toNat < 0x80 by omega) ha
    · exfalso
      apply hk
      have : c = '\u212a' := by rw [char_eq_iff]; exact h1
      rwa [← this]
    · refine ⟨Char.ofNat d, List.mem_map_of_mem hd, ?_⟩
      have hnat : (Char.ofNat d).toNat = d := by
        rw [Char.ofNat, dif_pos hv]; rfl
      show ¬ (Char.ofNat d).toNat < 0x80
      rw [hnat]; omega

example : to_hiragana_with_opt modernStd "ラーMEN-lka".toList {} = .ok "らあめんーヵ".toList ∧
    is_hiragana "らあめんー".toList = true ∧ is_hiragana "らあめんーヵ".toList = false ∧
    LowerSound modernStd "ラーMEN-lka".toList := by
  refine ⟨by decide +kernel, by decide, by decide, ?_⟩
  unfold LowerSound
  decide +kernel

/-- the Kelvin sign is indeed an exception -/
example : to_katakana_with_opt rustStd "\u212aaあ".toList {} = .ok "カア".toList ∧
    to_kana_with_opt rustStd "\u212aaあ".toList {} = .ok "\u212aああ".toList := by decide +kernel

/-! ## to_romaji -/

/-- hiragana forms with romaji in Latin letters -/
def RomOk (c : Char) : Prop := Spec.Romaji c ∨ (romajiKey c = true ∧ c ∉ ['「', '」', '『', '』'])

theorem romaji_aUp {d : Char} : Spec.Romaji (aUp d) ↔ Spec.Romaji d := by
  unfold aUp
  split
  · next h =>
    have h1 : (Char.ofNat (d.toNat - 32)).toNat = d.toNat - 32 := by
      have := aUp_toNat d
      unfold aUp at this
      rwa [if_pos h, if_pos h] at this
    refine ⟨fun _ => Or.inl ?_, fun _ => Or.inl ?_⟩
    · show d.toNat < 0x80; omega
    · show (Char.ofNat (d.toNat - 32)).toNat < 0x80; omega
  · rfl

instance (c : Char) : Decidable (RomOk c) := by unfold RomOk; infer_instance

theorem rom_all_romaji {std : Std} (hstd : std.Lawful) (up : Bool) : ∀ (z : List (Char × Bool)),
    ((∀ d ∈ rom std up z, Spec.Romaji d) ↔ ∀ c ∈ z.map Prod.fst, RomOk c) ∧
    (rom std up z = [] ↔ ∀ c ∈ z.map Prod.fst, c = 'っ') := by
  intro z
  induction z using rom_ind (std := std) with
  | nil => rw [rom_nil]; simp
  | miss c b z h ih =>
    rw [rom_miss h, List.map_cons, List.forall_mem_cons, List.forall_mem_cons, List.forall_mem_cons, ih.1]
    have hk : romajiKey c = false := by
      cases hk : romajiKey c with
      | false => rfl
      | true => obtain ⟨n, hn⟩ := root_some hstd hk; rw [h] at hn; cases hn
    refine ⟨?_, ?_⟩
    · simp only [RomOk, hk]
      simp
    · simp only [reduceCtorEq, false_iff, not_and]
      rintro rfl
      exact absurd hk (by decide)
  | hit z n k hk h ih =>
    have hc : (TO_ROMAJI_NODE_TREE.paths.all fun x => (decide (∀ d ∈ x.2.output, Spec.Romaji d) ==
        decide (∀ c ∈ x.1, RomOk c)) && (decide (x.2.output = []) == decide (∀ c ∈ x.1, c = 'っ'))) = true := by
      decide +kernel
    have h4 := rwalk_check hstd hc h.walk
    simp only [Bool.and_eq_true, beq_iff_eq, decide_eq_decide] at h4
    have hz : ∀ P : Char → Prop, (∀ c ∈ z.map Prod.fst, P c) ↔ (∀ c ∈ (z.map Prod.fst).take k, P c) ∧
        ∀ c ∈ (z.drop k).map Prod.fst, P c := by
      intro P
      rw [← forall_append, List.map_drop, List.take_append_drop]
    rw [rom_hit h hk, forall_append, hz RomOk, hz fun c => c = 'っ', List.append_eq_nil_iff, ih.1, ih.2, ← h4.1, ← h4.2]
    refine ⟨?_, ?_⟩
    · split
      · simp only [List.mem_map, forall_exists_index, and_imp, forall_apply_eq_imp_iff₂, romaji_aUp]
      · rfl
    · split
      · rw [List.map_eq_nil_iff]
      · rfl

/-- the same condition for the original text -/
def RomOk' (c : Char) : Prop := Spec.Romaji c ∨ (Spec.Convertible c ∧ c ∉ ['「', '」', '『', '』'])

theorem romOk_k2hP {std : Std} (hstd : std.Lawful) (s : Str) : ∀ {prev}, PrevOk prev →
    ((∀ d ∈ k2hP std true prev s, RomOk d) ↔ ∀ c ∈ s, RomOk' c) := by
  have hjp : ∀ c : Char, 0x3041 ≤ c.toNat → c ∉ ['「', '」', '『', '』'] := by
    intro c h
    simp only [List.mem_cons, List.not_mem_nil, or_false, char_eq_iff, Char.reduceToNat]
    omega
  have hhira : ∀ c : Char, 0x3041 ≤ c.toNat → c.toNat ≤ 0x3094 → RomOk c := fun c h1 h2 =>
    Or.inr ⟨romajiKey_iff.2 (Or.inl ⟨h1, h2⟩), hjp c h1⟩
  have hsame : ∀ c : Char, (is_char_katakana c = false ∨ keeps c = true ∨ isDash c = true) → (RomOk c ↔ RomOk' c) := by
    intro c h
    unfold RomOk RomOk'
    rw [convertible_iff]
    by_cases hk : romajiKey c = true
    · simp [hk]
    · have : ¬ (is_char_katakana c = true ∧ keeps c = false) := by
        rintro ⟨h1, h2⟩
        rcases h with h | h | h
        · rw [h] at h1; cases h1
        · rw [h] at h2; cases h2
        · apply hk
          rw [romajiKey_iff, isDash_iff.1 h]
          right; decide
      simp [hk, this]
  induction s with
  | nil => intro prev _; cases prev <;> simp [k2hP]
  | cons c s ih =>
    intro prev hok
    rw [k2hP_cons]
    by_cases hk : keeps c = true
    · rw [if_pos hk, List.forall_mem_cons, List.forall_mem_cons, ih hok, hsame c (Or.inr (Or.inl hk))]
    · rw [if_neg hk]
      by_cases hd : isDash c = true
      · rw [if_pos hd]
        cases prev with
        | none => simp only []; rw [List.forall_mem_cons, List.forall_mem_cons, ih hok, hsame c (Or.inr (Or.inr hd))]
        | some p =>
          simp only []
          have hd' := isDash_iff.1 hd
          rw [forall_append, List.forall_mem_cons, ih hok]
          have hc : RomOk' c := by
            rw [← hsame c (Or.inr (Or.inr hd))]
            refine Or.inr ⟨?_, hjp c (by omega)⟩
            rw [romajiKey_iff, hd']
            right; decide
          have hl : ∀ d ∈ longOut std true c p, RomOk d := by
            intro d hd
            have := longOut_mem hstd (hok p rfl).1 (hok p rfl).2 true c d hd
            simp only [List.mem_cons, List.not_mem_nil, or_false] at this
            apply hhira <;> rcases this with rfl | rfl | rfl | rfl | rfl <;> decide
          exact ⟨fun h => ⟨hc, h.2⟩, fun h => ⟨hl, h.2⟩⟩
      · rw [if_neg hd]
        by_cases ha : is_char_katakana c = true
        · rw [if_pos ha]
          have hp := k2hChar_prevOk (by simpa using hk) (by simpa using hd) ha
          rw [List.forall_mem_cons, List.forall_mem_cons, ih hp]
          have ha' := is_char_katakana_iff.1 ha
          have hp' := hp _ rfl
          have hc : RomOk' c := Or.inr ⟨convertible_iff.2 (Or.inr ⟨ha, by simpa using hk⟩), hjp c (by omega)⟩
          exact ⟨fun h => ⟨hc, h.2⟩, fun h => ⟨hhira _ hp'.1 hp'.2, h.2⟩⟩
        · rw [if_neg ha, List.forall_mem_cons, List.forall_mem_cons, ih prevOk_none, hsame c (Or.inl (by simpa using ha))]

theorem onlySokuon_cons {c : Char} {s : Str} : Spec.OnlySokuon (c :: s) ↔
    (c = 'っ' ∧ Spec.OnlySokuon s) ∨ (c = 'ッ' ∧ ∃ n t, s = List.replicate n 'ー' ++ t ∧ Spec.OnlySokuon t) := by
  constructor
  · intro h
    cases h with
    | hira h => exact Or.inl ⟨rfl, h⟩
    | kata n h => exact Or.inr ⟨rfl, n, _, rfl, h⟩
  · rintro (⟨rfl, h⟩ | ⟨rfl, n, t, rfl, h⟩)
    · exact .hira h
    · exact .kata n h

theorem sokuon_iff {std : Std} (hstd : std.Lawful) (s : Str) :
    ((∀ d ∈ k2hP std true none s, d = 'っ') ↔ Spec.OnlySokuon s) ∧
    ((∀ d ∈ k2hP std true (some 'っ') s, d = 'っ') ↔ ∃ n t, s = List.replicate n 'ー' ++ t ∧ Spec.OnlySokuon t) := by
  induction s with
  | nil =>
    refine ⟨⟨fun _ => .nil, fun _ => by simp [k2hP]⟩, ⟨fun _ => ⟨0, [], rfl, .nil⟩, fun _ => by simp [k2hP]⟩⟩
  | cons c s ih =>
    have htail : isDash c = false → ((∃ n t, c :: s = List.replicate n 'ー' ++ t ∧ Spec.OnlySokuon t) ↔ Spec.OnlySokuon (c :: s)) := by
      intro hd
      constructor
      · rintro ⟨n, t, e, h⟩
        cases n with
        | zero => simp at e; rw [e]; exact h
        | succ n =>
          simp only [List.replicate_succ, List.cons_append, List.cons.injEq] at e
          rw [e.1] at hd
          exact absurd hd (by decide)
      · intro h; exact ⟨0, _, rfl, h⟩
    rw [k2hP_cons, k2hP_cons]
    by_cases hk : keeps c = true
    · have hk' := keeps_iff.1 hk
      have hd : isDash c = false := by rw [Bool.eq_false_iff, Ne, isDash_iff]; omega
      have h1 : ¬ Spec.OnlySokuon (c :: s) := by
        rw [onlySokuon_cons]
        rintro (⟨rfl, _⟩ | ⟨rfl, _⟩) <;> exact absurd hk (by decide)
      have h2 : c ≠ 'っ' := by rintro rfl; exact absurd hk (by decide)
      rw [if_pos hk, if_pos hk, htail hd]
      simp only [List.forall_mem_cons, h2, false_and, false_iff]
      exact ⟨h1, h1⟩
    · rw [if_neg hk, if_neg hk]
      by_cases hd : isDash c = true
      · have hc : c = 'ー' := by rw [char_eq_iff]; exact isDash_iff.1 hd
        subst hc
        rw [if_pos hd, if_pos hd]
        simp only []
        have hl : longOut std true 'ー' 'っ' = [] := by
          rw [longOut_eq hstd (by decide) (by decide) (by decide)]; decide
        rw [hl, List.nil_append, ih.2]
        refine ⟨?_, ?_⟩
        · simp only [List.forall_mem_cons, onlySokuon_cons]
          simp
        · constructor
          · rintro ⟨n, t, rfl, h⟩; exact ⟨n + 1, t, rfl, h⟩
          · rintro ⟨n, t, e, h⟩
            cases n with
            | zero =>
              simp at e
              rw [← e, onlySokuon_cons] at h
              simp at h
            | succ n =>
              simp only [List.replicate_succ, List.cons_append, List.cons.injEq, true_and] at e
              exact ⟨n, t, e, h⟩
      · have hd' : isDash c = false := by simpa using hd
        rw [if_neg hd, if_neg hd, htail hd']
        suffices h : (∀ d ∈ (if is_char_katakana c then k2hChar c :: k2hP std true (some (k2hChar c)) s
            else c :: k2hP std true none s), d = 'っ') ↔ Spec.OnlySokuon (c :: s) from ⟨h, h⟩
        by_cases ha : is_char_katakana c = true
        · rw [if_pos ha, List.forall_mem_cons, onlySokuon_cons]
          have ha' := is_char_katakana_iff.1 ha
          have hd2 := mt isDash_iff.2 hd
          have hk2 := mt keeps_iff.2 hk
          have hne : c ≠ 'っ' := by rintro rfl; exact absurd ha (by decide)
          have he : k2hChar c = 'っ' ↔ c = 'ッ' := by
            constructor
            · intro h
              have := k2hChar_toNat (c := c) (by omega) (by omega)
              rw [h] at this
              rw [char_eq_iff]
              simp only [Char.reduceToNat] at this ⊢
              revert this
              repeat' split
              all_goals omega
            · rintro rfl; decide
          rw [he]
          constructor
          · rintro ⟨rfl, h⟩
            right
            refine ⟨rfl, ?_⟩
            rw [show k2hChar 'ッ' = 'っ' by decide] at h
            exact ih.2.1 h
          · rintro (⟨h, _⟩ | ⟨rfl, h⟩)
            · exact absurd h hne
            · refine ⟨rfl, ?_⟩
              rw [show k2hChar 'ッ' = 'っ' by decide]
              exact ih.2.2 h
        · rw [if_neg ha, List.forall_mem_cons, onlySokuon_cons, ih.1]
          have hne : c ≠ 'ッ' := by rintro rfl; exact absurd (by decide : is_char_katakana 'ッ' = true) ha
          simp [hne]

/-- **C93** `to_romaji` loses the whole text exactly if it is made of っ and of ッ with its long vowel marks -/
theorem C93_empty {std : Std} (hstd : std.Lawful) (s : Str) (o : Options) :
    to_romaji_with_opt std s o = .ok [] ↔ Spec.OnlySokuon s := by
  rw [to_romaji_eq hstd, Except.ok.injEq, (rom_all_romaji hstd _ _).2, flagged_fst hstd]
  exact (sokuon_iff hstd s).1

/-- **C93** otherwise it gives pure romaji exactly if every character is romaji or is converted, and there are none of
the brackets 「」『』, which become typographic quotes -/
theorem C93_is_romaji {std : Std} (hstd : std.Lawful) (s r : Str) (o : Options) (h : to_romaji_with_opt std s o = .ok r) :
    is_romaji r = true ↔ ¬ Spec.OnlySokuon s ∧
      ∀ c ∈ s, Spec.Romaji c ∨ (Spec.Convertible c ∧ c ∉ ['「', '」', '『', '』']) := by
  have he := C93_empty hstd s o
  rw [h, Except.ok.injEq] at he
  rw [to_romaji_eq hstd] at h
  cases h
  rw [C01_is_romaji, Ne, he, (rom_all_romaji hstd _ _).1, flagged_fst hstd]
  exact and_congr Iff.rfl (romOk_k2hP hstd s prevOk_none)

example : to_romaji_with_opt modernStd "ッーっ".toList {} = .ok [] ∧ Spec.OnlySokuon "ッーっ".toList ∧
    to_romaji_with_opt modernStd "っー".toList {} = .ok "-".toList ∧ ¬ Spec.OnlySokuon "っー".toList ∧
    to_romaji_with_opt modernStd "「ん」".toList {} = .ok "‘n’".toList ∧ is_romaji "‘n’".toList = false ∧
    (∀ c ∈ "Tōkyōは、ドコ？".toList, Spec.Romaji c ∨ (Spec.Convertible c ∧ c ∉ ['「', '」', '『', '』'])) := by
  refine ⟨by decide +kernel, .kata 1 (.hira .nil), by decide +kernel, ?_, by decide +kernel, by decide, by decide +kernel⟩
  intro h
  cases h with
  | hira h => cases h

end WanaKana
