import Verif.Props.RoundTrip3
import Verif.Props.KanaShift2
/-! # C85: exactly which texts in both scripts survive the trip with `upcase_katakana`, continued -/

namespace WanaKana
open RNode KNode
open Spec (toHira toKata kanaTable)

theorem toHira_idem (c : Char) : toHira (toHira c) = toHira c := by
  apply char_ext
  simp only [toHira_toNat]
  repeat' split
  all_goals omega

theorem toHira_toKata_toHira {c : Char} (h : is_char_katakana c = true) : toHira (toKata (toHira c)) = toHira c := by
  have hr := is_char_katakana_iff.1 h
  have h1 := toHira_toNat c
  have h2 : (toHira c).toNat ≤ 0x3094 ∨ 0x3097 ≤ (toHira c).toNat := by
    rw [h1]
    repeat' split
    all_goals omega
  have h3 : ¬ (0x30F7 ≤ (toHira c).toNat ∧ (toHira c).toNat ≤ 0x30FA) ∧
      ¬ (0x30A1 ≤ (toHira c).toNat ∧ (toHira c).toNat ≤ 0x30F4) := by
    rw [h1]
    constructor
    all_goals repeat' split
    all_goals omega
  clear h1
  apply char_ext
  rw [toHira_toNat (toKata _), toKata_toNat]
  generalize (toHira c).toNat = n at *
  repeat' split
  all_goals omega

/-- regular pieces in the proof -/
def Reg (m : Mode) (w : Str) : Prop := regKey m w = true ∨ regKata m w = true ∨ ∃ c, w = [c] ∧ Spec.Neutral c

/-- a piece that is not ん or a lost っ -/
structure Trip2 (m : Mode) (p : Str × Str) : Prop where
  head : ∃ c, p.2.head? = some c ∧ toAsciiLowercase c ≠ '\'' ∧ (toAsciiLowercase c ∈ ['a', 'i', 'u', 'e', 'o', 'y'] →
    ∀ n ∈ ['n', 'N'], ∃ x r, kana m (n :: p.2) = x :: r ∧ x ∉ ['っ', 'ッ', 'ん', 'ン'])
  last : ∃ c, p.2.getLast? = some c ∧ toAsciiLowercase c ∉ "bcdfghjklmnpqrstvwxyz".toList
  back : kana m p.2 = p.1 ∧ Reg m p.1 ∨ differ (kana m p.2) p.1 = true
  sokuon : ∃ x r, kana m p.2 = x :: r ∧ (x ∉ tsus ∨ (∃ y, p.1.head? = some y ∧ y ∈ tsus) ∧ ∃ y r', r = y :: r' ∧ y ∉ tsus)

inductive Shape (m : Mode) (p : Str × Str) : Prop
  | lost (c : Char) (hc : c ∈ tsus) (e : p = ([c], []))
  | nasal (c : Char) (hc : p.2 = [c] ∧ toAsciiLowercase c = 'n')
      (h : p.1 = styled [c] ['ん'] ∨ ∃ y, p.1.head? = some y ∧ y ∈ tsus)
  | other (h : Trip2 m p)

theorem differ_irrefl_ne {b w : Str} (hl : b.length = w.length) (h : b ≠ w) : differ b w = true := by
  induction b generalizing w with
  | nil =>
    cases w with
    | nil => exact absurd rfl h
    | cons _ _ => cases hl
  | cons c b ih =>
    cases w with
    | nil => cases hl
    | cons d w =>
      simp only [differ, List.zip_cons_cons, List.any_cons, Bool.or_eq_true, bne_iff_ne]
      by_cases hc : c = d
      · right
        exact ih (by simpa using hl) fun e => h (by rw [hc, e])
      · exact Or.inl hc

/-- writing some characters in the other script does not remove a difference -/
theorem differ_mix {bad : Char → Bool} {b w canon : Str} (hl : w.length = canon.length)
    (hw : ∀ x ∈ w.zip canon, x.1 ≠ x.2 → bad x.1 = true) (hb : ∀ c ∈ b, bad c = false)
    (h : differ b canon = true) : differ b w = true := by
  induction b generalizing w canon with
  | nil => cases h
  | cons c b ih =>
    cases w with
    | nil =>
      cases canon with
      | nil => cases h
      | cons _ _ => cases hl
    | cons d w =>
      cases canon with
      | nil => cases hl
      | cons e canon =>
        simp only [differ, List.zip_cons_cons, List.any_cons, Bool.or_eq_true, bne_iff_ne] at h ⊢
        by_cases hc : c = d
        · right
          refine ih (by simpa using hl) (fun x hx => hw x (List.mem_cons_of_mem _ hx))
            (fun x hx => hb x (List.mem_cons_of_mem _ hx)) (h.resolve_left fun hce => ?_)
          subst hc
          have := hw (c, e) List.mem_cons_self hce
          rw [hb c List.mem_cons_self] at this
          cases this
        · exact Or.inl hc

theorem toHira_tsu {c : Char} (h : toHira c = 'っ') : c ∈ tsus := by
  rw [char_eq_iff, toHira_toNat] at h
  simp only [tsus, List.mem_cons, List.not_mem_nil, or_false, char_eq_iff, Char.reduceToNat] at *
  repeat' split at h
  all_goals omega

theorem toHira_of_tsus {c : Char} (h : c ∈ tsus) : toHira c = 'っ' := by
  revert c; decide

theorem shape_of_row {m : Mode} {bad : Char → Bool} {w canon u : Str} (h : rowCheck m bad canon u = true)
    (hl : w.map toHira = canon.map toHira)
    (hw : ∀ x ∈ w.zip canon, x.1 ≠ x.2 → bad x.1 = true)
    (hn : u = ['n'] → w = ['ン'] → False) (hN : u = ['N'] → w = ['ん'] → False) : Shape m (w, u) := by
  have hlen : w.length = canon.length := by simpa using congrArg List.length hl
  have htsu : ∀ y k, canon = y :: k → y ∈ tsus → ∃ y, w.head? = some y ∧ y ∈ tsus := by
    intro y k e hy
    subst e
    cases w with
    | nil => cases hlen
    | cons a w =>
      refine ⟨a, rfl, ?_⟩
      simp only [List.map_cons, List.cons.injEq] at hl
      exact toHira_tsu (by rw [hl.1, toHira_of_tsus hy])
  have hone : ∀ y, canon = [y] → ∃ a, w = [a] ∧ toHira a = toHira y := by
    intro y e
    subst e
    match w, hlen with
    | [a], _ =>
      simp only [List.map_cons, List.map_nil, List.cons.injEq, and_true] at hl
      exact ⟨a, rfl, hl⟩
  have hnn : ∀ a, toHira a = 'ん' → a = 'ん' ∨ a = 'ン' := by
    intro a h
    rw [char_eq_iff, toHira_toNat] at h
    simp only [char_eq_iff, Char.reduceToNat] at *
    repeat' split at h
    all_goals omega
  simp only [rowCheck, Bool.or_eq_true, Bool.and_eq_true, beq_iff_eq] at h
  rcases h with ((⟨rfl, h⟩ | ⟨rfl, h⟩) | ⟨rfl, h⟩) | h
  · obtain ⟨a, rfl, ha⟩ : ∃ a, w = [a] ∧ toHira a = 'っ' := by
      rcases h with h | h
      · obtain ⟨a, e, ha⟩ := hone _ h; exact ⟨a, e, ha⟩
      · obtain ⟨a, e, ha⟩ := hone _ h; exact ⟨a, e, ha⟩
    exact .lost a (toHira_tsu ha) rfl
  · refine .nasal 'n' ⟨rfl, by decide⟩ ?_
    rcases h with h | h
    · left
      obtain ⟨a, e, ha⟩ := hone _ h
      rcases hnn a ha with rfl | rfl
      · exact e
      · exact absurd e fun e => hn rfl e
    · right; exact htsu _ _ h (by decide)
  · refine .nasal 'N' ⟨rfl, by decide⟩ ?_
    rcases h with h | h
    · left
      obtain ⟨a, e, ha⟩ := hone _ h
      rcases hnn a ha with rfl | rfl
      · exact absurd e fun e => hN rfl e
      · exact e
    · right; exact htsu _ _ h (by decide)
  · apply Shape.other
    cases u with
    | nil => cases h
    | cons c u =>
      simp only [Bool.and_eq_true, decide_eq_true_iff, bne_iff_ne, Bool.or_eq_true, Bool.not_eq_true',
        List.contains_eq_mem, decide_eq_false_iff_not, List.all_eq_true] at h
      obtain ⟨⟨⟨⟨⟨h1, h2⟩, h3⟩, h4⟩, h5⟩, h6⟩ := h
      refine ⟨⟨c, rfl, h1, fun hv n hn => ?_⟩, ?_, ?_, ?_⟩
      · have h6 := h6.resolve_left (fun h => h hv) n hn
        simp only
        cases hk : kana m (n :: c :: u) with
        | nil => rw [hk] at h6; cases h6
        | cons x r =>
          rw [hk] at h6
          exact ⟨x, r, rfl, by simpa using h6⟩
      · simp only
        cases hl : (c :: u).getLast? with
        | none => rw [hl] at h2; cases h2
        | some d =>
          rw [hl] at h2
          exact ⟨d, rfl, by simpa only [Bool.not_eq_true', List.contains_eq_mem, decide_eq_false_iff_not] using h2⟩
      · simp only
        rcases h3 with h | h
        · by_cases e : kana m (c :: u) = w
          · left
            refine ⟨e, ?_⟩
            rw [← e, h.1]
            rcases h.2 with h | h
            · exact Or.inl h
            · exact Or.inr (Or.inl h)
          · right
            exact differ_irrefl_ne (by rw [h.1, hlen]) e
        · exact Or.inr (differ_mix hlen hw h4 h)
      · simp only
        cases hk : kana m (c :: u) with
        | nil => rw [hk] at h5; cases h5
        | cons x r =>
          rw [hk] at h5
          refine ⟨x, r, rfl, ?_⟩
          simp only [Bool.or_eq_true, Bool.and_eq_true, Bool.not_eq_true',
            decide_eq_false_iff_not] at h5
          rcases h5 with h | ⟨h, h'⟩
          · exact Or.inl h
          · right
            constructor
            · cases hc : canon with
              | nil => rw [hc] at h; cases h
              | cons y k =>
                rw [hc] at h
                exact htsu y k hc (by simpa using h)
            · cases r with
              | nil => cases h'
              | cons y r' => exact ⟨y, r', rfl, by simpa using h'⟩

theorem badHira_of {c : Char} (h : c ≠ toHira c) : badHira c = true := by
  have h' : ¬ (c.toNat = (toHira c).toNat) := fun e => h (char_ext e)
  rw [toHira_toNat] at h'
  have h1 : Spec.KatakanaLetter c ∧ c ≠ 'ヵ' ∧ c ≠ 'ヶ' := by
    simp only [Spec.KatakanaLetter, Spec.In, ne_eq, char_eq_iff, Char.reduceToNat]
    repeat' split at h'
    all_goals omega
  simp [badHira, h1]

theorem badKata_of {c : Char} (hk : is_char_katakana c = true) (h : c ≠ toKata (toHira c)) : badKata c = true := by
  have h' : ¬ (c.toNat = (toKata (toHira c)).toNat) := fun e => h (char_ext e)
  have hr := is_char_katakana_iff.1 hk
  rw [toKata_toNat, toHira_toNat] at h'
  simp only [badKata, List.contains_eq_mem, decide_eq_true_iff, List.mem_cons, List.not_mem_nil, or_false, char_eq_iff,
    Char.reduceToNat]
  repeat' split at h'
  all_goals omega

theorem zip_map_mem {w : Str} {f : Char → Char} {x : Char × Char} (h : x ∈ w.zip (w.map f)) : x.1 ∈ w ∧ x.2 = f x.1 := by
  induction w with
  | nil => cases h
  | cons c w ih =>
    rcases List.mem_cons.1 h with rfl | h
    · exact ⟨List.mem_cons_self, rfl⟩
    · exact ⟨List.mem_cons_of_mem _ (ih h).1, (ih h).2⟩

theorem shape_of_piece {m : Mode} (hm : m ≠ .ime) {p : Str × Str} (h : CPiece p) : Shape m p := by
  obtain ⟨w, u⟩ := p
  rcases h with ⟨out, ht, e⟩ | ⟨c, e, h⟩
  · simp only at ht e
    by_cases ha : w.all is_char_katakana = true
    · rw [if_pos ha] at e
      subst e
      have hr := List.all_eq_true.1 (rows_kata m hm) _ ht
      simp only at hr
      have hall := List.all_eq_true.1 ha
      refine shape_of_row hr ?_ ?_ ?_ ?_
      · rw [List.map_map, List.map_map]
        apply List.map_congr_left
        intro c hc
        exact (toHira_toKata_toHira (hall c hc)).symm
      · rw [List.map_map]
        intro x hx hne
        obtain ⟨h1, h2⟩ := zip_map_mem hx
        exact badKata_of (hall _ h1) (by rw [h2] at hne; exact hne)
      · intro e
        exfalso
        have : ∀ c ∈ out.map aUp, ¬ (97 ≤ c.toNat ∧ c.toNat ≤ 122) := by
          intro c hc
          obtain ⟨d, _, rfl⟩ := List.mem_map.1 hc
          rw [aUp_toNat]
          split <;> omega
        exact this 'n' (by rw [e]; simp) (by decide)
      · rintro _ rfl
        exact absurd (hall 'ん' (by simp)) (by decide)
    · rw [if_neg ha] at e
      subst e
      have hr := List.all_eq_true.1 (rows_hira m hm) _ ht
      simp only at hr
      refine shape_of_row hr ?_ ?_ ?_ ?_
      · rw [List.map_map]
        apply List.map_congr_left
        intro c _
        exact (toHira_idem c).symm
      · intro x hx hne
        obtain ⟨h1, h2⟩ := zip_map_mem hx
        exact badHira_of (by rw [h2] at hne; exact hne)
      · rintro _ rfl
        exact ha (by decide)
      · rintro rfl _
        have hu : (kanaTable.all fun x => x.2.all fun c => decide (c ≠ 'N')) = true := by decide +kernel
        have := List.all_eq_true.1 (List.all_eq_true.1 hu _ ht) 'N' (by simp)
        exact absurd this (by decide)
  · cases e
    rcases h with ⟨h, hl⟩ | h
    · have hk : kana m [toHira c] = [toHira c] := by
        have := kana_of_not_head (m := m) (s := [toHira c]) (by simpa using h.1) []
        simpa [kana_nil] using this
      have hlow : toAsciiLowercase (toHira c) = toHira c := by
        apply char_ext
        unfold Spec.AsciiLetter Spec.In at hl
        rw [toAsciiLowercase_toNat]
        split <;> omega
      apply Shape.other
      refine ⟨⟨toHira c, rfl, ?_, fun hv => ?_⟩, ⟨toHira c, rfl, fun hm => ?_⟩, ?_, ⟨toHira c, [], hk, Or.inl ?_⟩⟩
      · rw [hlow]; exact h.2.1
      · rw [hlow] at hv
        have : ∀ x ∈ ['a', 'i', 'u', 'e', 'o', 'y'], Spec.AsciiLetter x := by decide
        exact absurd (this _ hv) hl
      · have : ∀ x ∈ "bcdfghjklmnpqrstvwxyz".toList, headChar x = true := by decide
        have h1 := h.1
        rw [this _ hm] at h1; cases h1
      · simp only
        rw [hk]
        by_cases e : toHira c = c
        · left
          refine ⟨by rw [e], Or.inr (Or.inr ⟨c, rfl, ?_⟩)⟩
          have := copied_neutral h hl
          rwa [e] at this
        · right
          simp [differ, e]
      · intro ht
        have : ∀ x ∈ tsus, romajiKey x = true ∨ x ≠ toHira x := by decide
        rcases this _ ht with h' | h'
        · rw [h.2.2.1] at h'; cases h'
        · exact h' (toHira_idem c).symm
    · have hc : toHira c = c := by
        have : ∀ x ∈ latinMarks, ¬ (0x3041 ≤ x.toNat ∧ x.toNat ≤ 0x3096) := by decide
        have h1 := this _ h
        apply char_ext
        rw [toHira_toNat] at h1 ⊢
        repeat' split
        all_goals repeat' split at h1
        all_goals omega
      rw [hc] at h ⊢
      have hr := List.all_eq_true.1 (rows_marks m hm) c h
      refine shape_of_row hr rfl ?_ ?_ ?_
      · intro x hx hne
        rcases List.mem_cons.1 hx with rfl | hx
        · exact absurd rfl hne
        · cases hx
      · intro e _
        cases e
        revert h; decide
      · intro e _
        cases e
        revert h; decide

theorem kana_n_pieces2 {m : Mode} (hm : m ≠ .ime) {n : Char} (hn : n ∈ ['n', 'N']) {ps : List (Str × Str)} (hp : ∀ p ∈ ps, CPiece p) :
    kana m (n :: (ps.map Prod.snd).flatten) = styled [n] ['ん'] ++ kana m (ps.map Prod.snd).flatten ∨
    ∃ x r, kana m (n :: (ps.map Prod.snd).flatten) = x :: r ∧ x ∉ ['っ', 'ッ', 'ん', 'ン'] := by
  by_cases hv : ∃ c, ((ps.map Prod.snd).flatten).head? = some c ∧ toAsciiLowercase c ∈ ['a', 'i', 'u', 'e', 'o', 'y']
  · obtain ⟨c, hc, hcv⟩ := hv
    obtain ⟨p, h1, t, h2, h3⟩ := pieces_head hc
    right
    cases shape_of_piece hm (hp p h1) with
    | lost d _ e => subst e; cases h3
    | nasal d h =>
      rw [h.1] at h3; cases h3
      rw [h.2] at hcv
      exact absurd hcv (by decide)
    | other h =>
      obtain ⟨c', hc', _, hk⟩ := h.head
      rw [h3] at hc'; cases hc'
      obtain ⟨x, r, hk, hx⟩ := hk hcv n hn
      obtain ⟨d, hd, hd2⟩ := h.last
      have hd' : (n :: p.2).getLast? = some d := by
        cases hp2 : p.2 with
        | nil => rw [hp2] at hd; cases hd
        | cons y q => rw [hp2] at hd; rw [List.getLast?_cons_cons]; exact hd
      refine ⟨x, r ++ kana m t, ?_, hx⟩
      rw [h2, ← List.cons_append, kana_append _ _ (cut_of_last hd' hd2), hk]
      rfl
  · left
    have hlow : toAsciiLowercase n = 'n' := by revert n; decide
    refine kana_n (m := m) hm hlow (t := (ps.map Prod.snd).flatten) fun d hd hmem => ?_
    obtain ⟨p, h1, t, h2, h3⟩ := pieces_head hd
    have hq : toAsciiLowercase d ≠ '\'' := by
      cases shape_of_piece hm (hp p h1) with
      | lost d _ e => subst e; cases h3
      | nasal d h =>
        rw [h.1] at h3; cases h3
        rw [h.2]; decide
      | other h =>
        obtain ⟨c', hc', h1, _⟩ := h.head
        rw [h3] at hc'; cases hc'
        exact h1
    apply hv
    refine ⟨d, hd, ?_⟩
    have : ∀ x ∈ ['a', 'i', 'u', 'e', 'o', 'y', '\''], x ∈ ['a', 'i', 'u', 'e', 'o', 'y'] ∨ x = '\'' := by decide
    exact (this _ hmem).resolve_right hq

theorem nasal_cases {c : Char} (h : toAsciiLowercase c = 'n') :
    c ∈ ['n', 'N'] ∧ (styled [c] ['ん'] = ['ん'] ∨ styled [c] ['ん'] = ['ン']) := by
  have hc : c = 'n' ∨ c = 'N' := by
    rw [char_eq_iff, toAsciiLowercase_toNat] at h
    simp only [char_eq_iff, Char.reduceToNat] at *
    split at h <;> omega
  rcases hc with rfl | rfl <;> decide

theorem trip_pieces2 {m : Mode} (hm : m ≠ .ime) : ∀ (ps : List (Str × Str)), (∀ p ∈ ps, CPiece p) → ∀ L : Str,
    (∀ c ∈ L, c ∈ tsus) →
    kana m (ps.map Prod.snd).flatten = L ++ (ps.map Prod.fst).flatten →
    L = [] ∧ ∀ p ∈ ps, Reg m p.1 := by
  intro ps
  induction ps with
  | nil =>
    intro _ L _ h
    rw [List.map_nil, List.flatten_nil, kana_nil] at h
    have : L = [] := by
      cases L with
      | nil => rfl
      | cons _ _ => cases h
    exact ⟨this, by simp⟩
  | cons p ps ih =>
    intro hp L hL h
    have hps : ∀ q ∈ ps, CPiece q := fun q hq => hp q (List.mem_cons_of_mem _ hq)
    rw [List.map_cons, List.map_cons, List.flatten_cons, List.flatten_cons] at h
    cases shape_of_piece hm (hp p List.mem_cons_self) with
    | lost c hc e =>
      subst e
      have := ih hps (L ++ [c]) (by
        intro d hd
        rcases List.mem_append.1 hd with hd | hd
        · exact hL d hd
        · rw [List.mem_singleton.1 hd]; exact hc) (by simpa using h)
      simp at this
    | nasal c hc hw =>
      obtain ⟨hc1, hc2⟩ := nasal_cases hc.2
      rw [hc.1] at h
      rcases kana_n_pieces2 hm hc1 hps with hn | ⟨x, r, hn, hx⟩
      · rw [List.singleton_append, hn] at h
        cases L with
        | cons l L =>
          exfalso
          have hl := hL l List.mem_cons_self
          have : ∀ l ∈ tsus, l ≠ 'ん' ∧ l ≠ 'ン' := by decide
          rcases hc2 with e | e
          · rw [e] at h; injection h with e _; exact (this l hl).1 e.symm
          · rw [e] at h; injection h with e _; exact (this l hl).2 e.symm
        | nil =>
          rw [List.nil_append] at h
          rcases hw with hw | ⟨y, hy, hy2⟩
          · rw [hw] at h
            have h := List.append_cancel_left h
            refine ⟨rfl, ?_⟩
            intro q hq
            rcases List.mem_cons.1 hq with rfl | hq
            · rw [hw]
              rcases hc2 with e | e
              · rw [e]; left; cases m <;> decide +kernel
              · rw [e]; right; left; cases m <;> decide +kernel
            · exact (ih hps [] (by simp) (by simpa using h)).2 q hq
          · exfalso
            have : ∀ l ∈ tsus, l ≠ 'ん' ∧ l ≠ 'ン' := by decide
            cases hp1 : p.1 with
            | nil => rw [hp1] at hy; cases hy
            | cons a k =>
              rw [hp1] at hy h
              cases hy
              rcases hc2 with e | e
              · rw [e] at h; injection h with e _; exact (this _ hy2).1 e.symm
              · rw [e] at h; injection h with e _; exact (this _ hy2).2 e.symm
      · exfalso
        rw [List.singleton_append, hn] at h
        cases L with
        | cons l L =>
          injection h with e _
          subst e
          have : ∀ l ∈ tsus, l ∈ ['っ', 'ッ', 'ん', 'ン'] := by decide
          exact hx (this _ (hL _ List.mem_cons_self))
        | nil =>
          rw [List.nil_append] at h
          have : ∃ y, p.1.head? = some y ∧ y ∈ ['っ', 'ッ', 'ん', 'ン'] := by
            rcases hw with hw | ⟨y, hy, hy2⟩
            · rcases hc2 with e | e
              · exact ⟨'ん', by rw [hw, e]; rfl, by decide⟩
              · exact ⟨'ン', by rw [hw, e]; rfl, by decide⟩
            · have : ∀ l ∈ tsus, l ∈ ['っ', 'ッ', 'ん', 'ン'] := by decide
              exact ⟨y, hy, this y hy2⟩
          obtain ⟨y, hy, hy2⟩ := this
          cases hp1 : p.1 with
          | nil => rw [hp1] at hy; cases hy
          | cons a k =>
            rw [hp1] at hy h
            cases hy
            injection h with e _
            rw [e] at hx
            exact hx hy2
    | other ht =>
      obtain ⟨c, hc, hc2⟩ := ht.last
      rw [kana_append _ _ (cut_of_last hc hc2)] at h
      cases L with
      | nil =>
        rw [List.nil_append] at h
        rcases ht.back with ⟨hb, hreg⟩ | hd
        · rw [hb] at h
          have h := List.append_cancel_left h
          refine ⟨rfl, ?_⟩
          intro q hq
          rcases List.mem_cons.1 hq with rfl | hq
          · exact hreg
          · exact (ih hps [] (by simp) (by simpa using h)).2 q hq
        · rw [not_differ h] at hd; cases hd
      | cons l L =>
        exfalso
        obtain ⟨x, r, hx, hx2⟩ := ht.sokuon
        rw [hx, List.cons_append, List.cons_append] at h
        injection h with e h
        rcases hx2 with hx2 | ⟨⟨a, ha, ha2⟩, y, r', rfl, hy⟩
        · rw [e] at hx2
          exact hx2 (hL l List.mem_cons_self)
        · cases L with
          | nil =>
            rw [List.nil_append] at h
            cases hp1 : p.1 with
            | nil => rw [hp1] at ha; cases ha
            | cons b k =>
              rw [hp1] at ha h
              cases ha
              injection h with e _
              rw [e] at hy
              exact hy ha2
          | cons l' L =>
            injection h with e _
            rw [e] at hy
            exact hy (hL l' (by simp))

/-- regular pieces in terms of the specification -/
theorem reg_pieces {m : Mode} {w : Str} (h : Reg m w) :
    ∃ ws : List Str, w = ws.flatten ∧ ∀ v ∈ ws, Spec.RegularPiece true (obsOf m) v := by
  rcases h with h | h | h
  · obtain ⟨ws, e, hw⟩ := regKey_pieces (Or.inl h)
    exact ⟨ws, e, fun v hv => regular_mono (hw v hv)⟩
  · simp only [regKata, Bool.and_eq_true, List.contains_iff_mem, decide_eq_true_iff] at h
    refine ⟨[w], by simp, fun v hv => ?_⟩
    rw [List.mem_singleton.1 hv]
    exact Or.inr (Or.inl ⟨rfl, _, h.1, h.2.symm⟩)
  · obtain ⟨ws, e, hw⟩ := regKey_pieces (m := m) (Or.inr h)
    exact ⟨ws, e, fun v hv => regular_mono (hw v hv)⟩

theorem reg_all {m : Mode} : ∀ ps : List (Str × Str), (∀ p ∈ ps, Reg m p.1) →
    ∃ ws : List Str, (ps.map Prod.fst).flatten = ws.flatten ∧ ∀ w ∈ ws, Spec.RegularPiece true (obsOf m) w := by
  intro ps
  induction ps with
  | nil => intro _; exact ⟨[], rfl, by simp⟩
  | cons p ps ih =>
    intro h
    obtain ⟨vs, e1, h1⟩ := ih fun q hq => h q (List.mem_cons_of_mem _ hq)
    obtain ⟨us, e2, h2⟩ := reg_pieces (h p List.mem_cons_self)
    refine ⟨us ++ vs, by rw [List.map_cons, List.flatten_cons, e1, e2, List.flatten_append], ?_⟩
    intro w hw
    rcases List.mem_append.1 hw with hw | hw
    · exact h2 w hw
    · exact h1 w hw

/-- ん in a regular piece -/
theorem reg_nasal {m : Mode} {w : Str} (h : Reg m w) :
    (∀ a x y b, w = a ++ x :: y :: b → toHira x = 'ん' → toHira y ∈ Spec.vowelOrY → x = 'ん' ∧ ¬ Spec.Katakana y) ∧
    (∀ a x, w = a ++ [x] → toHira x = 'ん' → w.map toHira = ['ん']) := by
  have key : ∀ h : Str, h ∈ tablePieces m → (∀ a x y b, h = a ++ x :: y :: b → toHira x ≠ 'ん') ∧
      (∀ a x, h = a ++ [x] → toHira x = 'ん' → h = ['ん']) := by
    have hc : ((tablePieces m).all fun h => decide (h = ['ん']) || h.all fun c => decide (toHira c ≠ 'ん')) = true := by
      cases m <;> decide +kernel
    intro h hh
    have := List.all_eq_true.1 hc h hh
    simp only [Bool.or_eq_true, decide_eq_true_iff, List.all_eq_true] at this
    rcases this with rfl | h1
    · refine ⟨fun a x y b e => ?_, fun _ _ _ _ => rfl⟩
      have := congrArg List.length e
      simp at this
      omega
    · exact ⟨fun a x y b e => h1 x (by rw [e]; simp), fun a x e hx => absurd hx (h1 x (by rw [e]; simp))⟩
  rcases h with h | h | ⟨c, rfl, hc⟩
  · simp only [regKey, Bool.or_eq_true, List.contains_iff_mem] at h
    rcases h with h | h
    · obtain ⟨k1, k2⟩ := key w h
      refine ⟨fun a x y b e hx => absurd hx (k1 a x y b e), fun a x e hx => ?_⟩
      rw [k2 a x e hx]; decide
    · split at h
      · next p q =>
        simp only [Bool.and_eq_true, beq_iff_eq, List.contains_iff_mem] at h
        obtain ⟨rfl, hq⟩ := h
        constructor
        · intro a x y b e hx hy
          have hl := congrArg List.length e
          simp at hl
          have ha : a = [] := List.eq_nil_of_length_eq_zero (by omega)
          subst ha
          injection e with e1 e2
          injection e2 with e2 _
          subst e1 e2
          have : ∀ z ∈ Spec.vowelOrY, ¬ Spec.Katakana z := by decide +kernel
          exact ⟨rfl, this _ hq⟩
        · intro a x e hx
          have hl := congrArg List.length e
          simp at hl
          match a, hl with
          | [d], _ =>
            injection e with _ e2
            injection e2 with e2 _
            subst e2
            have : ∀ z ∈ Spec.vowelOrY, toHira z ≠ 'ん' := by decide
            exact absurd hx (this _ hq)
      · cases h
  · simp only [regKata, Bool.and_eq_true, List.contains_iff_mem, decide_eq_true_iff] at h
    obtain ⟨k1, k2⟩ := key (w.map toHira) (List.mem_append_left _ h.1)
    refine ⟨fun a x y b e hx => ?_, fun a x e hx => ?_⟩
    · have := k1 (a.map toHira) (toHira x) (toHira y) (b.map toHira) (by rw [e]; simp)
      rw [toHira_idem] at this
      exact absurd hx this
    · exact k2 (a.map toHira) (toHira x) (by rw [e]; simp) (by rw [toHira_idem]; exact hx)
  · constructor
    · intro a x y b e
      have := congrArg List.length e
      simp at this
      omega
    · intro a x e hx
      have ha : a = [] := by
        cases a with
        | nil => rfl
        | cons _ a =>
          have := congrArg List.length e
          simp at this
      subst ha
      injection e with e _
      subst e
      rw [neutral_toHira hc.1] at hx
      subst hx
      exact absurd hc.1 (by decide)

theorem pieces_nasal {m : Mode} : ∀ ps : List (Str × Str), (∀ p ∈ ps, Reg m p.1) → NGreedy ps →
    ∀ a x y b, (ps.map Prod.fst).flatten = a ++ x :: y :: b → toHira x = 'ん' → toHira y ∈ Spec.vowelOrY →
      x = 'ん' ∧ ¬ Spec.Katakana y := by
  intro ps
  induction ps with
  | nil => intro _ _ a x y b e; simp at e
  | cons p ps ih =>
    intro hr hg a x y b e hx hy
    have ih := ih (fun q hq => hr q (List.mem_cons_of_mem _ hq)) hg.2
    obtain ⟨r1, r2⟩ := reg_nasal (hr p List.mem_cons_self)
    rw [List.map_cons, List.flatten_cons] at e
    rcases List.append_eq_append_iff.1 e with ⟨c, h1, h2⟩ | ⟨c, h1, h2⟩
    · exact ih c x y b h2 hx hy
    · cases c with
      | nil => exact ih [] x y b (by simpa using h2.symm) hx hy
      | cons d c =>
        injection h2 with e1 h2
        subst e1
        cases c with
        | nil =>
          have := r2 a x h1 hx
          have hn := hg.1 this y (by rw [← show y :: b = (ps.map Prod.fst).flatten by simpa using h2]; rfl)
          exact absurd hy hn
        | cons d c =>
          injection h2 with e1 h2
          subst e1
          exact r1 a x y c h1 hx hy

/-- **C85** Exactly which texts survive the trip with `upcase_katakana`: those made of regular syllables, each wholly in
hiragana or wholly in katakana, of Japanese marks and of characters that neither function converts, in which ん before
a vowel or y-kana and that kana are hiragana, and in which no long vowel mark follows katakana.  The text has no Latin
letter, no apostrophe, and no ゔ or ヴ. -/
theorem C85_exact {std : Std} (hstd : std.Lawful) (s : Str) (o o' : Options) (hup : o.upcase_katakana = true)
    (hime : o'.imemode = true → o'.use_obsolete_kana = true)
    (hs : ∀ c ∈ s, ¬ Spec.AsciiLetter c ∧ c ≠ '\'' ∧ toHira c ≠ 'ゔ') :
    (∃ r, to_romaji_with_opt std s o = .ok r ∧ to_kana_with_opt std r o' = .ok s) ↔
    (∃ ws : List Str, s = ws.flatten ∧ ∀ w ∈ ws, Spec.RegularPiece true o'.use_obsolete_kana w) ∧
    (∀ a x y b, s = a ++ x :: y :: b → toHira x = 'ん' → toHira y ∈ Spec.vowelOrY → x = 'ん' ∧ ¬ Spec.Katakana y) ∧
    (∀ a b, s = a ++ 'ー' :: b → ∀ g, Spec.governing a = some g → ¬ Spec.KatakanaLetter g) := by
  constructor
  · rintro ⟨r, h1, h2⟩
    have hm := modeOf_ne_ime hime
    have hdash := survives_dash hstd h1 h2
    have hvu : 'ヴ' ∉ s := fun h => (hs _ h).2.2 (by decide)
    have hz : ∀ c ∈ s, plainChar (toHira c) = true ∧ ¬ Spec.AsciiLetter (toHira c) ∧ toHira c ≠ '\'' := by
      intro c hc
      obtain ⟨p1, p2, p3⟩ := hs c hc
      refine ⟨?_, ?_, ?_⟩
      · simp only [plainChar, Bool.and_eq_true, bne_iff_ne, Bool.or_eq_true, Bool.not_eq_true']
        exact ⟨p3, or_assoc.2 (fixed_other (toHira_idem c))⟩
      · unfold Spec.AsciiLetter Spec.In at *
        rw [toHira_toNat]
        repeat' split
        all_goals omega
      · intro h
        apply p2
        rw [char_eq_iff, toHira_toNat] at h
        apply char_ext
        simp only [Char.reduceToNat] at *
        repeat' split at h
        all_goals omega
    obtain ⟨ps, e0, e1, hps, hg⟩ := cased_pieces hstd s hz
    rw [to_romaji_eq hstd, hup, flagged_marked hstd s hvu, marked_shifted hdash, e1] at h1
    cases h1
    rw [to_kana_eq hstd] at h2
    have h2 : kana (modeOf o') (ps.map Prod.snd).flatten = s := by injection h2
    have hreg := (trip_pieces2 hm ps hps [] (by simp) (by rw [h2]; exact e0)).2
    obtain ⟨ws, e, hw⟩ := reg_all ps hreg
    rw [obsOf_modeOf] at hw
    refine ⟨⟨ws, by rw [e0, e], hw⟩, ?_, hdash⟩
    intro a x y b e
    exact pieces_nasal ps hreg hg a x y b (by rw [← e0]; exact e)
  · rintro ⟨⟨ws, rfl, hw⟩, nas, dash⟩
    exact C57_roundtrip_both hstd o o' hup hime ws hw nas dash

example : (∀ c ∈ "カタカナとひらがなァミかキャんあ".toList, ¬ Spec.AsciiLetter c ∧ c ≠ '\'' ∧ toHira c ≠ 'ゔ') ∧
    (to_romaji_with_opt modernStd "カタカナとひらがなんあ".toList { upcase_katakana := true } >>= fun r => to_kana modernStd r)
      = .ok "カタカナとひらがなんあ".toList ∧
    (to_romaji_with_opt modernStd "キゃ".toList { upcase_katakana := true } >>= fun r => to_kana modernStd r)
      = .ok "きゃ".toList := by decide +kernel

end WanaKana
