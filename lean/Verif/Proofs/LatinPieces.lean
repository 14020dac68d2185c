import Verif.Proofs.Latin
/-! # Pieces of a text with Latin letters, and their romaji (for C112) -/

namespace WanaKana
open KNode RNode
open Spec (toHira kanaTable)

/-- a letter or an apostrophe of the text -/
def LPiece (p : Str × Str) : Prop := ∃ c, p = ([c], [c]) ∧ (Spec.AsciiLetter c ∨ c = '\'')

/-- any piece -/
def APiece (x y : Char) (p : Str × Str) : Prop := RPiece p ∨ VPiece x y p ∨ LPiece p

theorem rom_piecesA {std : Std} (hstd : std.Lawful) {x y : Char} (hxy : VuVowels std x y) (hx : x ≠ 'u') (hy : y ≠ 'u') :
    ∀ z : List (Char × Bool), (∀ x ∈ z, plainChar x.1 = true ∨ x.1 = 'ゔ') →
    ∃ ps : List (Str × Str), z.map Prod.fst = (ps.map Prod.fst).flatten ∧ (∀ p ∈ ps, APiece x y p) ∧
      ∀ l r, ps = l ++ r → romH std (r.map Prod.fst).flatten = (r.map Prod.snd).flatten := by
  intro z
  have suffix : ∀ (p : Str × Str) (ps : List (Str × Str)),
      romH std ((p :: ps).map Prod.fst).flatten = ((p :: ps).map Prod.snd).flatten →
      (∀ l r, ps = l ++ r → romH std (r.map Prod.fst).flatten = (r.map Prod.snd).flatten) →
      ∀ l r, p :: ps = l ++ r → romH std (r.map Prod.fst).flatten = (r.map Prod.snd).flatten := by
    intro p ps h1 h2 l r e
    cases l with
    | nil => rw [List.nil_append] at e; rw [← e]; exact h1
    | cons q l =>
      injection e with _ e
      exact h2 l r e
  induction z using rom_ind (std := std) with
  | nil =>
    intro _
    refine ⟨[], rfl, by simp, ?_⟩
    intro l r e
    obtain ⟨-, rfl⟩ := List.append_eq_nil_iff.1 e.symm
    exact romH_nil std
  | miss c b z h ih =>
    intro hz
    obtain ⟨ps, h0, h1, h2⟩ := ih fun x hx => hz x (List.mem_cons_of_mem _ hx)
    refine ⟨([c], [c]) :: ps, by rw [List.map_cons, h0]; rfl, ?_, suffix _ _ ?_ h2⟩
    · intro p hp
      rcases List.mem_cons.1 hp with rfl | hp
      · have p1 := hz (c, b) List.mem_cons_self
        simp only at p1
        by_cases p2 : Spec.AsciiLetter c
        · exact Or.inr (Or.inr ⟨c, rfl, Or.inl p2⟩)
        · by_cases p3 : c = '\''
          · exact Or.inr (Or.inr ⟨c, rfl, Or.inr p3⟩)
          · left
            have hkey : romajiKey c = false := by
              cases hk : romajiKey c with
              | false => rfl
              | true =>
                obtain ⟨n, hn⟩ := root_some hstd hk
                rw [hn] at h; cases h
            have p1 : plainChar c = true := by
              rcases p1 with h | rfl
              · exact h
              · exact absurd hkey (by decide)
            right
            refine ⟨c, rfl, ?_⟩
            cases hh : headChar (toAsciiLowercase c) with
            | false => exact Or.inl ⟨⟨hh, p3, hkey, p1⟩, p2⟩
            | true =>
              right
              rw [headChar_iff, toAsciiLowercase_toNat] at hh
              unfold Spec.AsciiLetter Spec.In at p2
              simp only [latinMarks, List.mem_cons, List.not_mem_nil, or_false, char_eq_iff, Char.reduceToNat] at hh ⊢
              split at hh <;> omega
      · exact h1 p hp
    · have := h2 [] ps rfl
      rw [List.map_cons, List.map_cons, List.flatten_cons, List.flatten_cons, List.singleton_append, romH_miss h, this]
      rfl
  | hit z n k hk h ih =>
    intro hz
    obtain ⟨ps, h0, h1, h2⟩ := ih fun x hx => hz x (List.mem_of_mem_drop hx)
    have e0 : z.map Prod.fst = (((((z.map Prod.fst).take k, n.output) :: ps)).map Prod.fst).flatten := by
      rw [List.map_cons, List.flatten_cons, ← h0]
      simp only [List.map_drop, List.take_append_drop]
    refine ⟨((z.map Prod.fst).take k, n.output) :: ps, e0, ?_, suffix _ _ ?_ h2⟩
    · intro p hp
      rcases List.mem_cons.1 hp with rfl | hp
      · have hw := h.walk
        have hq : ∀ c ∈ (z.map Prod.fst).take k, plainChar c = true ∨ c = 'ゔ' := by
          intro c hc
          obtain ⟨x, hx, rfl⟩ := List.mem_map.1 (List.mem_of_mem_take hc)
          exact hz x hx
        have hne : (z.map Prod.fst).take k ≠ [] := by
          intro e
          have h1 := congrArg List.length e
          have h2 := h.le
          rw [List.length_take, List.length_nil] at h1
          omega
        generalize (z.map Prod.fst).take k = q at hw hq hne
        by_cases hv : 'ゔ' ∈ q
        · exact Or.inr (Or.inl (vu_walk hstd hxy hx hy hw hv))
        · left; left
          cases q with
          | nil => exact absurd rfl hne
          | cons c q =>
            refine mem_of_lookup (table_of_mwalk (n := n) (c := c) (q := q) hv (fun hm => ?_) hstd hw)
            rcases hq _ hm with h | h
            · exact absurd h (by decide)
            · exact absurd h (by decide)
      · exact h1 p hp
    · rw [← e0, romH_hit h hk, ← List.map_drop, h0, h2 [] ps rfl, List.map_cons, List.flatten_cons]

/-- every text is cut into pieces -/
theorem text_pieces {std : Std} (hstd : std.Lawful) (s : Str) (o : Options) (hu : o.upcase_katakana = false) {x y : Char}
    (hx : to_romaji_with_opt std "ゔ".toList o = .ok ['v', x]) (hxu : x ≠ 'u')
    (hy : to_romaji_with_opt std "っゔ".toList o = .ok ['v', 'v', y]) (hyu : y ≠ 'u') :
    x ∈ "aiueo".toList ∧ y ∈ "aiueo".toList ∧ ∃ ps : List (Str × Str), k2hP std true none s = (ps.map Prod.fst).flatten ∧
      (∀ p ∈ ps, APiece x y p) ∧ ∀ l r, ps = l ++ r → romH std (r.map Prod.fst).flatten = (r.map Prod.snd).flatten := by
  have hxy := vuVowels_of hstd hu hx hy
  obtain ⟨x', hxv, y', hyv, ex, ey⟩ := C101_vu hstd o hu
  rw [hx] at ex; cases ex
  rw [hy] at ey; cases ey
  have hz : ∀ x ∈ flagged std s, plainChar x.1 = true ∨ x.1 = 'ゔ' := by
    intro x hx
    have hx1 : x.1 ∈ k2hP std true none s := by
      rw [← flagged_fst hstd]; exact List.mem_map_of_mem hx
    have hout := k2hP_out hstd true s prevOk_none _ hx1
    by_cases h : x.1 = 'ゔ'
    · exact Or.inr h
    · left
      simp only [plainChar, Bool.and_eq_true, bne_iff_ne, Bool.or_eq_true, Bool.not_eq_true']
      exact ⟨h, or_assoc.2 hout⟩
  obtain ⟨ps, e0, h1, h2⟩ := rom_piecesA hstd hxy hxu hyu (flagged std s) hz
  rw [flagged_fst hstd] at e0
  exact ⟨hxv, hyv, ps, e0, h1, h2⟩

/-! ## weights of pieces -/

theorem row_table (m : Mode) (hm : m ≠ .ime) : (kanaTable.all fun p =>
    decide ((kana m p.2).countP heavy ≤ p.1.countP heavy ∧ (kana m p.2).map toHira = kana m p.2)) = true := by
  cases m with
  | normal => decide +kernel
  | obsolete => decide +kernel
  | ime => exact absurd rfl hm

theorem row_marks (m : Mode) (hm : m ≠ .ime) : (latinMarks.all fun c =>
    decide ((kana m [c]).countP heavy ≤ [c].countP heavy ∧ (kana m [c]).map toHira = kana m [c])) = true := by
  cases m with
  | normal => decide +kernel
  | obsolete => decide +kernel
  | ime => exact absurd rfl hm

theorem rpiece_row {m : Mode} (hm : m ≠ .ime) {p : Str × Str} (h : RPiece p) :
    (kana m p.2).countP heavy ≤ p.1.countP heavy ∧ (kana m p.2).map toHira = kana m p.2 := by
  rcases h with h | ⟨c, rfl, h | h⟩
  · exact of_decide_eq_true (List.all_eq_true.1 (row_table m hm) p h)
  · have hk : kana m [c] = [c] := by
      have := kana_of_not_head (m := m) (s := [c]) (by simpa using h.1.1) []
      simpa [kana_nil] using this
    rw [hk]
    exact ⟨Nat.le_refl _, by simp [plain_fixed h.1.2.2.2]⟩
  · exact of_decide_eq_true (List.all_eq_true.1 (row_marks m hm) c h)

theorem vowel_small : ∀ v ∈ vowelRows, heavy v.2.1 = false ∧ toHira v.2.1 = v.2.1 := by decide

theorem lpiece_ascii {c : Char} (h : Spec.AsciiLetter c ∨ c = '\'') : c.toNat < 128 := by
  rcases h with h | rfl
  · unfold Spec.AsciiLetter Spec.In at h; omega
  · decide

theorem pieces_heavy {m : Mode} (hm : m ≠ .ime) {x y : Char} (hx : x ∈ "aiueo".toList) (hy : y ∈ "aiueo".toList)
    (hxu : x ≠ 'u') (hyu : y ≠ 'u') : ∀ ps : List (Str × Str), (∀ p ∈ ps, APiece x y p) →
    (kana m (ps.map Prod.snd).flatten).countP heavy ≤ ((ps.map Prod.fst).flatten).countP heavy := by
  intro ps
  induction ps with
  | nil => intro _; rw [List.map_nil, List.flatten_nil, kana_nil]; exact Nat.le_refl _
  | cons p ps ih =>
    intro hp
    have ih := ih fun q hq => hp q (List.mem_cons_of_mem _ hq)
    rw [List.map_cons, List.map_cons, List.flatten_cons, List.flatten_cons, List.countP_append]
    rcases hp p List.mem_cons_self with h0 | h0 | ⟨c, rfl, hc⟩
    · have hrow := (rpiece_row hm h0).1
      rcases trip_of_piece hm h0 with rfl | rfl | rfl | ht
      · rw [List.nil_append]; omega
      · have := kana_cons_heavy hm 'n' (ps.map Prod.snd).flatten
        have h1 : (['ん'] : Str).countP heavy = 1 := by decide
        simp only [List.singleton_append]
        omega
      · have := kana_cons_heavy hm 'n' (ps.map Prod.snd).flatten
        have h1 : (['っ', 'ん'] : Str).countP heavy = 2 := by decide
        simp only [List.singleton_append]
        omega
      · obtain ⟨c, hc, hc2⟩ := ht.last
        rw [kana_append _ _ (cut_of_last hc hc2), List.countP_append]
        omega
    · obtain ⟨⟨v, hv, hb, c, hc, hc2⟩, -⟩ := vpiece_back hm hx hy hxu hyu h0
      rw [kana_append _ _ (cut_of_last hc hc2), hb, List.countP_append, List.countP_append]
      have : ([v.2.1] : Str).countP heavy = 0 := by simp [(vowel_small v hv).1]
      omega
    · have := kana_cons_heavy hm c (ps.map Prod.snd).flatten
      have h1 : ([c] : Str).countP heavy = 1 := by simp [heavy_low (lpiece_ascii hc)]
      simp only [List.singleton_append]
      omega

/-! ## ゔ with letters -/

theorem shift_stepH {m : Mode} (hm : m ≠ .ime) {a b : Char} {p : Str × Str} (hr : RPiece p) (h : shiftCheck m a b p = true) {t T : Str}
    (e : p.1 ++ t = a :: (kana m (p.2 ++ T)).map toHira) (hne : p.1 ≠ []) : t = b :: (kana m T).map toHira := by
  simp only [shiftCheck, Bool.or_eq_true, Bool.and_eq_true, bne_iff_ne, beq_iff_eq] at h
  rcases h with h | ⟨h, hl⟩
  · exfalso
    apply h
    have := congrArg List.head? e
    rw [List.head?_append] at this
    cases hp : p.1 with
    | nil => exact absurd hp hne
    | cons c r => rw [hp] at this; simpa using this
  · have hcut : kana m (p.2 ++ T) = kana m p.2 ++ kana m T := by
      cases hg : p.2.getLast? with
      | none => rw [hg] at hl; cases hl
      | some c =>
        rw [hg] at hl
        exact kana_append _ _ (cut_of_last hg (by simpa only [Bool.not_eq_true', List.contains_eq_mem, decide_eq_false_iff_not] using hl))
    rw [hcut, List.map_append, (rpiece_row hm hr).2] at e
    rcases h with ⟨⟨h1, _⟩, h2⟩ | h
    · rw [h1, h2] at e
      simpa using e
    · rw [← List.cons_append] at e
      rw [not_differ e] at h; cases h

theorem no_shift_stepA {m : Mode} (hm : m ≠ .ime) {x y : Char} {v : Char × Char × Char} (hv : v ∈ vowelRows) {p : Str × Str}
    {ps : List (Str × Str)} (h0 : APiece x y p) {a : Char} (ha : a = v.2.1 ∨ a = v.2.2)
    (h : ((p :: ps).map Prod.fst).flatten = a :: (kana m ((p :: ps).map Prod.snd).flatten).map toHira) :
    (ps.map Prod.fst).flatten = v.2.2 :: (kana m (ps.map Prod.snd).flatten).map toHira := by
  have hk : ∀ v ∈ vowelRows, v.2.1 ≠ 'ゔ' ∧ v.2.2 ≠ 'ゔ' ∧ v.2.1 ≠ 'っ' ∧ v.2.2 ≠ 'っ' ∧ 128 ≤ v.2.1.toNat ∧ 128 ≤ v.2.2.toNat := by
    decide +kernel
  obtain ⟨k1, k2, k3, k4, k5, k6⟩ := hk v hv
  rw [List.map_cons, List.map_cons, List.flatten_cons, List.flatten_cons] at h
  rcases h0 with h0 | h0 | ⟨c, rfl, hc⟩
  · have hs := shift_piece (x := x) (y := y) hm hv (Or.inl h0)
    have hne := RPiece.ne_nil (x := x) (y := y) (Or.inl h0)
    rcases ha with rfl | rfl
    · exact shift_stepH hm h0 hs.1 h hne
    · exact shift_stepH hm h0 hs.2 h hne
  · exfalso
    rcases h0 with rfl | rfl
    · injection h with e _
      rcases ha with rfl | rfl
      · exact k1 e.symm
      · exact k2 e.symm
    · injection h with e _
      rcases ha with rfl | rfl
      · exact k3 e.symm
      · exact k4 e.symm
  · exfalso
    injection h with e _
    have := lpiece_ascii hc
    rcases ha with rfl | rfl
    · rw [e] at this; omega
    · rw [e] at this; omega

theorem no_shiftA {m : Mode} (hm : m ≠ .ime) {x y : Char} {v : Char × Char × Char} (hv : v ∈ vowelRows) :
    ∀ ps : List (Str × Str), (∀ p ∈ ps, APiece x y p) → ∀ a, a = v.2.1 ∨ a = v.2.2 →
    (ps.map Prod.fst).flatten ≠ a :: (kana m (ps.map Prod.snd).flatten).map toHira := by
  intro ps
  induction ps with
  | nil => intro _ a _ h; cases h
  | cons p ps ih =>
    intro hp a ha h
    exact ih (fun q hq => hp q (List.mem_cons_of_mem _ hq)) v.2.2 (Or.inr rfl)
      (no_shift_stepA hm hv (hp p List.mem_cons_self) ha h)

/-! ## texts that come back -/

/-- pieces whose romaji is read back piece by piece -/
inductive Good (m : Mode) : List (Str × Str) → Prop
  | nil : Good m []
  | trip {p ps} : RPiece p → Trip m p → kana m p.2 = p.1 → (regKey m p.1 = true ∨ ∃ c, p.1 = [c] ∧ Spec.Neutral c) →
      Good m ps → Good m (p :: ps)
  | nasal {ps} : (∀ d, ((ps.map Prod.snd).flatten).head? = some d → toAsciiLowercase d ∉ ['a', 'i', 'u', 'e', 'o', 'y', '\'']) →
      Good m ps → Good m ((['ん'], ['n']) :: ps)
  | quote {ps} : Good m ps → Good m ((['\''], ['\'']) :: ps)
  | letter {c ps} : Spec.AsciiLetter c → kana m (c :: (ps.map Prod.snd).flatten) = c :: kana m (ps.map Prod.snd).flatten →
      Good m ps → Good m (([c], [c]) :: ps)

theorem good_of {m : Mode} (hm : m ≠ .ime) {x y : Char} (hx : x ∈ "aiueo".toList) (hy : y ∈ "aiueo".toList)
    (hxu : x ≠ 'u') (hyu : y ≠ 'u') : ∀ ps : List (Str × Str), (∀ p ∈ ps, APiece x y p) →
    (kana m (ps.map Prod.snd).flatten).map toHira = (ps.map Prod.fst).flatten → Good m ps := by
  intro ps
  induction ps with
  | nil => intro _ _; exact .nil
  | cons p ps ih =>
    intro hp h
    have hps : ∀ q ∈ ps, APiece x y q := fun q hq => hp q (List.mem_cons_of_mem _ hq)
    have ih := ih hps
    have hW := pieces_heavy hm hx hy hxu hyu ps hps
    have hcount : (kana m ((p :: ps).map Prod.snd).flatten).countP heavy = (((p :: ps).map Prod.fst).flatten).countP heavy := by
      rw [← h, countP_map_eq heavy_toHira]
    rw [List.map_cons, List.map_cons, List.flatten_cons, List.flatten_cons] at h hcount
    rw [List.countP_append] at hcount
    rcases hp p List.mem_cons_self with h0 | h0 | ⟨c, rfl, hc⟩
    · rcases trip_of_piece hm h0 with rfl | rfl | rfl | ht
      · exfalso
        have h1 : (['っ'] : Str).countP heavy = 1 := by decide
        simp only [List.nil_append] at hcount
        omega
      · simp only [List.singleton_append] at h
        rcases nasal_first hm h with ⟨e, hd⟩ | ⟨t', e1, e2⟩
        · rw [e] at h
          injection h with _ h
          exact .nasal hd (ih h)
        · exfalso
          rw [e2] at h
          injection h with _ h
          rw [e1, kana_quote_cons, List.countP_cons, ← h, countP_map_eq heavy_toHira] at hW
          have : heavy '\'' = true := by decide
          rw [if_pos this] at hW
          omega
      · exfalso
        have := kana_cons_heavy hm 'n' (ps.map Prod.snd).flatten
        have h1 : (['っ', 'ん'] : Str).countP heavy = 2 := by decide
        simp only [List.singleton_append] at hcount
        omega
      · obtain ⟨c, hc, hc2⟩ := ht.last
        rw [kana_append _ _ (cut_of_last hc hc2), List.map_append, (rpiece_row hm h0).2] at h
        rcases ht.back with ⟨hb, hreg⟩ | hd
        · rw [hb] at h
          exact .trip h0 ht hb hreg (ih (List.append_cancel_left h))
        · rw [not_differ h] at hd; cases hd
    · exfalso
      obtain ⟨⟨v, hv, hb, c, hc, hc2⟩, -⟩ := vpiece_back hm hx hy hxu hyu h0
      have hfix : p.1.map toHira = p.1 := by
        rcases h0 with rfl | rfl <;> rfl
      rw [kana_append _ _ (cut_of_last hc hc2), hb, List.map_append, List.map_append, hfix, List.append_assoc] at h
      have h := List.append_cancel_left h
      rw [List.map_singleton, (vowel_small v hv).2] at h
      exact no_shiftA hm hv ps hps _ (Or.inl rfl) h.symm
    · simp only [List.singleton_append] at h
      have e := letter_miss hm (lpiece_ascii hc) h
      rw [e] at h
      injection h with _ h
      rcases hc with hc | rfl
      · exact .letter hc e (ih h)
      · exact .quote (ih h)

theorem good_ne {m : Mode} {p : Str × Str} {ps : List (Str × Str)} (h : Good m (p :: ps)) : p.2 ≠ [] := by
  cases h with
  | trip _ ht _ _ _ => obtain ⟨c, hc, _⟩ := ht.head; intro e; rw [e] at hc; cases hc
  | nasal _ _ => simp
  | quote _ => simp
  | letter _ _ _ => simp

theorem styled_n : styled ['n'] ['ん'] = ['ん'] := by decide

theorem good_kana {m : Mode} (hm : m ≠ .ime) {ps : List (Str × Str)} (h : Good m ps) :
    kana m (ps.map Prod.snd).flatten = (ps.map Prod.fst).flatten := by
  induction h with
  | nil => rw [List.map_nil, List.flatten_nil, kana_nil]; rfl
  | trip _ ht hb _ _ ih =>
    obtain ⟨c, hc, hc2⟩ := ht.last
    rw [List.map_cons, List.map_cons, List.flatten_cons, List.flatten_cons, kana_append _ _ (cut_of_last hc hc2), hb, ih]
  | nasal hd _ ih =>
    rw [List.map_cons, List.map_cons, List.flatten_cons, List.flatten_cons]
    simp only [List.singleton_append]
    rw [kana_n hm (by decide) hd, styled_n, ih]
    rfl
  | quote _ ih =>
    rw [List.map_cons, List.map_cons, List.flatten_cons, List.flatten_cons]
    simp only [List.singleton_append]
    rw [kana_quote_cons, ih]
  | letter _ e _ ih =>
    rw [List.map_cons, List.map_cons, List.flatten_cons, List.flatten_cons]
    simp only [List.singleton_append]
    rw [e, ih]

/-- a text without letters, followed by more romaji -/
theorem good_append {m : Mode} (hm : m ≠ .ime) {ps : List (Str × Str)} (h : Good m ps) {T : Str}
    (hT : ((ps.map Prod.fst).flatten).getLast? = some 'ん' → ∀ d, T.head? = some d →
      toAsciiLowercase d ∉ ['a', 'i', 'u', 'e', 'o', 'y', '\''])
    (hl : ∀ c ∈ (ps.map Prod.fst).flatten, ¬ Spec.AsciiLetter c) :
    kana m ((ps.map Prod.snd).flatten ++ T) = (ps.map Prod.fst).flatten ++ kana m T := by
  induction h with
  | nil => rfl
  | trip _ ht hb _ _ ih =>
    rename_i p ps _ _ _
    obtain ⟨c, hc, hc2⟩ := ht.last
    rw [List.map_cons, List.flatten_cons] at hT hl
    rw [List.map_cons, List.map_cons, List.flatten_cons, List.flatten_cons, List.append_assoc, kana_append _ _ (cut_of_last hc hc2),
      hb, ih, List.append_assoc]
    · intro hg
      apply hT
      rw [getLast?_append_ne _ (by intro e; rw [e] at hg; cases hg)]
      exact hg
    · intro c hc; exact hl c (List.mem_append_right _ hc)
  | nasal hd hg ih =>
    rename_i ps
    rw [List.map_cons, List.flatten_cons] at hT hl
    rw [List.map_cons, List.map_cons, List.flatten_cons, List.flatten_cons]
    simp only [List.cons_append, List.nil_append] at hT ⊢
    rw [kana_n hm (by decide), styled_n, ih]
    · rfl
    · intro hg
      apply hT
      rw [← List.singleton_append, getLast?_append_ne _ (by intro e; rw [e] at hg; cases hg)]
      exact hg
    · intro c hc; exact hl c (List.mem_append_right _ hc)
    · intro d hd2
      cases ps with
      | nil =>
        exact hT rfl d (by simpa using hd2)
      | cons p ps =>
        apply hd
        have := good_ne hg
        rw [List.map_cons, List.flatten_cons] at hd2 ⊢
        cases hp : p.2 with
        | nil => exact absurd hp this
        | cons c r => rw [hp] at hd2; simpa using hd2
  | quote _ ih =>
    rw [List.map_cons, List.flatten_cons] at hT hl
    rw [List.map_cons, List.map_cons, List.flatten_cons, List.flatten_cons]
    simp only [List.cons_append, List.nil_append] at hT ⊢
    rw [kana_quote_cons, ih]
    · intro hg
      apply hT
      rw [← List.singleton_append, getLast?_append_ne _ (by intro e; rw [e] at hg; cases hg)]
      exact hg
    · intro c hc; exact hl c (List.mem_append_right _ hc)
  | letter hc _ _ _ =>
    exact absurd hc (hl _ (by simp))

end WanaKana
