import Verif.Proofs.LatinPieces
/-! # C112: the trip kana → romaji → kana of texts with Latin letters -/

namespace WanaKana
open KNode RNode
open Spec (toHira kanaTable)

theorem rpiece_ascii {p : Str × Str} (h : RPiece p) : ∀ c ∈ p.1, ¬ Spec.AsciiLetter c ∧ c ≠ '\'' := by
  rcases h with h | ⟨c, rfl, h | h⟩
  · have ht : (kanaTable.all fun p => p.1.all fun c => decide (¬ Spec.AsciiLetter c ∧ c ≠ '\'')) = true := by decide +kernel
    intro c hc
    exact of_decide_eq_true (List.all_eq_true.1 (List.all_eq_true.1 ht p h) c hc)
  · intro d hd
    rw [List.mem_singleton.1 hd]
    exact ⟨h.2, h.1.2.1⟩
  · intro d hd
    rw [List.mem_singleton.1 hd]
    have : ∀ c ∈ latinMarks, ¬ Spec.AsciiLetter c ∧ c ≠ '\'' := by decide
    exact this c h

theorem trip_not_nasal {m : Mode} {p : Str × Str} (h : RPiece p) (ht : Trip m p) : p.1.getLast? ≠ some 'ん' := by
  intro e
  rcases h with h | ⟨c, rfl, h | h⟩
  · have hc : (kanaTable.all fun p => p.1.getLast? != some 'ん' || p.2 == ['n']) = true := by decide +kernel
    have := List.all_eq_true.1 hc p h
    simp only [Bool.or_eq_true, bne_iff_ne, beq_iff_eq] at this
    obtain ⟨d, hd, hd2⟩ := ht.last
    rw [this.resolve_left (fun h => h e)] at hd
    cases hd
    exact absurd (by decide) hd2
  · cases e
    exact absurd h.1.2.2.1 (by decide)
  · cases e
    exact absurd h (by decide)

theorem good_words {m : Mode} {ps : List (Str × Str)} (h : Good m ps) : ∃ ws : List Str, (ps.map Prod.fst).flatten = ws.flatten ∧
    ∀ w ∈ ws, Spec.RegularPiece false (obsOf m) w ∨ Spec.LatinPiece w := by
  have cons : ∀ (k : Str) (us : List Str) (t : Str) (vs : List Str), k = us.flatten → t = vs.flatten →
      (∀ w ∈ us, Spec.RegularPiece false (obsOf m) w ∨ Spec.LatinPiece w) →
      (∀ w ∈ vs, Spec.RegularPiece false (obsOf m) w ∨ Spec.LatinPiece w) → ∃ ws : List Str, k ++ t = ws.flatten ∧
      ∀ w ∈ ws, Spec.RegularPiece false (obsOf m) w ∨ Spec.LatinPiece w := by
    rintro k us t vs rfl rfl h1 h2
    refine ⟨us ++ vs, by rw [List.flatten_append], ?_⟩
    intro w hw
    rcases List.mem_append.1 hw with hw | hw
    · exact h1 w hw
    · exact h2 w hw
  induction h with
  | nil => exact ⟨[], rfl, by simp⟩
  | trip _ _ _ hreg _ ih =>
    obtain ⟨vs, e, hv⟩ := ih
    obtain ⟨us, e', hu⟩ := regKey_pieces hreg
    exact cons _ us _ vs e' e (fun w hw => Or.inl (hu w hw)) hv
  | nasal _ _ ih =>
    obtain ⟨vs, e, hv⟩ := ih
    have hn : regKey m ['ん'] = true := by cases m <;> decide +kernel
    obtain ⟨us, e', hu⟩ := regKey_pieces (Or.inl hn)
    exact cons _ us _ vs e' e (fun w hw => Or.inl (hu w hw)) hv
  | quote _ ih =>
    obtain ⟨vs, e, hv⟩ := ih
    exact cons _ [['\'']] _ vs rfl e (fun w hw => Or.inr ⟨'\'', Or.inr rfl, List.mem_singleton.1 hw⟩) hv
  | letter hc _ _ ih =>
    obtain ⟨vs, e, hv⟩ := ih
    exact cons _ [[_]] _ vs rfl e (fun w hw => Or.inr ⟨_, Or.inl hc, List.mem_singleton.1 hw⟩) hv

theorem pair_append {bad l l' : Str} (h1 : ∀ a d b, l = a ++ 'ん' :: d :: b → d ∉ bad)
    (h2 : ∀ a d b, l' = a ++ 'ん' :: d :: b → d ∉ bad)
    (h3 : l.getLast? = some 'ん' → ∀ d, l'.head? = some d → d ∉ bad) :
    ∀ a d b, l ++ l' = a ++ 'ん' :: d :: b → d ∉ bad := by
  induction l with
  | nil => exact h2
  | cons e l ih =>
    intro a d b h
    cases a with
    | nil =>
      rw [List.cons_append, List.nil_append] at h
      injection h with e1 h
      subst e1
      cases l with
      | nil =>
        rw [List.nil_append] at h
        exact h3 rfl d (by rw [h]; rfl)
      | cons e' l =>
        injection h with e2 _
        subst e2
        exact h1 [] _ l rfl
    | cons a0 a =>
      injection h with _ h
      refine ih (fun a d b h => ?_) (fun hl => ?_) a d b h
      · exact h1 (e :: a) d b (by rw [h]; rfl)
      · apply h3
        rw [← List.singleton_append, getLast?_append_ne _ (by intro e; rw [e] at hl; cases hl)]
        exact hl

theorem good_nasal {m : Mode} {ps : List (Str × Str)} (h : Good m ps) :
    ∀ a d b, (ps.map Prod.fst).flatten = a ++ 'ん' :: d :: b → d ∉ ['y', 'Y', '\''] := by
  have one : ∀ (c : Char) (a : Str) (d : Char) (b : Str), [c] = a ++ 'ん' :: d :: b → d ∉ ['y', 'Y', '\''] := by
    intro c a d b h
    have := congrArg List.length h
    simp at this
    omega
  induction h with
  | nil => intro a d b h; have := congrArg List.length h; simp at this
  | trip hr ht _ _ _ ih =>
    apply pair_append _ ih
    · intro hl; exact absurd hl (trip_not_nasal hr ht)
    · intro a d b e hm
      have := rpiece_ascii hr d (by rw [e]; simp)
      have h2 : ∀ d ∈ ['y', 'Y', '\''], Spec.AsciiLetter d ∨ d = '\'' := by decide
      rcases h2 d hm with h | h
      · exact this.1 h
      · exact this.2 h
  | nasal hd hg ih =>
    apply pair_append (one _) ih
    intro _ d hd2 hm
    have h2 : ∀ d ∈ ['y', 'Y', '\''], (Spec.AsciiLetter d ∨ d = '\'') ∧
        toAsciiLowercase d ∈ ['a', 'i', 'u', 'e', 'o', 'y', '\''] := by decide
    obtain ⟨ha, hv⟩ := h2 d hm
    have hh : ∀ qs : List (Str × Str), Good m qs → ((qs.map Prod.fst).flatten).head? = some d →
        ((qs.map Prod.snd).flatten).head? = some d := by
      intro qs hq hf
      cases hq with
      | nil => cases hf
      | trip hr _ _ _ _ =>
        rename_i p qs _ _ _ _
        exfalso
        rw [List.map_cons, List.flatten_cons] at hf
        have hne := RPiece.ne_nil (x := 'a') (y := 'a') (Or.inl hr)
        cases hp : p.1 with
        | nil => exact hne hp
        | cons c t =>
          rw [hp] at hf
          have : c = d := by simpa using hf
          have h3 := rpiece_ascii hr c (by rw [hp]; simp)
          rw [this] at h3
          rcases ha with h | h
          · exact h3.1 h
          · exact h3.2 h
      | nasal _ _ =>
        exfalso
        have : d = 'ん' := by simpa using hf.symm
        rw [this] at hm
        exact absurd hm (by decide)
      | quote _ => exact hf
      | letter _ _ _ => exact hf
    exact hd d (hh _ hg hd2) hv
  | quote _ ih =>
    apply pair_append (one _) ih
    intro h; exact absurd h (by decide)
  | letter hc _ _ ih =>
    apply pair_append (one _) ih
    intro h
    cases h
    exact absurd hc (by decide)

theorem skip_part {p F a b : Str} {c : Char} (h : p ++ F = a ++ c :: b) (hc : c ∉ p) : ∃ a', F = a' ++ c :: b := by
  rcases List.append_eq_append_iff.1 h with ⟨a', _, h2⟩ | ⟨c', h1, h2⟩
  · exact ⟨a', h2⟩
  · cases c' with
    | nil => exact ⟨[], h2.symm⟩
    | cons d c' =>
      injection h2 with e _
      subst e
      exact absurd (by rw [h1]; simp) hc

/-- a letter of the text is a piece -/
theorem good_letter {m : Mode} {ps : List (Str × Str)} (h : Good m ps) {c : Char} (hc : Spec.AsciiLetter c) {b : Str} :
    ∀ a, (ps.map Prod.fst).flatten = a ++ c :: b → ∃ l r, ps = l ++ ([c], [c]) :: r ∧ (r.map Prod.fst).flatten = b ∧
      kana m (c :: (r.map Prod.snd).flatten) = c :: kana m (r.map Prod.snd).flatten := by
  have push : ∀ {p : Str × Str} {ps : List (Str × Str)}, (∃ l r, ps = l ++ ([c], [c]) :: r ∧ (r.map Prod.fst).flatten = b ∧
      kana m (c :: (r.map Prod.snd).flatten) = c :: kana m (r.map Prod.snd).flatten) →
      ∃ l r, p :: ps = l ++ ([c], [c]) :: r ∧ (r.map Prod.fst).flatten = b ∧
      kana m (c :: (r.map Prod.snd).flatten) = c :: kana m (r.map Prod.snd).flatten := by
    rintro p ps ⟨l, r, rfl, h⟩
    exact ⟨p :: l, r, rfl, h⟩
  induction h with
  | nil => intro a h; have := congrArg List.length h; simp at this
  | trip hr _ _ _ _ ih =>
    intro a h
    rw [List.map_cons, List.flatten_cons] at h
    obtain ⟨a', h'⟩ := skip_part h fun hm => (rpiece_ascii hr c hm).1 hc
    exact push (ih a' h')
  | nasal _ _ ih =>
    intro a h
    rw [List.map_cons, List.flatten_cons] at h
    obtain ⟨a', h'⟩ := skip_part h fun hm => by
      rw [List.mem_singleton.1 hm] at hc
      exact absurd hc (by decide)
    exact push (ih a' h')
  | quote _ ih =>
    intro a h
    rw [List.map_cons, List.flatten_cons] at h
    obtain ⟨a', h'⟩ := skip_part h fun hm => by
      rw [List.mem_singleton.1 hm] at hc
      exact absurd hc (by decide)
    exact push (ih a' h')
  | letter _ e _ ih =>
    rename_i c0 qs _ _
    intro a h
    rw [List.map_cons, List.flatten_cons] at h
    cases a with
    | nil =>
      injection h with e1 h
      subst e1
      exact ⟨[], qs, rfl, h, e⟩
    | cons a0 a =>
      injection h with _ h
      exact push (ih a h)

/-- a text in which a long vowel mark prolongs a katakana letter does not come back -/
theorem back_unprolonged {std : Std} (hstd : std.Lawful) {m : Mode} {s r : Str} {o : Options} (hu : o.upcase_katakana = false)
    (hr : to_romaji_with_opt std s o = .ok r) (hk : kana m r = s) :
    ∀ a b g, s = a ++ 'ー' :: b → Spec.governing a = some g → ¬ Spec.KatakanaLetter g := by
  have hunc := C35_all_converted hstd _ _ o hr
  rw [to_romaji_eq hstd, hu, rom_romH, flagged_fst hstd, Except.ok.injEq] at hr
  intro a b g e hg hgk
  have hlt := marks_pieces_lt hstd [a] [] ('ー' :: b)
    ⟨g, by simpa using hg, hgk, by
      rw [List.takeWhile_cons_of_pos (by decide)]
      exact List.mem_cons_self⟩
  rw [show ([a] ++ ['ー' :: b]).flatten = s by rw [e]; simp] at hlt
  simp only [List.singleton_append, List.flatMap_cons, List.flatMap_nil, List.append_nil, List.countP_append] at hlt
  have l1 := marks_le hstd a
  have l2 := marks_le hstd ('ー' :: b)
  have l3 : s.countP isMark = a.countP isMark + ('ー' :: b).countP isMark := by rw [e, List.countP_append]
  have l4 := kana_marks m r
  rw [hk] at l4
  have l6 : r.countP isMark = r.countP (· == '-') := by
    apply List.countP_congr
    intro d hd
    unfold isMark
    simp only [Bool.or_eq_true, beq_iff_eq]
    constructor
    · rintro (rfl | h)
      · exact absurd (by decide) (hunc 'ー' hd)
      · exact h
    · exact Or.inr
  have l7 := romH_dashes hstd (k2hP std true none s)
  rw [hr] at l7
  omega

/-- the words before the first letter -/
theorem split_latin {P : Str → Prop} : ∀ ws : List Str, (∀ w ∈ ws, P w ∨ Spec.LatinPiece w) →
    (∀ w ∈ ws, P w) ∨ ∃ l c r, ws = l ++ [c] :: r ∧ (∀ w ∈ l, P w) ∧ (Spec.AsciiLetter c ∨ c = '\'') := by
  intro ws
  induction ws with
  | nil => intro _; left; simp
  | cons w ws ih =>
    intro h
    rcases h w List.mem_cons_self with hw | ⟨c, hc, rfl⟩
    · rcases ih fun v hv => h v (List.mem_cons_of_mem _ hv) with h2 | ⟨l, c, r, rfl, h2, h3⟩
      · left
        intro v hv
        rcases List.mem_cons.1 hv with rfl | hv
        · exact hw
        · exact h2 v hv
      · refine Or.inr ⟨w :: l, c, r, rfl, ?_, h3⟩
        intro v hv
        rcases List.mem_cons.1 hv with rfl | hv
        · exact hw
        · exact h2 v hv
    · exact Or.inr ⟨[], c, ws, rfl, by simp, hc⟩

theorem regular_not_letter {m : Mode} (hm : m ≠ .ime) {w : Str} (h : Spec.RegularPiece false (obsOf m) w) :
    ∀ c ∈ w, ¬ Spec.AsciiLetter c := by
  rcases h with h | ⟨h, _⟩ | ⟨c, hc, rfl⟩ | ⟨c, hc, rfl⟩
  · have : ∀ w ∈ Spec.regularSyllables (obsOf m), ∀ c ∈ w, ¬ Spec.AsciiLetter c := by
      cases m with
      | normal => decide +kernel
      | obsolete => decide +kernel
      | ime => exact absurd rfl hm
    exact this w h
  · cases h
  · intro d hd
    rw [List.mem_singleton.1 hd]
    have : ∀ c ∈ Spec.reversibleMarks, ¬ Spec.AsciiLetter c := by decide
    exact this c hc
  · intro d hd
    rw [List.mem_singleton.1 hd]
    exact hc.2.1

theorem vowel_key {m : Mode} (hm : m ≠ .ime) : ∀ c ∈ "aiueo".toList, ∃ k ∈ tableOf m, k.1 = [c] := by
  have : ∀ c ∈ "aiueo".toList, ((tableOf m).any fun k => k.1 == [c]) = true := by
    cases m with
    | normal => decide +kernel
    | obsolete => decide +kernel
    | ime => exact absurd rfl hm
  intro c hc
  obtain ⟨k, hk, e⟩ := List.any_eq_true.1 (this c hc)
  exact ⟨k, hk, by simpa using e⟩

/-- a vowel is always read as kana -/
theorem vowel_not_stays {m : Mode} (hm : m ≠ .ime) {c : Char} (hc : toAsciiLowercase c ∈ "aiueo".toList) {t : Str} :
    ¬ Spec.StaysLetter (tableOf m) c t := by
  intro h
  obtain ⟨k, hk, e⟩ := vowel_key hm _ hc
  have := h.1 k hk (by rw [e, asciiLower_eq]; exact ⟨t.map toAsciiLowercase, rfl⟩)
  rw [e] at this
  injection this with this _
  rw [this] at hc
  exact absurd hc (by decide)

/-- **C112** Exactly which texts survive the trip kana → romaji → kana, Latin letters and apostrophes included, if the
standard library makes `to_romaji` write ゔ and っゔ with a vowel other than u. -/
theorem C112_exact {std : Std} (hstd : std.Lawful) (s : Str) (o o' : Options) (hu : o.upcase_katakana = false)
    (hime : o'.imemode = true → o'.use_obsolete_kana = true) {x y : Char}
    (hx : to_romaji_with_opt std "ゔ".toList o = .ok ['v', x]) (hxu : x ≠ 'u')
    (hy : to_romaji_with_opt std "っゔ".toList o = .ok ['v', 'v', y]) (hyu : y ≠ 'u') :
    (∃ r, to_romaji_with_opt std s o = .ok r ∧ to_kana_with_opt std r o' = .ok s) ↔
    (∃ ws : List Str, s = ws.flatten ∧ ∀ w ∈ ws, Spec.RegularPiece false o'.use_obsolete_kana w ∨ Spec.LatinPiece w) ∧
    (∀ a d b, s = a ++ 'ん' :: d :: b → d ∉ ['y', 'Y', '\'']) ∧
    (∀ a c b t, s = a ++ c :: b → Spec.AsciiLetter c → to_romaji_with_opt std b o = .ok t →
      Spec.StaysLetter (Spec.tableFor o'.use_obsolete_kana o'.imemode) c t) := by
  have hm := modeOf_ne_ime hime
  have hrom : ∀ t, to_romaji_with_opt std t o = .ok (romH std (k2hP std true none t)) := by
    intro t
    rw [to_romaji_eq hstd, hu, rom_romH, flagged_fst hstd]
  rw [tableFor_eq]
  constructor
  · rintro ⟨r, h1, h2⟩
    rw [to_kana_eq hstd, Except.ok.injEq] at h2
    obtain ⟨hxv, hyv, ps, e0, hps, hsuf⟩ := text_pieces hstd s o hu hx hxu hy hyu
    have hk := k2hP_unprolonged (std := std) (back_unprolonged hstd hu h1 h2)
    rw [hrom, e0, hsuf [] ps rfl, Except.ok.injEq] at h1
    subst h1
    have hgood : Good (modeOf o') ps := by
      apply good_of hm hxv hyv hxu hyu ps hps
      rw [h2, ← hk, e0]
    have hs := good_kana hm hgood
    rw [h2] at hs
    have hfix : ∀ c ∈ s, toHira c = c := by
      rw [hk, ← hs] at e0
      intro c hc
      exact (List.map_inj_left (f := toHira) (g := id)).1 (e0.trans (List.map_id s).symm) c hc
    refine ⟨?_, ?_, ?_⟩
    · obtain ⟨ws, e, hw⟩ := good_words hgood
      rw [obsOf_modeOf] at hw
      exact ⟨ws, by rw [hs, e], hw⟩
    · intro a d b e
      exact good_nasal hgood a d b (by rw [← hs, e])
    · intro a c b t e hc ht
      obtain ⟨l, r, e1, e2, e3⟩ := good_letter hgood hc a (by rw [← hs, e])
      have hb : k2hP std true none b = b := by
        apply k2hP_id
        intro d hd
        exact fixed_other (hfix d (by rw [e]; simp [hd]))
      rw [hrom, hb, ← e2, hsuf (l ++ [([c], [c])]) r (by rw [e1]; simp), Except.ok.injEq] at ht
      subst ht
      exact (stays_iff hm (lpiece_ascii (Or.inl hc)) _).2 e3
  · rintro ⟨⟨ws, rfl, hw⟩, hn, hl⟩
    have hfixw : ∀ ws : List Str, (∀ w ∈ ws, Spec.RegularPiece false o'.use_obsolete_kana w ∨ Spec.LatinPiece w) →
        ∀ c ∈ ws.flatten, toHira c = c := by
      intro ws hw c hc
      obtain ⟨w, h1, h2⟩ := List.mem_flatten.1 hc
      rcases hw w h1 with h | ⟨d, hd, rfl⟩
      · exact hira_piece_fixed hm (by rw [obsOf_modeOf]; exact h) c h2
      · have := lpiece_ascii hd
        rw [List.mem_singleton.1 h2]
        apply char_ext
        rw [toHira_toNat]
        repeat' split
        all_goals omega
    have hself : ∀ ws : List Str, (∀ w ∈ ws, Spec.RegularPiece false o'.use_obsolete_kana w ∨ Spec.LatinPiece w) →
        k2hP std true none ws.flatten = ws.flatten := by
      intro ws hw
      apply k2hP_id
      intro d hd
      exact fixed_other (hfixw ws hw d hd)
    have main : ∀ (n : Nat) (ws : List Str), ws.length ≤ n →
        (∀ w ∈ ws, Spec.RegularPiece false o'.use_obsolete_kana w ∨ Spec.LatinPiece w) →
        (∀ a d b, ws.flatten = a ++ 'ん' :: d :: b → d ∉ ['y', 'Y', '\'']) →
        (∀ a c b t, ws.flatten = a ++ c :: b → Spec.AsciiLetter c → to_romaji_with_opt std b o = .ok t →
          Spec.StaysLetter (tableOf (modeOf o')) c t) →
        kana (modeOf o') (romH std ws.flatten) = ws.flatten := by
      intro n
      induction n with
      | zero =>
        intro ws hlen _ _ _
        have : ws = [] := List.length_eq_zero_iff.1 (by omega)
        subst this
        rw [List.flatten_nil, romH_nil, kana_nil]
      | succ n ih =>
        intro ws hlen hw hn hl
        rcases split_latin ws hw with h | ⟨l, c, r, rfl, hlreg, hc⟩
        · obtain ⟨r', h1, h2⟩ := C36_roundtrip hstd o o' hime ws h
          rw [hrom, hself ws hw, Except.ok.injEq] at h1
          subst h1
          rw [to_kana_eq hstd, Except.ok.injEq] at h2
          exact h2
        · have hwr : ∀ w ∈ r, Spec.RegularPiece false o'.use_obsolete_kana w ∨ Spec.LatinPiece w :=
            fun w hw' => hw w (by simp [hw'])
          have hwl : ∀ w ∈ l, Spec.RegularPiece false o'.use_obsolete_kana w ∨ Spec.LatinPiece w :=
            fun w hw' => hw w (by simp [hw'])
          have efl : (l ++ [c] :: r).flatten = l.flatten ++ c :: r.flatten := by
            rw [List.flatten_append, List.flatten_cons]; rfl
          rw [efl] at hn hl ⊢
          have hasc := lpiece_ascii hc
          -- the rest
          have ihr := ih r (by simp at hlen; omega) hwr
            (fun a d b e => hn (l.flatten ++ c :: a) d b (by rw [e]; simp))
            (fun a c' b t e => hl (l.flatten ++ c :: a) c' b t (by rw [e]; simp))
          -- the romaji
          have hnc : c ∉ Spec.changedBySokuon ∧ (∀ x, pairT x c = true → x = 'っ') := by
            have hk1 : ∀ d ∈ Spec.changedBySokuon, 128 ≤ d.toNat := by decide +kernel
            have hk2 : ∀ d ∈ Spec.afterN, 128 ≤ d.toNat := by decide +kernel
            have hk3 : ∀ d ∈ Spec.smallKana, 128 ≤ d.toNat := by decide +kernel
            refine ⟨fun h => ?_, fun x h => ?_⟩
            · have := hk1 c h; omega
            · simp only [pairT, Bool.or_eq_true, Bool.and_eq_true, beq_iff_eq, List.contains_iff_mem] at h
              rcases h with (h | h) | h
              · exact h.1
              · have := hk2 c h.2; omega
              · have := hk3 c h.2; omega
          have hromc : romH std (c :: r.flatten) = c :: romH std r.flatten := by
            apply romH_miss
            cases hf : TO_ROMAJI_NODE_TREE.rfind std c with
            | none => rfl
            | some n =>
              exfalso
              have := rfind_key hstd (p := []) rfl hf
              rw [romajiKey_iff] at this
              simp only [List.mem_cons, List.not_mem_nil, or_false] at this
              omega
          have hcat : romH std (l.flatten ++ c :: r.flatten) = romH std l.flatten ++ c :: romH std r.flatten := by
            rw [romH_kept hstd, hromc]
            intro a b _ hb
            have : b = c := by simpa using hb.symm
            subst this
            cases hp : pairT a b with
            | false => exact Or.inl rfl
            | true => exact Or.inr ⟨hnc.2 a hp, hnc.1⟩
          rw [hcat]
          -- the letter
          have hstay : kana (modeOf o') (c :: romH std r.flatten) = c :: kana (modeOf o') (romH std r.flatten) := by
            rcases hc with hc | rfl
            · apply (stays_iff hm hasc _).1
              apply hl l.flatten c r.flatten _ rfl hc
              rw [hrom, hself r hwr]
            · exact kana_quote_cons _ _
          -- the words in front
          obtain ⟨hxv, hyv, ps, e0, hps, hsuf⟩ := text_pieces hstd l.flatten o hu hx hxu hy hyu
          rw [hself l hwl] at e0
          obtain ⟨r', h1, h2⟩ := C36_roundtrip hstd o o' hime l hlreg
          rw [hrom, hself l hwl, e0, hsuf [] ps rfl, Except.ok.injEq] at h1
          subst h1
          rw [to_kana_eq hstd, Except.ok.injEq] at h2
          have hgood : Good (modeOf o') ps := by
            apply good_of hm hxv hyv hxu hyu ps hps
            rw [h2, e0]
            rw [← e0]
            conv => rhs; rw [← List.map_id l.flatten]
            exact List.map_congr_left (hfixw l hwl)
          have hT := good_append hm hgood (T := c :: romH std r.flatten) ?_ ?_
          · rw [e0, hsuf [] ps rfl, hT, hstay, ihr]
          · intro hlast d hd
            have : d = c := by simpa using hd.symm
            subst this
            rw [← e0] at hlast
            obtain ⟨a, ha⟩ := List.getLast?_eq_some_iff.1 hlast
            have hny := hn a d r.flatten (by rw [ha]; simp)
            intro hmem
            have hcases : toAsciiLowercase d ∈ "aiueo".toList ∨ d ∈ ['y', 'Y', '\''] := by
              simp only [String.reduceToList, List.mem_cons, List.not_mem_nil, or_false, char_eq_iff, toAsciiLowercase_toNat, Char.reduceToNat] at hmem ⊢
              split at hmem <;> split <;> omega
            rcases hcases with hv | hv
            · rcases hc with hc | rfl
              · exact vowel_not_stays hm hv (hl l.flatten d r.flatten _ rfl hc (hrom _))
              · exact absurd hv (by decide)
            · exact hny hv
          · rw [← e0]
            intro d hd
            obtain ⟨w, h1, h2⟩ := List.mem_flatten.1 hd
            exact regular_not_letter hm (by rw [obsOf_modeOf]; exact hlreg w h1) d h2
    refine ⟨_, hrom _, ?_⟩
    rw [to_kana_eq hstd, hself ws hw, main _ ws (Nat.le_refl _) hw hn hl]

/-- **C112** a text with a Latin vowel does not survive the trip -/
theorem C112_vowel {std : Std} (hstd : std.Lawful) (s : Str) (o o' : Options) (hu : o.upcase_katakana = false)
    (hime : o'.imemode = true → o'.use_obsolete_kana = true) {x y : Char}
    (hx : to_romaji_with_opt std "ゔ".toList o = .ok ['v', x]) (hxu : x ≠ 'u')
    (hy : to_romaji_with_opt std "っゔ".toList o = .ok ['v', 'v', y]) (hyu : y ≠ 'u')
    {c : Char} (hc : c ∈ "aiueoAIUEO".toList) (hcs : c ∈ s) :
    ¬ ∃ r, to_romaji_with_opt std s o = .ok r ∧ to_kana_with_opt std r o' = .ok s := by
  intro h
  have := ((C112_exact hstd s o o' hu hime hx hxu hy hyu).1 h).2.2
  obtain ⟨a, b, e⟩ := List.append_of_mem hcs
  obtain ⟨t, ht⟩ := C27_total hstd b o
  have hl : ∀ c ∈ "aiueoAIUEO".toList, Spec.AsciiLetter c ∧ toAsciiLowercase c ∈ "aiueo".toList := by decide
  have := this a c b t e (hl c hc).1 ht
  rw [tableFor_eq] at this
  exact vowel_not_stays (modeOf_ne_ime hime) (hl c hc).2 this

/-- **C112** the standard libraries of Rust 1.52 and later are such libraries -/
theorem C112_rust (s : Str) (o o' : Options) (hu : o.upcase_katakana = false)
    (hime : o'.imemode = true → o'.use_obsolete_kana = true) :
    ∀ std ∈ [rustStd, legacyStd],
    ((∃ r, to_romaji_with_opt std s o = .ok r ∧ to_kana_with_opt std r o' = .ok s) ↔
    (∃ ws : List Str, s = ws.flatten ∧ ∀ w ∈ ws, Spec.RegularPiece false o'.use_obsolete_kana w ∨ Spec.LatinPiece w) ∧
    (∀ a d b, s = a ++ 'ん' :: d :: b → d ∉ ['y', 'Y', '\'']) ∧
    (∀ a c b t, s = a ++ c :: b → Spec.AsciiLetter c → to_romaji_with_opt std b o = .ok t →
      Spec.StaysLetter (Spec.tableFor o'.use_obsolete_kana o'.imemode) c t)) := by
  obtain ⟨h1, h2, h3, h4, -⟩ := C101_search o hu
  intro std h
  simp only [List.mem_cons, List.not_mem_nil, or_false] at h
  rcases h with rfl | rfl
  · exact C112_exact rustStd_lawful s o o' hu hime h1 (by decide) h2 (by decide)
  · exact C112_exact legacyStd_lawful s o o' hu hime h3 (by decide) h4 (by decide)

/-- texts with letters that survive, and four that do not: the letter joins the kana, n before k is ん, an apostrophe
after ん is lost, and y turns ん into にゃ -/
example : (∀ s ∈ ["tち".toList, "Tし".toList, "nyか".toList, "Kまた'".toList, "qkま".toList],
      (to_romaji rustStd s >>= fun r => to_kana rustStd r) = .ok s) ∧
    (∀ s ∈ ["kか".toList, "nか".toList, "ん'か".toList, "んyあ".toList],
      (to_romaji rustStd s >>= fun r => to_kana rustStd r) ≠ .ok s) ∧
    ('t' ∉ "aiueoAIUEO".toList ∧ 'o' ∈ "aiueoAIUEO".toList ∧ 'o' ∈ "とoと".toList) := by
  decide +kernel

end WanaKana
