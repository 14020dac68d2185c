import Verif.Proofs.ImeTrip
/-! # C123: the trip kana → romaji → kana while typing -/

namespace WanaKana
open KNode RNode
open Spec (toHira kanaTable)

theorem goodI_words {ps : List (Str × Str)} (h : GoodI ps) : ∃ ws : List Str, (ps.map Prod.fst).flatten = ws.flatten ∧
    ∀ w ∈ ws, Spec.RegularPiece false false w ∨ Spec.LatinPiece w := by
  have cons : ∀ (k : Str) (us : List Str) (t : Str) (vs : List Str), k = us.flatten → t = vs.flatten →
      (∀ w ∈ us, Spec.RegularPiece false false w ∨ Spec.LatinPiece w) →
      (∀ w ∈ vs, Spec.RegularPiece false false w ∨ Spec.LatinPiece w) → ∃ ws : List Str, k ++ t = ws.flatten ∧
      ∀ w ∈ ws, Spec.RegularPiece false false w ∨ Spec.LatinPiece w := by
    rintro k us t vs rfl rfl h1 h2
    refine ⟨us ++ vs, by rw [List.flatten_append], ?_⟩
    intro w hw
    rcases List.mem_append.1 hw with hw | hw
    · exact h1 w hw
    · exact h2 w hw
  induction h with
  | nil => exact ⟨[], rfl, by simp⟩
  | trip _ _ _ hreg _ ih =>
    obtain ⟨vs, e, hv⟩ := ih
    obtain ⟨us, e', hu⟩ := regKey_pieces hreg
    exact cons _ us _ vs e' e (fun w hw => Or.inl (hu w hw)) hv
  | quote _ ih =>
    obtain ⟨vs, e, hv⟩ := ih
    exact cons _ [['\'']] _ vs rfl e (fun w hw => Or.inr ⟨'\'', Or.inr rfl, List.mem_singleton.1 hw⟩) hv
  | letter hc _ _ ih =>
    obtain ⟨vs, e, hv⟩ := ih
    exact cons _ [[_]] _ vs rfl e (fun w hw => Or.inr ⟨_, Or.inl hc, List.mem_singleton.1 hw⟩) hv

/-- the rows that come back with ん are ん with a vowel or や ゆ よ -/
theorem nasal_rowsI : (kanaTable.all fun p => kana .ime p.2 != p.1 || !p.1.contains 'ん' || (match p.1 with
    | [a, d] => a == 'ん' && d != 'ん' && Spec.vowelOrY.contains d
    | _ => false)) = true := by
  decide +kernel

theorem nasal_rowI {p : Str × Str} (hr : RPiece p) (hb : kana .ime p.2 = p.1) (hn : 'ん' ∈ p.1) :
    ∃ d ∈ Spec.vowelOrY, d ≠ 'ん' ∧ p.1 = ['ん', d] := by
  rcases hr with h | ⟨c, rfl, h⟩
  · have := List.all_eq_true.1 nasal_rowsI p h
    simp only [Bool.or_eq_true, bne_iff_ne, Bool.not_eq_true', List.contains_eq_mem, decide_eq_false_iff_not] at this
    rcases this with (h | h) | h
    · exact absurd hb h
    · exact absurd hn h
    · split at h
      · rename_i a d e
        simp only [Bool.and_eq_true, beq_iff_eq, bne_iff_ne, decide_eq_true_eq] at h
        exact ⟨d, h.2, h.1.2, by rw [e, h.1.1]⟩
      · cases h
  · exfalso
    have hc : 'ん' = c := by simpa using hn
    subst hc
    rcases h with h | h
    · exact absurd h.1.2.2.1 (by decide)
    · exact absurd h (by decide)

theorem goodI_nasal {ps : List (Str × Str)} (h : GoodI ps) :
    ∀ a b, (ps.map Prod.fst).flatten = a ++ 'ん' :: b → ∃ d, b.head? = some d ∧ d ∈ Spec.vowelOrY := by
  induction h with
  | nil => intro a b h; have := congrArg List.length h; simp at this
  | trip hr _ hb _ _ ih =>
    rename_i p ps _ _ _
    intro a b e
    rw [List.map_cons, List.flatten_cons] at e
    by_cases hn : 'ん' ∈ p.1
    · obtain ⟨d, hd, hne, ep⟩ := nasal_rowI hr hb hn
      rw [ep] at e
      match a, e with
      | [], e =>
        injection e with _ e
        exact ⟨d, by rw [← e]; rfl, hd⟩
      | [a], e =>
        injection e with _ e
        injection e with e _
        exact absurd e hne
      | _ :: _ :: a, e =>
        injection e with _ e
        injection e with _ e
        exact ih a b e
    · obtain ⟨a', h'⟩ := skip_part e hn
      exact ih a' b h'
  | quote _ ih =>
    intro a b e
    rw [List.map_cons, List.flatten_cons] at e
    obtain ⟨a', h'⟩ := skip_part e (by decide)
    exact ih a' b h'
  | letter hc _ _ ih =>
    intro a b e
    rw [List.map_cons, List.flatten_cons] at e
    obtain ⟨a', h'⟩ := skip_part e fun hm => by
      rw [← List.mem_singleton.1 hm] at hc
      exact absurd hc (by decide)
    exact ih a' b h'

/-- a letter of the text is a piece -/
theorem goodI_letter {ps : List (Str × Str)} (h : GoodI ps) {c : Char} (hc : Spec.AsciiLetter c) {b : Str} :
    ∀ a, (ps.map Prod.fst).flatten = a ++ c :: b → ∃ l r, ps = l ++ ([c], [c]) :: r ∧ (r.map Prod.fst).flatten = b ∧
      kana .ime (c :: (r.map Prod.snd).flatten) = c :: kana .ime (r.map Prod.snd).flatten := by
  have push : ∀ {p : Str × Str} {ps : List (Str × Str)}, (∃ l r, ps = l ++ ([c], [c]) :: r ∧ (r.map Prod.fst).flatten = b ∧
      kana .ime (c :: (r.map Prod.snd).flatten) = c :: kana .ime (r.map Prod.snd).flatten) →
      ∃ l r, p :: ps = l ++ ([c], [c]) :: r ∧ (r.map Prod.fst).flatten = b ∧
      kana .ime (c :: (r.map Prod.snd).flatten) = c :: kana .ime (r.map Prod.snd).flatten := by
    rintro p ps ⟨l, r, rfl, h⟩
    exact ⟨p :: l, r, rfl, h⟩
  induction h with
  | nil => intro a h; have := congrArg List.length h; simp at this
  | trip hr _ _ _ _ ih =>
    intro a h
    rw [List.map_cons, List.flatten_cons] at h
    obtain ⟨a', h'⟩ := skip_part h fun hm => (rpiece_ascii hr c hm).1 hc
    exact push (ih a' h')
  | quote _ ih =>
    intro a h
    rw [List.map_cons, List.flatten_cons] at h
    obtain ⟨a', h'⟩ := skip_part h fun hm => by
      rw [List.mem_singleton.1 hm] at hc
      exact absurd hc (by decide)
    exact push (ih a' h')
  | letter _ e _ ih =>
    rename_i c0 qs _ _
    intro a h
    rw [List.map_cons, List.flatten_cons] at h
    cases a with
    | nil =>
      injection h with e1 h
      subst e1
      exact ⟨[], qs, rfl, h, e⟩
    | cons a0 a =>
      injection h with _ h
      exact push (ih a h)

/-- the pieces of a text go into kana in IME mode as otherwise, ん alone excepted -/
theorem goodI_append {ps : List (Str × Str)} (h : GoodI ps) {T : Str}
    (hl : ∀ c ∈ (ps.map Prod.fst).flatten, ¬ Spec.AsciiLetter c) :
    kana .ime ((ps.map Prod.snd).flatten ++ T) = (ps.map Prod.fst).flatten ++ kana .ime T := by
  induction h with
  | nil => rfl
  | trip _ ht hb _ _ ih =>
    obtain ⟨c, hc, hc2⟩ := ht.last
    rw [List.map_cons, List.flatten_cons] at hl
    rw [List.map_cons, List.map_cons, List.flatten_cons, List.flatten_cons, List.append_assoc,
      kana_append _ _ (cut_of_last hc hc2), hb, ih fun c hc => hl c (List.mem_append_right _ hc), List.append_assoc]
  | quote _ ih =>
    rw [List.map_cons, List.flatten_cons] at hl
    rw [List.map_cons, List.map_cons, List.flatten_cons, List.flatten_cons]
    simp only [List.cons_append, List.nil_append]
    rw [kana_quote_cons, ih fun c hc => hl c (List.mem_append_right _ hc)]
  | letter hc _ _ _ =>
    exact absurd hc (hl _ (by simp))

theorem rows_normal_ime : (kanaTable.all fun p => p == (['ん'], ['n']) || kana .normal p.2 != p.1 || kana .ime p.2 == p.1) = true := by
  decide +kernel

theorem marks_normal_ime : (latinMarks.all fun c => kana .ime [c] == kana .normal [c]) = true := by
  decide +kernel

theorem piece_normal_ime {p : Str × Str} (hr : RPiece p) (ht : Trip .normal p) (hb : kana .normal p.2 = p.1) :
    kana .ime p.2 = p.1 := by
  rcases hr with h | ⟨c, rfl, h | h⟩
  · have := List.all_eq_true.1 rows_normal_ime p h
    simp only [Bool.or_eq_true, bne_iff_ne, beq_iff_eq] at this
    rcases this with (h | h) | h
    · exfalso
      obtain ⟨d, hd, hd2⟩ := ht.last
      rw [h] at hd
      cases hd
      exact absurd (by decide) hd2
    · exact absurd hb h
    · exact h
  · have := kana_of_not_head (m := .ime) (s := [c]) (by simpa using h.1.1) []
    simpa [kana_nil] using this
  · have := List.all_eq_true.1 marks_normal_ime c h
    rw [← hb]
    exact eq_of_beq this

theorem regKey_ime (k : Str) : regKey .ime k = regKey .normal k := rfl

/-- the romaji of a row that begins with a vowel or や ゆ よ begins with a vowel or y -/
theorem vowel_rows_n : (kanaTable.all fun p => match p.1 with
    | d :: _ => !Spec.vowelOrY.contains d || (match p.2 with
      | e :: _ => ['a', 'i', 'u', 'e', 'o', 'y', '\''].contains (toAsciiLowercase e)
      | [] => false)
    | [] => true) = true := by
  decide +kernel

theorem good_vowel {ps : List (Str × Str)} (h : Good .normal ps) {d : Char} (hd : d ∈ Spec.vowelOrY)
    (hf : ((ps.map Prod.fst).flatten).head? = some d) :
    ∃ e, ((ps.map Prod.snd).flatten).head? = some e ∧ toAsciiLowercase e ∈ ['a', 'i', 'u', 'e', 'o', 'y', '\''] := by
  cases h with
  | nil => cases hf
  | trip hr _ _ _ _ =>
    rename_i p qs _ _ _ _
    rw [List.map_cons, List.flatten_cons] at hf ⊢
    rcases hr with h | ⟨c, rfl, h⟩
    · have := List.all_eq_true.1 vowel_rows_n p h
      obtain ⟨k, v⟩ := p
      cases k with
      | nil =>
        exfalso
        have hne := RPiece.ne_nil (x := 'a') (y := 'a') (p := ([], v)) (Or.inl (Or.inl h))
        exact hne rfl
      | cons d' k =>
        have e1 : d' = d := by simpa using hf
        subst e1
        cases v with
        | nil => simp [hd] at this
        | cons e v =>
          simp only [List.contains_eq_mem, hd, decide_true, Bool.not_true, Bool.false_or, decide_eq_true_eq] at this
          exact ⟨e, rfl, this⟩
    · exfalso
      have e1 : c = d := by simpa using hf
      subst e1
      have hk : ∀ d ∈ Spec.vowelOrY, d ∉ latinMarks ∧ romajiKey d = true := by decide +kernel
      rcases h with h | h
      · have h1 := h.1.2.2.1
        rw [(hk _ hd).2] at h1
        cases h1
      · exact (hk _ hd).1 h
  | nasal _ _ =>
    exfalso
    have : d = 'ん' := by simpa using hf.symm
    rw [this] at hd
    exact absurd hd (by decide)
  | quote _ =>
    exfalso
    have : d = '\'' := by simpa using hf.symm
    rw [this] at hd
    exact absurd hd (by decide)
  | letter hc _ _ =>
    exfalso
    rename_i c _ _ _
    have : d = c := by simpa using hf.symm
    have hk : ∀ d ∈ Spec.vowelOrY, ¬ Spec.AsciiLetter d := by decide
    exact hk d hd (this ▸ hc)

theorem goodI_of_good {ps : List (Str × Str)} (h : Good .normal ps)
    (hn : ∀ a b, (ps.map Prod.fst).flatten = a ++ 'ん' :: b → ∃ d, b.head? = some d ∧ d ∈ Spec.vowelOrY)
    (hl : ∀ c ∈ (ps.map Prod.fst).flatten, ¬ Spec.AsciiLetter c) : GoodI ps := by
  induction h with
  | nil => exact .nil
  | trip hr ht hb hreg _ ih =>
    rename_i p ps _
    have hp := piece_normal_ime hr ht hb
    rw [List.map_cons, List.flatten_cons] at hn hl
    refine .trip hr ?_ hp (by rw [regKey_ime]; exact hreg) (ih (fun a b e => hn (p.1 ++ a) b (by rw [e]; simp))
      fun c hc => hl c (List.mem_append_right _ hc))
    rcases trip_of_pieceI hr with rfl | rfl | rfl | h
    · obtain ⟨d, hd, _⟩ := ht.last; cases hd
    · obtain ⟨d, hd, hd2⟩ := ht.last
      cases hd
      exact absurd (by decide) hd2
    · obtain ⟨d, hd, hd2⟩ := ht.last
      cases hd
      exact absurd (by decide) hd2
    · exact h
  | nasal hd hg ih =>
    exfalso
    rename_i ps
    obtain ⟨d, h1, h2⟩ := hn [] _ rfl
    obtain ⟨e, h3, h4⟩ := good_vowel hg h2 h1
    exact hd e h3 h4
  | quote _ ih =>
    rw [List.map_cons, List.flatten_cons] at hn hl
    exact .quote (ih (fun a b e => hn (['\''] ++ a) b (by rw [e]; simp)) fun c hc => hl c (List.mem_append_right _ hc))
  | letter hc _ _ _ =>
    exact absurd hc (hl _ (by simp))

/-- **C123** Exactly which texts survive the trip kana → romaji → kana in IME mode, Latin letters and apostrophes
included, if the standard library makes `to_romaji` write ゔ and っゔ with a vowel other than u. -/
theorem C123_exact {std : Std} (hstd : std.Lawful) (s : Str) (o o' : Options) (hu : o.upcase_katakana = false)
    (him : o'.imemode = true) (hob : o'.use_obsolete_kana = false) {x y : Char}
    (hx : to_romaji_with_opt std "ゔ".toList o = .ok ['v', x]) (hxu : x ≠ 'u')
    (hy : to_romaji_with_opt std "っゔ".toList o = .ok ['v', 'v', y]) (hyu : y ≠ 'u') :
    (∃ r, to_romaji_with_opt std s o = .ok r ∧ to_kana_with_opt std r o' = .ok s) ↔
    (∃ ws : List Str, s = ws.flatten ∧ ∀ w ∈ ws, Spec.RegularPiece false false w ∨ Spec.LatinPiece w) ∧
    (∀ a b, s = a ++ 'ん' :: b → ∃ d, b.head? = some d ∧ d ∈ Spec.vowelOrY) ∧
    (∀ a c b t, s = a ++ c :: b → Spec.AsciiLetter c → to_romaji_with_opt std b o = .ok t →
      ∀ k ∈ Spec.imeTable, ¬ k.1 <+: (c :: t).map Spec.asciiLower) := by
  have hm : modeOf o' = .ime := modeOf_ime.2 ⟨him, hob⟩
  have hrom : ∀ t, to_romaji_with_opt std t o = .ok (romH std (k2hP std true none t)) := by
    intro t
    rw [to_romaji_eq hstd, hu, rom_romH, flagged_fst hstd]
  have hstays : ∀ {c : Char}, c.toNat < 128 → ∀ t, (∀ k ∈ Spec.imeTable, ¬ k.1 <+: (c :: t).map Spec.asciiLower) ↔
      kana .ime (c :: t) = c :: kana .ime t := by
    intro c hc t
    rw [asciiLower_eq]
    exact stays_iffI hc t
  constructor
  · rintro ⟨r, h1, h2⟩
    rw [to_kana_eq hstd, Except.ok.injEq, hm] at h2
    obtain ⟨hxv, hyv, ps, e0, hps, hsuf⟩ := text_pieces hstd s o hu hx hxu hy hyu
    have hk := k2hP_unprolonged (std := std) (back_unprolonged hstd hu h1 h2)
    rw [hrom, e0, hsuf [] ps rfl, Except.ok.injEq] at h1
    subst h1
    have hgood : GoodI ps := by
      apply good_ofI hxv hyv hxu hyu ps hps
      rw [h2, ← hk, e0]
    have hs := good_kanaI hgood
    rw [h2] at hs
    have hfix : ∀ c ∈ s, toHira c = c := by
      rw [hk, ← hs] at e0
      intro c hc
      exact (List.map_inj_left (f := toHira) (g := id)).1 (e0.trans (List.map_id s).symm) c hc
    refine ⟨?_, ?_, ?_⟩
    · obtain ⟨ws, e, hw⟩ := goodI_words hgood
      exact ⟨ws, by rw [hs, e], hw⟩
    · intro a b e
      exact goodI_nasal hgood a b (by rw [← hs, e])
    · intro a c b t e hc ht
      obtain ⟨l, r, e1, e2, e3⟩ := goodI_letter hgood hc a (by rw [← hs, e])
      have hb : k2hP std true none b = b := by
        apply k2hP_id
        intro d hd
        exact fixed_other (hfix d (by rw [e]; simp [hd]))
      rw [hrom, hb, ← e2, hsuf (l ++ [([c], [c])]) r (by rw [e1]; simp), Except.ok.injEq] at ht
      subst ht
      exact (hstays (lpiece_ascii (Or.inl hc)) _).2 e3
  · rintro ⟨⟨ws, rfl, hw⟩, hn, hl⟩
    have hfixw : ∀ ws : List Str, (∀ w ∈ ws, Spec.RegularPiece false false w ∨ Spec.LatinPiece w) →
        ∀ c ∈ ws.flatten, toHira c = c := by
      intro ws hw c hc
      obtain ⟨w, h1, h2⟩ := List.mem_flatten.1 hc
      rcases hw w h1 with h | ⟨d, hd, rfl⟩
      · exact hira_piece_fixed (m := .normal) (by decide) h c h2
      · have := lpiece_ascii hd
        rw [List.mem_singleton.1 h2]
        apply char_ext
        rw [toHira_toNat]
        repeat' split
        all_goals omega
    have hself : ∀ ws : List Str, (∀ w ∈ ws, Spec.RegularPiece false false w ∨ Spec.LatinPiece w) →
        k2hP std true none ws.flatten = ws.flatten := by
      intro ws hw
      apply k2hP_id
      intro d hd
      exact fixed_other (hfixw ws hw d hd)
    -- the words without a letter
    have plain : ∀ (l : List Str), (∀ w ∈ l, Spec.RegularPiece false false w) →
        (∀ a b, l.flatten = a ++ 'ん' :: b → ∃ d, b.head? = some d ∧ d ∈ Spec.vowelOrY) →
        ∀ T, kana .ime (romH std l.flatten ++ T) = l.flatten ++ kana .ime T := by
      intro l hlreg hnl T
      have hwl : ∀ w ∈ l, Spec.RegularPiece false false w ∨ Spec.LatinPiece w := fun w hw' => Or.inl (hlreg w hw')
      obtain ⟨hxv, hyv, ps, e0, hps, hsuf⟩ := text_pieces hstd l.flatten o hu hx hxu hy hyu
      rw [hself l hwl] at e0
      obtain ⟨r', h1, h2⟩ := C36_roundtrip hstd o ({} : Options) (by intro h; cases h) l hlreg
      rw [hrom, hself l hwl, e0, hsuf [] ps rfl, Except.ok.injEq] at h1
      subst h1
      rw [to_kana_eq hstd, Except.ok.injEq] at h2
      have hgood : Good .normal ps := by
        apply good_of (by decide) hxv hyv hxu hyu ps hps
        have h2 : kana .normal (ps.map Prod.snd).flatten = l.flatten := h2
        rw [h2, ← e0]
        conv => rhs; rw [← List.map_id l.flatten]
        exact List.map_congr_left (hfixw l hwl)
      have hlet : ∀ c ∈ (ps.map Prod.fst).flatten, ¬ Spec.AsciiLetter c := by
        rw [← e0]
        intro d hd
        obtain ⟨w, h1, h2⟩ := List.mem_flatten.1 hd
        exact regular_not_letter (m := .normal) (by decide) (hlreg w h1) d h2
      have hgI := goodI_of_good hgood (by rw [← e0]; exact hnl) hlet
      rw [e0, hsuf [] ps rfl]
      exact goodI_append hgI hlet
    have main : ∀ (n : Nat) (ws : List Str), ws.length ≤ n →
        (∀ w ∈ ws, Spec.RegularPiece false false w ∨ Spec.LatinPiece w) →
        (∀ a b, ws.flatten = a ++ 'ん' :: b → ∃ d, b.head? = some d ∧ d ∈ Spec.vowelOrY) →
        (∀ a c b t, ws.flatten = a ++ c :: b → Spec.AsciiLetter c → to_romaji_with_opt std b o = .ok t →
          ∀ k ∈ Spec.imeTable, ¬ k.1 <+: (c :: t).map Spec.asciiLower) →
        kana .ime (romH std ws.flatten) = ws.flatten := by
      intro n
      induction n with
      | zero =>
        intro ws hlen _ _ _
        have : ws = [] := List.length_eq_zero_iff.1 (by omega)
        subst this
        rw [List.flatten_nil, romH_nil, kana_nil]
      | succ n ih =>
        intro ws hlen hw hn hl
        rcases split_latin ws hw with h | ⟨l, c, r, rfl, hlreg, hc⟩
        · have := plain ws h hn []
          rw [List.append_nil, kana_nil, List.append_nil] at this
          exact this
        · have hwr : ∀ w ∈ r, Spec.RegularPiece false false w ∨ Spec.LatinPiece w :=
            fun w hw' => hw w (by simp [hw'])
          have efl : (l ++ [c] :: r).flatten = l.flatten ++ c :: r.flatten := by
            rw [List.flatten_append, List.flatten_cons]; rfl
          rw [efl] at hn hl ⊢
          have hasc := lpiece_ascii hc
          -- the rest
          have ihr := ih r (by simp at hlen; omega) hwr
            (fun a b e => hn (l.flatten ++ c :: a) b (by rw [e]; simp))
            (fun a c' b t e => hl (l.flatten ++ c :: a) c' b t (by rw [e]; simp))
          -- the romaji
          have hnc : c ∉ Spec.changedBySokuon ∧ (∀ x, pairT x c = true → x = 'っ') := by
            have hk1 : ∀ d ∈ Spec.changedBySokuon, 128 ≤ d.toNat := by decide +kernel
            have hk2 : ∀ d ∈ Spec.afterN, 128 ≤ d.toNat := by decide +kernel
            have hk3 : ∀ d ∈ Spec.smallKana, 128 ≤ d.toNat := by decide +kernel
            refine ⟨fun h => ?_, fun x h => ?_⟩
            · have := hk1 c h; omega
            · simp only [pairT, Bool.or_eq_true, Bool.and_eq_true, beq_iff_eq, List.contains_iff_mem] at h
              rcases h with (h | h) | h
              · exact h.1
              · have := hk2 c h.2; omega
              · have := hk3 c h.2; omega
          have hromc : romH std (c :: r.flatten) = c :: romH std r.flatten := by
            apply romH_miss
            cases hf : TO_ROMAJI_NODE_TREE.rfind std c with
            | none => rfl
            | some n =>
              exfalso
              have := rfind_key hstd (p := []) rfl hf
              rw [romajiKey_iff] at this
              simp only [List.mem_cons, List.not_mem_nil, or_false] at this
              omega
          have hcat : romH std (l.flatten ++ c :: r.flatten) = romH std l.flatten ++ c :: romH std r.flatten := by
            rw [romH_kept hstd, hromc]
            intro a b _ hb
            have : b = c := by simpa using hb.symm
            subst this
            cases hp : pairT a b with
            | false => exact Or.inl rfl
            | true => exact Or.inr ⟨hnc.2 a hp, hnc.1⟩
          -- the letter
          have hstay : kana .ime (c :: romH std r.flatten) = c :: kana .ime (romH std r.flatten) := by
            rcases hc with hc | rfl
            · apply (hstays hasc _).1
              apply hl l.flatten c r.flatten _ rfl hc
              rw [hrom, hself r hwr]
            · exact kana_quote_cons _ _
          rw [hcat, plain l hlreg ?_, hstay, ihr]
          -- the words in front
          intro a b e
          obtain ⟨d, h1, h2⟩ := hn a (b ++ c :: r.flatten) (by rw [e]; simp)
          cases b with
          | cons e b => exact ⟨d, h1, h2⟩
          | nil =>
            exfalso
            have : d = c := by simpa using h1.symm
            subst this
            have hk : ∀ d ∈ Spec.vowelOrY, 128 ≤ d.toNat := by decide
            have := hk d h2
            omega
    refine ⟨_, hrom _, ?_⟩
    rw [to_kana_eq hstd, hself ws hw, hm, main _ ws (Nat.le_refl _) hw hn hl]

/-- **C123** the standard libraries of Rust 1.52 and later are such libraries -/
theorem C123_rust (s : Str) (o o' : Options) (hu : o.upcase_katakana = false)
    (him : o'.imemode = true) (hob : o'.use_obsolete_kana = false) :
    ∀ std ∈ [rustStd, legacyStd],
    ((∃ r, to_romaji_with_opt std s o = .ok r ∧ to_kana_with_opt std r o' = .ok s) ↔
    (∃ ws : List Str, s = ws.flatten ∧ ∀ w ∈ ws, Spec.RegularPiece false false w ∨ Spec.LatinPiece w) ∧
    (∀ a b, s = a ++ 'ん' :: b → ∃ d, b.head? = some d ∧ d ∈ Spec.vowelOrY) ∧
    (∀ a c b t, s = a ++ c :: b → Spec.AsciiLetter c → to_romaji_with_opt std b o = .ok t →
      ∀ k ∈ Spec.imeTable, ¬ k.1 <+: (c :: t).map Spec.asciiLower)) := by
  obtain ⟨h1, h2, h3, h4, -⟩ := C101_search o hu
  intro std h
  simp only [List.mem_cons, List.not_mem_nil, or_false] at h
  rcases h with rfl | rfl
  · exact C123_exact rustStd_lawful s o o' hu him hob h1 (by decide) h2 (by decide)
  · exact C123_exact legacyStd_lawful s o o' hu him hob h3 (by decide) h4 (by decide)

/-- texts that survive, and texts that do not: ん at the end or before か is left as n -/
example : (∀ s ∈ ["んあ".toList, "ほんや".toList, "tち".toList, "nか".toList],
      (to_romaji rustStd s >>= fun r => to_kana_with_opt rustStd r { imemode := true }) = .ok s) ∧
    (∀ s ∈ ["ん".toList, "ほんか".toList, "んa".toList, "kか".toList, "nなnn".toList],
      (to_romaji rustStd s >>= fun r => to_kana_with_opt rustStd r { imemode := true }) ≠ .ok s) := by
  decide +kernel

end WanaKana
