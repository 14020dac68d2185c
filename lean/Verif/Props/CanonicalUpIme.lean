import Verif.Props.CanonicalUp
import Verif.Props.CanonicalIme
import Verif.Props.RoundTripIme2
import Verif.Spec.CanonicalUpIme
/-! # C134: exactly which romaji are canonical with `upcase_katakana` in IME mode -/

namespace WanaKana
open KNode RNode
open Spec (toHira kanaTable)

theorem outs_upI : ((outs .ime).all fun u => u == [] || u == ['n'] || uCheck .ime u &&
    (!(u.all fun c => decide (Spec.AsciiLetter c)) || uCheck .ime (u.map aUp)) &&
    [true, false].all fun k =>
      ([['-'], ['/'], ['ヵ'], ['ヶ']].contains u || dashOk k (kana .ime u) && (kana .ime u).foldl dashNext k == false) &&
      (!(u.all fun c => decide (Spec.AsciiLetter c)) ||
        dashOk k (kana .ime (u.map aUp)) && (kana .ime (u.map aUp)).foldl dashNext k == true)) = true := by
  decide +kernel

theorem marks_upI : (['-', '/', 'ヵ', 'ヶ'].all fun c => uCheck .ime [c] &&
    [true, false].all fun k => (kana .ime [c]).foldl dashNext k == k && (dashOk k (kana .ime [c]) || (c == '-' && k))) = true := by
  decide +kernel

theorem small_not_regI : (Spec.smallKana.all fun c => !regKey .ime [c]) = true := by
  decide +kernel

/-- rows that are not made of letters: with an apostrophe they do not come back in capitals -/
theorem outs_marksI : ((outs .ime).all fun u => (u.all fun c => decide (Spec.AsciiLetter c)) ||
    u.map aUp == u || !((kana .ime (u.map aUp)).all fun c => decide (Spec.Katakana c))) = true := by
  decide +kernel

theorem unormal_canonicalI {std : Std} (hstd : std.Lawful) {k : Bool} {r : Str}
    (h : Spec.CanonicalUpIme k r) : UNormal std .ime k r := by
  induction h with
  | nil =>
    refine ⟨?_, ?_, ?_⟩
    · rw [kana_nil]; exact rom_nil _ _
    · rw [kana_nil]; rfl
    · rw [kana_nil]; simp
  | @hira k u r hu hn _ ih =>
    simp only [List.mem_cons, List.not_mem_nil, or_false, not_or] at hn
    rcases (runit_iff (m := .ime)).2 hu with h | ⟨c, hc, rfl⟩
    · have hch := List.all_eq_true.1 outs_upI _ h
      simp only [Bool.or_eq_true, beq_iff_eq] at hch
      rcases hch with (rfl | rfl) | hb
      · exact absurd rfl hn.1
      · exact absurd rfl hn.2.1
      · simp only [Bool.and_eq_true] at hb
        have := List.all_eq_true.1 hb.2 k (by cases k <;> simp)
        simp only [Bool.and_eq_true, Bool.or_eq_true, List.contains_eq_mem, decide_eq_true_iff, beq_iff_eq, List.mem_cons,
          List.not_mem_nil, or_false] at this
        have := this.1.resolve_left (by
          rintro (h | h | h | h)
          · exact hn.2.2.1 h
          · exact hn.2.2.2.1 h
          · exact hn.2.2.2.2.1 h
          · exact hn.2.2.2.2.2 h)
        exact unormal_append hstd (ublock_of_check hstd hb.1.1) this.1 this.2 ih
    · have hk : kana .ime [c] = [c] := by
        have := kana_of_not_head (m := .ime) (s := [c]) (by simpa using hc.1) []
        simpa [kana_nil] using this
      have hc2 : c ∉ Spec.chain ∧ ¬ Spec.KatakanaLetter c := by
        refine (copied_hira hc).2.resolve_left fun h => ?_
        simp only [List.mem_cons, List.not_mem_nil, or_false] at h
        rcases h with rfl | rfl
        · exact hn.2.2.2.2.1 rfl
        · exact hn.2.2.2.2.2 rfl
      have hd : dashNext k c = false := by unfold dashNext; rw [if_neg hc2.1]; simp [hc2.2]
      have hne : c ≠ 'ー' := fun e => hc2.1 (by rw [e]; decide)
      refine unormal_append hstd (ublock_copied hstd hc) ?_ ?_ ih
      · rw [hk]; simp [dashOk, hne]
      · rw [hk]; exact hd
  | @kata k u r hu hl hn _ ih =>
    simp only [List.mem_cons, List.not_mem_nil, or_false, not_or] at hn
    rcases (runit_iff (m := .ime)).2 hu with h | ⟨c, hc, rfl⟩
    · have hch := List.all_eq_true.1 outs_upI _ h
      simp only [Bool.or_eq_true, beq_iff_eq] at hch
      rcases hch with (rfl | rfl) | hb
      · exact absurd rfl hn.1
      · exact absurd rfl hn.2
      · simp only [Bool.and_eq_true] at hb
        have hl' : (u.all fun c => decide (Spec.AsciiLetter c)) = true := by simpa using hl
        have := List.all_eq_true.1 hb.2 k (by cases k <;> simp)
        simp only [Bool.and_eq_true, Bool.or_eq_true, hl', Bool.not_true, Bool.false_eq_true, false_or, beq_iff_eq] at this hb
        rw [asciiUpper_eq]
        exact unormal_append hstd (ublock_of_check hstd hb.1.2) this.2.1 this.2.2 ih
    · exfalso
      have := hl c (by simp)
      have h1 := hc.1
      rw [headChar_low_iff.2 (Or.inl this)] at h1
      cases h1
  | @mark k c r hc hk _ ih =>
    have := List.all_eq_true.1 marks_upI c hc
    rw [Bool.and_eq_true] at this
    have h2 := List.all_eq_true.1 this.2 k (by cases k <;> simp)
    simp only [Bool.and_eq_true, Bool.or_eq_true, beq_iff_eq] at h2
    refine unormal_append (u := [c]) hstd (ublock_of_check hstd this.1) (h2.2.resolve_right ?_) h2.1 ih
    rintro ⟨e, ek⟩
    rw [hk e] at ek
    cases ek
  | quote _ ih => exact unormal_ascii hstd (by decide) (kana_quote_cons _ _) ih
  | letter hc hs _ ih =>
    have ha := lpiece_ascii (Or.inl hc)
    exact unormal_ascii hstd ha ((stays_ime ha _).1 hs) ih

/-- how the kana and the romaji of pieces begin -/
theorem good_headI {ps : List (Str × Str)} (h : GoodI ps) :
    ∀ y, ((ps.map Prod.fst).flatten).head? = some y → y ∉ Spec.smallKana ∧ (y ∈ Spec.afterN →
      ∃ c, ((ps.map Prod.snd).flatten).head? = some c ∧ c ∈ ['a', 'i', 'u', 'e', 'o', 'y']) := by
  intro y hy
  cases h with
  | nil => cases hy
  | @trip p ps hr ht hb hreg hg =>
    rw [List.map_cons, List.flatten_cons] at hy
    have hne := RPiece.ne_nil (x := 'a') (y := 'a') (Or.inl hr)
    have hy' : p.1.head? = some y := by
      cases hp : p.1 with
      | nil => exact absurd hp hne
      | cons c t => rw [hp] at hy; exact hy
    obtain ⟨c, hc, -⟩ := ht.head
    have hc' : (((p :: ps).map Prod.snd).flatten).head? = some c := by
      rw [List.map_cons, List.flatten_cons, List.head?_append, hc]; rfl
    have plain : romajiKey y = false → y ∉ Spec.smallKana ∧ (y ∈ Spec.afterN →
        ∃ c, (((p :: ps).map Prod.snd).flatten).head? = some c ∧ c ∈ ['a', 'i', 'u', 'e', 'o', 'y']) := fun hk =>
      ⟨(special_key hk).1, fun h => absurd h (special_key hk).2⟩
    rcases hreg with hreg | ⟨d, e, hd⟩
    · rcases hr with h | ⟨d, e, h | h⟩
      · have := List.all_eq_true.1 table_heads p h
        cases h1 : p.1 with
        | nil => exact absurd h1 hne
        | cons y' t =>
          rw [h1] at hy'
          cases hy'
          cases h2 : p.2 with
          | nil => rw [h2] at hc; cases hc
          | cons c' t' =>
            rw [h2] at hc
            cases hc
            rw [h1, h2] at this
            simp only [Bool.and_eq_true, Bool.not_eq_true', Bool.or_eq_true, List.contains_eq_mem, decide_eq_true_iff,
              decide_eq_false_iff_not, beq_iff_eq] at this
            refine ⟨fun hy => ?_, fun h => ⟨_, hc', this.2.resolve_left fun h' => h' h⟩⟩
            have ht : t = [] := by simpa using this.1.resolve_left fun h => h hy
            have := List.all_eq_true.1 small_not_regI y hy
            rw [h1, ht] at hreg
            rw [hreg] at this
            cases this
      · rw [e] at hy'
        cases hy'
        exact plain h.1.2.2.1
      · rw [e] at hy'
        cases hy'
        have : ∀ c ∈ latinMarks, romajiKey c = false := by decide
        exact plain (this _ h)
    · rw [e] at hy'
      cases hy'
      exact plain (neutral_copied hd).2.2.1
  | quote _ => cases hy; exact ⟨by decide, fun h => absurd h (by decide)⟩
  | letter hc _ _ =>
    cases hy
    have := special_key (key_ascii (lpiece_ascii (Or.inl hc)))
    exact ⟨this.1, fun h => absurd h this.2⟩

/-- what `good_canonicalUpI` needs of the pieces: their kana, in one script or the other, and their romaji -/
theorem good_canonicalUpI {std : Std} (hstd : std.Lawful) {ps : List (Str × Str)} (h : GoodI ps) :
    ∀ (k : Bool) (s : Str), s.map toHira = (ps.map Prod.fst).flatten →
    (∀ l r, ps = l ++ r → romH std (r.map Prod.fst).flatten = (r.map Prod.snd).flatten) →
    kana .ime (rom std true (shifted s)) = s → dashOk k s = true →
    Spec.CanonicalUpIme k (rom std true (shifted s)) := by
  induction h with
  | nil =>
    intro k s hs _ _ _
    have : s = [] := by simpa using hs
    subst this
    show Spec.CanonicalUpIme k (rom std true [])
    rw [rom_nil]
    exact .nil
  | @trip p ps hr ht hb hreg hg ih =>
    intro k s hs hsuf hk hd
    rw [List.map_cons, List.flatten_cons] at hs
    obtain ⟨w, s', rfl, hw, hs'⟩ := List.map_eq_append_iff.1 hs
    have hsuf' : ∀ l r, ps = l ++ r → romH std (r.map Prod.fst).flatten = (r.map Prod.snd).flatten :=
      fun l r e => hsuf (p :: l) r (by rw [e]; rfl)
    have hcut : rom std true (shifted (w ++ s')) = rom std true (shifted w) ++ rom std true (shifted s') := by
      apply rom_shifted_append hstd
      intro x y hx hy
      have h1 : p.1.getLast? = some (toHira x) := by rw [← hw, List.getLast?_map, hx]; rfl
      have h2 : ((ps.map Prod.fst).flatten).head? = some (toHira y) := by rw [← hs', List.head?_map, hy]; rfl
      have n1 : toHira x ≠ 'っ' := fun e => trip_not_sokuon hr ht (by rw [h1, e])
      have n2 : toHira x ≠ 'ん' := fun e => trip_not_nasal hr ht (by rw [h1, e])
      have n3 := (good_headI hg _ h2).1
      simp [pairOk, n1, n2, n3]
    rw [hcut] at hk ⊢
    -- the romaji of the first piece
    have hU : ∃ U, rom std true (shifted w) = U ∧ low U = low p.2 := by
      refine ⟨_, rfl, ?_⟩
      rcases hr with h | ⟨c, rfl, h | h⟩
      · rw [rom_row hstd h hw]
        split
        · exact low_upper p.2
        · rfl
      · rw [low_rom, shifted_fst, hw]
        unfold romH
        rw [List.map_cons, rom_miss (root_none hstd h.1.2.2.1), List.map_nil, rom_nil]
      · rw [low_rom, shifted_fst, hw]
        have : ∀ c ∈ latinMarks, romajiKey c = false := by decide
        unfold romH
        rw [List.map_cons, rom_miss (root_none hstd (this c h)), List.map_nil, rom_nil]
    obtain ⟨U, hU1, hU2⟩ := hU
    have hcut2 : kana .ime (U ++ rom std true (shifted s')) = kana .ime U ++ kana .ime (rom std true (shifted s')) := by
      obtain ⟨c, hc, hc2⟩ := ht.last
      have h1 : (low U).getLast? = some (toAsciiLowercase c) := by
        rw [hU2, low, List.getLast?_map, hc]; rfl
      obtain ⟨c', hc', e⟩ := low_last_some h1
      exact kana_append _ _ (cut_of_last hc' (by rw [e]; exact hc2))
    rw [hU1, hcut2] at hk
    have hlen : (kana .ime U).length = w.length := by
      have h1 := congrArg List.length (hlow_kana .ime U p.2 hU2)
      rw [List.length_map, List.length_map, hb, ← hw, List.length_map] at h1
      exact h1
    obtain ⟨hkU, hks⟩ := List.append_inj hk hlen
    rw [dashOk_append, Bool.and_eq_true] at hd
    rw [hU1]
    have rest : ∀ k', w.foldl dashNext k = k' → Spec.CanonicalUpIme k' (rom std true (shifted s')) := by
      intro k' e
      exact ih k' s' hs' hsuf' hks (by rw [← e]; exact hd.2)
    -- a character that is not converted
    have copied : ∀ c, Copied c → ¬ Spec.AsciiLetter c → p = ([c], [c]) →
        Spec.CanonicalUpIme k (U ++ rom std true (shifted s')) := by
      rintro c hc hl rfl
      have hkc : kana .ime [c] = [c] := hb
      have hUc : U = [c] := by
        obtain ⟨x, rfl⟩ : ∃ x, w = [x] := by
          cases w with
          | nil => cases hw
          | cons x w =>
            cases w with
            | nil => exact ⟨x, rfl⟩
            | cons _ _ => cases hw
        have hx : toHira x = c := by simpa using hw
        rw [← hU1, shifted_cons, hx, rom_miss (root_none hstd hc.2.2.1)]
        show [c] ++ rom std true [] = [c]
        rw [rom_nil]; rfl
      rw [hUc] at hkU ⊢
      rw [hkc] at hkU
      subst hkU
      rcases (copied_hira hc).2 with h | ⟨h1, h2⟩
      · refine .mark (c := c) ?_ ?_ ?_
        · have : ∀ c ∈ ['ヵ', 'ヶ'], c ∈ ['-', '/', 'ヵ', 'ヶ'] := by decide
          exact this c h
        · rintro rfl; exact absurd h (by decide)
        · apply rest
          have : ∀ c ∈ ['ヵ', 'ヶ'], dashNext k c = k := by cases k <;> decide
          exact this c h
      · refine .hira (u := [c]) (Or.inr ⟨c, copied_neutral hc hl, rfl⟩) ?_ ?_
        · simp only [List.mem_cons, List.not_mem_nil, or_false, not_or, List.cons.injEq, and_true, reduceCtorEq, not_false_iff, true_and]
          refine ⟨?_, ?_, ?_, ?_, ?_⟩
          · rintro rfl; exact hl (by decide)
          · rintro rfl; exact absurd hc.1 (by decide)
          · rintro rfl; exact absurd hc.1 (by decide)
          · rintro rfl; exact h1 (by decide)
          · rintro rfl; exact h1 (by decide)
        · apply rest
          show dashNext k c = false
          unfold dashNext
          rw [if_neg h1]; simp [h2]
    rcases hr with h | ⟨c, e, h | h⟩
    · -- a row of the table
      have hrow : ('ゐ' ∉ p.1 ∧ 'ゑ' ∉ p.1) ∨ (false = true ∧ 'っ' ∉ p.1) := by
        rcases hreg with hreg | ⟨c, e, hc⟩
        · have := List.all_eq_true.1 reg_tableI p h
          simpa [hreg, List.contains_eq_mem] using this
        · left
          rw [e]
          simp only [List.mem_singleton]
          constructor
          · rintro rfl; exact hc.1 (by decide)
          · rintro rfl; exact hc.1 (by decide)
      have hpiece : Spec.CanonicalPiece false p.2 := Or.inl ⟨p.1, h, hrow⟩
      have hout : p.2 ∈ outs .ime :=
        List.mem_map.2 ⟨p, List.mem_filter.2 ⟨h, by simpa [List.contains_eq_mem, obsOf] using hrow⟩, rfl⟩
      have n1 : p.2 ≠ [] := by
        intro e
        obtain ⟨c, hc, -⟩ := ht.head
        rw [e] at hc; cases hc
      have n2 : p.2 ≠ ['n'] := by
        intro e
        obtain ⟨d, hd, hd2⟩ := ht.last
        rw [e] at hd
        cases hd
        exact hd2 (by decide)
      have n3 : p.2 ≠ ['ヵ'] ∧ p.2 ≠ ['ヶ'] := by
        have : (kanaTable.all fun p => p.2 != ['ヵ'] && p.2 != ['ヶ']) = true := by decide +kernel
        have := List.all_eq_true.1 this p h
        simpa using this
      have hch := List.all_eq_true.1 outs_upI _ hout
      simp only [Bool.or_eq_true, beq_iff_eq, n1, n2, false_or, Bool.and_eq_true] at hch
      have hch2 := List.all_eq_true.1 hch.2 k (by cases k <;> simp)
      simp only [Bool.and_eq_true, Bool.or_eq_true, List.contains_eq_mem, decide_eq_true_iff, beq_iff_eq] at hch2
      -- in lower case
      have lower : U = p.2 → Spec.CanonicalUpIme k (U ++ rom std true (shifted s')) := by
        intro e
        rw [e] at hkU ⊢
        by_cases hmark : p.2 ∈ [['-'], ['/']]
        · obtain ⟨c, hc, e⟩ : ∃ c ∈ ['-', '/'], p.2 = [c] := by
            simp only [List.mem_cons, List.not_mem_nil, or_false] at hmark
            rcases hmark with e | e
            · exact ⟨'-', by decide, e⟩
            · exact ⟨'/', by decide, e⟩
          rw [e] at hkU ⊢
          have hmem : ∀ c ∈ ['-', '/'], c ∈ ['-', '/', 'ヵ', 'ヶ'] := by decide
          have hcm := List.all_eq_true.1 marks_upI c (hmem c hc)
          rw [Bool.and_eq_true] at hcm
          have h2 := List.all_eq_true.1 hcm.2 k (by cases k <;> simp)
          simp only [Bool.and_eq_true, beq_iff_eq, hkU] at h2
          refine .mark (hmem c hc) ?_ (rest _ h2.1)
          rintro rfl
          have : kana .ime ['-'] = ['ー'] := by decide +kernel
          rw [this] at hkU
          rw [← hkU] at hd
          simpa [dashOk] using hd.1
        · refine .hira hpiece ?_ (rest _ ?_)
          · simp only [List.mem_cons, List.not_mem_nil, or_false] at hmark ⊢
            rintro (h | h | h | h | h | h)
            · exact n1 h
            · exact n2 h
            · exact hmark (Or.inl h)
            · exact hmark (Or.inr h)
            · exact n3.1 h
            · exact n3.2 h
          · rw [← hkU]
            refine (hch2.1.resolve_left ?_).2
            simp only [List.mem_cons, List.not_mem_nil, or_false] at hmark ⊢
            rintro (h | h | h | h)
            · exact hmark (Or.inl h)
            · exact hmark (Or.inr h)
            · exact n3.1 h
            · exact n3.2 h
      rw [rom_row hstd h hw] at hU1
      by_cases hall : ∀ c ∈ w, Spec.Katakana c
      · rw [if_pos hall] at hU1
        have hmk := List.all_eq_true.1 outs_marksI _ hout
        simp only [Bool.or_eq_true, beq_iff_eq, Bool.not_eq_true'] at hmk
        rcases hmk with (hl | he) | hno
        · rw [← hU1] at hkU ⊢
          rw [← asciiUpper_eq]
          refine .kata hpiece (by simpa using hl) (by simp [n1, n2]) (rest _ ?_)
          rw [← hkU]
          have := hch2.2
          rw [hl] at this
          simpa using (this.resolve_left (by simp)).2
        · exact lower (by rw [← hU1, he])
        · exfalso
          rw [hU1, hkU] at hno
          have : (w.all fun c => decide (Spec.Katakana c)) = true := by simpa using hall
          rw [this] at hno
          cases hno
      · rw [if_neg hall] at hU1
        exact lower hU1.symm
    · exact copied c h.1 h.2 e
    · exfalso
      subst e
      rcases hreg with hreg | ⟨d, e, hd⟩
      · have := List.all_eq_true.1 reg_marksI c h
        rw [hreg] at this; cases this
      · cases e
        have : ∀ c ∈ latinMarks, c ∈ ['!', '(', ')', ',', '-', '.', '/', ':', '?', '[', ']', '{', '}', '~', '‘', '’', '“', '”', '\''] := by decide
        exact hd.2.2 (this c h)
  | @quote ps hg ih =>
    intro k s hs hsuf hk hd
    rw [List.map_cons, List.flatten_cons, List.singleton_append] at hs
    cases s with
    | nil => cases hs
    | cons x s' =>
      injection hs with hx hs'
      have hx := ascii_of_toHira (by decide) hx
      subst hx
      have e := rom_letter hstd true (c := '\'') (by decide) [] s'
      rw [List.nil_append, show rom std true (shifted []) = [] from rom_nil _ _, List.nil_append] at e
      rw [e] at hk ⊢
      rw [kana_quote_cons] at hk
      injection hk with _ hk
      refine .quote (ih _ s' hs' (fun l r e => hsuf ((['\''], ['\'']) :: l) r (by rw [e]; rfl)) hk ?_)
      rw [dashOk, Bool.and_eq_true] at hd
      exact hd.2
  | @letter c ps hc hkc hg ih =>
    intro k s hs hsuf hk hd
    rw [List.map_cons, List.flatten_cons, List.singleton_append] at hs
    cases s with
    | nil => cases hs
    | cons x s' =>
      injection hs with hx hs'
      have ha := lpiece_ascii (Or.inl hc)
      have hx := ascii_of_toHira ha hx
      subst hx
      have hsuf' : ∀ l r, ps = l ++ r → romH std (r.map Prod.fst).flatten = (r.map Prod.snd).flatten :=
        fun l r e => hsuf (([x], [x]) :: l) r (by rw [e]; rfl)
      have e := rom_letter hstd true ha [] s'
      rw [List.nil_append, show rom std true (shifted []) = [] from rom_nil _ _, List.nil_append] at e
      rw [e] at hk ⊢
      have hst : kana .ime (x :: rom std true (shifted s')) = x :: kana .ime (rom std true (shifted s')) := by
        apply letter_lowI ha ha _ hkc
        rw [low_cons, low_cons, low_rom, shifted_fst, hs', hsuf' [] ps rfl]
      rw [hst] at hk
      injection hk with _ hk
      refine .letter hc ((stays_ime ha _).2 hst) (ih _ s' hs' hsuf' hk ?_)
      rw [dashOk, Bool.and_eq_true] at hd
      have : dashNext k x = false := by
        unfold dashNext
        have h3 : ∀ d ∈ Spec.chain, 128 ≤ d.toNat := by decide +kernel
        rw [if_neg (fun h => by have := h3 x h; omega), decide_eq_false_iff_not]
        unfold Spec.KatakanaLetter Spec.In
        omega
      rw [← this]
      exact hd.2

/-- **C134** With `upcase_katakana`, what is canonical by the rules comes back from its kana in IME mode, with every
conforming standard library. -/
theorem C134_canonical {std : Std} (hstd : std.Lawful) (r : Str) (o o' : Options) (hup : o.upcase_katakana = true)
    (him : o'.imemode = true) (hob : o'.use_obsolete_kana = false) (h : Spec.CanonicalUpIme false r) :
    ∃ k, to_kana_with_opt std r o' = .ok k ∧ to_romaji_with_opt std k o = .ok r := by
  have hm : modeOf o' = .ime := modeOf_ime.2 ⟨him, hob⟩
  have hn := unormal_canonicalI hstd h
  rw [← hm] at hn
  refine ⟨_, to_kana_eq hstd _ _, ?_⟩
  rw [to_romaji_eq hstd, hup, flagged_shifted, hn.rom]
  intro a b e g hg
  exact dashOk_spec _ [] false hn.dash (by intro g hg; cases hg) a b e g hg

/-- **C134** Exactly which romaji are canonical with `upcase_katakana` in IME mode, if the standard library makes `to_romaji`
write ゔ and っゔ with a vowel other than u. -/
theorem C134_exact {std : Std} (hstd : std.Lawful) (r : Str) (o o' : Options) (hup : o.upcase_katakana = true)
    (him : o'.imemode = true) (hob : o'.use_obsolete_kana = false) {x y : Char}
    (hx : to_romaji_with_opt std "ゔ".toList o = .ok ['v', x]) (hxu : x ≠ 'u')
    (hy : to_romaji_with_opt std "っゔ".toList o = .ok ['v', 'v', y]) (hyu : y ≠ 'u') :
    (∃ k, to_kana_with_opt std r o' = .ok k ∧ to_romaji_with_opt std k o = .ok r) ↔ Spec.CanonicalUpIme false r := by
  refine ⟨?_, C134_canonical hstd r o o' hup him hob⟩
  have hm : modeOf o' = .ime := modeOf_ime.2 ⟨him, hob⟩
  rintro ⟨s, h2, h1⟩
  have hd := survives_dash hstd h1 h2
  rw [to_romaji_eq hstd, hup, flagged_shifted hd, Except.ok.injEq] at h1
  subst h1
  rw [to_kana_eq hstd, Except.ok.injEq, hm] at h2
  obtain ⟨ps, e0, hg, hsuf⟩ := good_upI hstd o hx hxu hy hyu hd h2
  exact good_canonicalUpI hstd hg false s e0.symm hsuf h2
    (dashOk_of s [] false (fun a b e g hg => hd a b e g hg) (by intro h; cases h))

/-- **C134** the standard libraries of Rust 1.52 and later are such libraries -/
theorem C134_rust (r : Str) (o o' : Options) (hup : o.upcase_katakana = true)
    (him : o'.imemode = true) (hob : o'.use_obsolete_kana = false) :
    ∀ std ∈ [rustStd, legacyStd],
    ((∃ k, to_kana_with_opt std r o' = .ok k ∧ to_romaji_with_opt std k o = .ok r) ↔ Spec.CanonicalUpIme false r) := by
  obtain ⟨h1, h2, h3, h4, -⟩ := C101_search { o with upcase_katakana := false } rfl
  have hf : ∀ (std : Std), std.Lawful → ∀ (s r : Str), (∀ c ∈ s, ¬ Spec.Katakana c) →
      to_romaji_with_opt std s { o with upcase_katakana := false } = .ok r → to_romaji_with_opt std s o = .ok r := by
    intro std hstd s r hs h
    rw [← C31_no_katakana hstd _ o _ hs] at h
    exact h
  intro std h
  simp only [List.mem_cons, List.not_mem_nil, or_false] at h
  rcases h with rfl | rfl
  · exact C134_exact rustStd_lawful r o o' hup him hob (hf _ rustStd_lawful _ _ (by decide) h1) (by decide)
      (hf _ rustStd_lawful _ _ (by decide) h2) (by decide)
  · exact C134_exact legacyStd_lawful r o o' hup him hob (hf _ legacyStd_lawful _ _ (by decide) h3) (by decide)
      (hf _ legacyStd_lawful _ _ (by decide) h4) (by decide)

/-- texts in both cases that are canonical, with a waiting N among them, and texts that are not: NN is ン, written N -/
example : (∀ r ∈ ["KAna".toList, "HON".toList, "NIHONgo".toList, "n'ya-, KKYA".toList, "HON-".toList],
      (to_kana_with_opt rustStd r { imemode := true } >>= fun k => to_romaji_with_opt rustStd k { upcase_katakana := true }) =
        .ok r) ∧
    (∀ r ∈ ["Ka".toList, "HONN".toList, "RA-MEN".toList, "KAヵ-".toList, "N'YA".toList],
      (to_kana_with_opt rustStd r { imemode := true } >>= fun k => to_romaji_with_opt rustStd k { upcase_katakana := true }) ≠
        .ok r) := by
  decide +kernel

/-- the rules for one of them -/
example : Spec.CanonicalUpIme false "HONka-".toList :=
  .kata (u := "ho".toList) (Or.inl ⟨"ほ".toList, by decide +kernel, Or.inl (by decide)⟩) (by decide) (by decide)
    (.letter (by decide) (by decide +kernel) (.hira (u := "ka".toList) (Or.inl ⟨"か".toList, by decide +kernel, Or.inl (by decide)⟩)
      (by decide) (.mark (by decide) (by simp) .nil)))

end WanaKana
