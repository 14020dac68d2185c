import Verif.Spec.ReadBackBoth
import Verif.Props.RoundTripLatin
import Verif.Props.RoundTrip4
/-! # C117: the trip with `upcase_katakana`, for every text -/

namespace WanaKana
open KNode RNode
open Spec (toHira kanaTable)

/-! ## texts that differ in case -/

/-- hiragana form in lower case -/
def hlow (c : Char) : Char := toAsciiLowercase (toHira c)

theorem ascii_toHira {c : Char} (h : c.toNat < 128) : toHira c = c := by
  apply char_ext
  rw [toHira_toNat]
  repeat' split
  all_goals omega

theorem hlow_low (c : Char) : hlow (toAsciiLowercase c) = hlow c := by
  by_cases h : c.toNat < 128
  · have h' : (toAsciiLowercase c).toNat < 128 := by
      rw [toAsciiLowercase_toNat]; split <;> omega
    unfold hlow
    rw [ascii_toHira h, ascii_toHira h']
    apply char_ext
    simp only [toAsciiLowercase_toNat]
    repeat' split
    all_goals omega
  · congr 1
    apply char_ext
    rw [toAsciiLowercase_toNat]
    split <;> omega

theorem out_shift : allModes (fun _ x => match x.2.output with
    | some out => decide ((out.map h2kP).map hlow = out.map hlow)
    | none => true) = true := by decide +kernel

theorem hlow_kana (m : Mode) (s s' : Str) (h : low s = low s') : (kana m s).map hlow = (kana m s').map hlow := by
  induction s using list_strong generalizing s' with
  | _ s ih =>
    have hl : s.length = s'.length := by have := congrArg List.length h; simpa using this
    cases s with
    | nil =>
      cases s' with
      | nil => rfl
      | cons _ _ => simp at hl
    | cons c s =>
      cases s' with
      | nil => simp at hl
      | cons c' s' =>
        obtain ⟨n, k, hst⟩ := exists_stops (tree m) (c :: s)
        have hst' := stops_congr_low hst h
        have hcs : toAsciiLowercase c = toAsciiLowercase c' ∧ low s = low s' := by
          simpa [low] using h
        cases ho : n.output with
        | none =>
          rw [kana_miss hst ho, kana_miss hst' ho, List.map_cons, List.map_cons, ih s (by simp) s' hcs.2]
          congr 1
          rw [← hlow_low c, hcs.1, hlow_low]
        | some out =>
          have hk := stops_pos hst ho
          have hs := allModes_walk out_shift hst.walk
          simp only [ho, decide_eq_true_iff] at hs
          have hsty : ∀ x, (styled x out).map hlow = out.map hlow := by
            intro x
            unfold styled
            split
            · exact hs
            · rfl
          rw [kana_hit hst ho, kana_hit hst' ho, List.map_append, List.map_append, hsty, hsty]
          rw [ih ((c :: s).drop k) (by simp [List.length_drop]; omega) ((c' :: s').drop k)]
          have e1 : low ((c :: s).drop k) = (low (c :: s)).drop k := List.map_drop
          have e2 : low ((c' :: s').drop k) = (low (c' :: s')).drop k := List.map_drop
          rw [e1, e2, h]

theorem low_rom (std : Std) (z : List (Char × Bool)) : low (rom std true z) = low (romH std (z.map Prod.fst)) := by
  have h := congrArg (List.map toAsciiLowercase) (rom_case std z)
  have e : ∀ l : Str, (l.map aUp).map toAsciiLowercase = low l := by
    intro l
    rw [List.map_map]
    apply List.map_congr_left
    intro c _
    apply char_ext
    simp only [Function.comp, toAsciiLowercase_toNat, aUp_toNat]
    repeat' split
    all_goals omega
  rw [e, e, rom_romH] at h
  exact h

theorem out_high : allModes (fun _ x => match x.2.output with
    | some out => out.all fun d => decide (0x80 ≤ d.toNat)
    | none => true) = true := by decide +kernel

/-- the kana of lower-case romaji has no capital letter -/
theorem kana_low_low (m : Mode) (s : Str) : (kana m (low s)).map toHira = (kana m (low s)).map hlow := by
  apply List.map_congr_left
  intro c hc
  have : ¬ (65 ≤ c.toNat ∧ c.toNat ≤ 90) := by
    rcases mem_kana_cases m _ c hc with h | ⟨_, x, _, n, out, _, _, hw, ho, h⟩
    · obtain ⟨d, _, rfl⟩ := List.mem_map.1 h
      rw [toAsciiLowercase_toNat]
      split <;> omega
    · have hs := allModes_walk out_high hw
      simp only [ho, List.all_eq_true, decide_eq_true_iff] at hs
      unfold styled at h
      split at h
      · obtain ⟨d, hd, rfl⟩ := List.mem_map.1 h
        have := hs d hd
        rw [h2kP_toNat]
        repeat' split
        all_goals omega
      · have := hs c h
        omega
  unfold hlow
  apply char_ext
  rw [toAsciiLowercase_toNat, toHira_toNat]
  repeat' split
  all_goals omega

/-! ## pieces in lower case -/

/-- a piece in lower case -/
def lowP (p : Str × Str) : Str × Str := (low p.1, low p.2)

theorem rpiece_low {p : Str × Str} (h : RPiece p) : lowP p = p := by
  rcases h with h | ⟨c, rfl, h | h⟩
  · have ht : (kanaTable.all fun p => decide (lowP p = p)) = true := by decide +kernel
    exact of_decide_eq_true (List.all_eq_true.1 ht p h)
  · have : toAsciiLowercase c = c := by
      have := h.2
      unfold Spec.AsciiLetter Spec.In at this
      apply char_ext
      rw [toAsciiLowercase_toNat]
      split <;> omega
    simp [lowP, low, this]
  · have : ∀ c ∈ latinMarks, lowP ([c], [c]) = ([c], [c]) := by decide
    exact this c h

theorem vpiece_low {x y : Char} (hx : x ∈ "aiueo".toList) (hy : y ∈ "aiueo".toList) {p : Str × Str} (h : VPiece x y p) : lowP p = p := by
  have hv : ∀ x ∈ "aiueo".toList, lowP (['ゔ'], ['v', x]) = (['ゔ'], ['v', x]) ∧
      lowP (['っ', 'ゔ'], ['v', 'v', x]) = (['っ', 'ゔ'], ['v', 'v', x]) := by decide
  rcases h with rfl | rfl
  · exact (hv x hx).1
  · exact (hv y hy).2

theorem apiece_low {x y : Char} (hx : x ∈ "aiueo".toList) (hy : y ∈ "aiueo".toList) {p : Str × Str} (h : APiece x y p) :
    APiece x y (lowP p) := by
  rcases h with h | h | ⟨c, rfl, h⟩
  · rw [rpiece_low h]; exact Or.inl h
  · rw [vpiece_low hx hy h]; exact Or.inr (Or.inl h)
  · refine Or.inr (Or.inr ⟨toAsciiLowercase c, rfl, ?_⟩)
    rcases h with h | rfl
    · left
      unfold Spec.AsciiLetter Spec.In at *
      rw [toAsciiLowercase_toNat]
      split <;> omega
    · right; decide

theorem lowP_fst (ps : List (Str × Str)) : ((ps.map lowP).map Prod.fst).flatten = low (ps.map Prod.fst).flatten := by
  unfold low
  rw [List.map_flatten, List.map_map, List.map_map]
  rfl

theorem lowP_snd (ps : List (Str × Str)) : ((ps.map lowP).map Prod.snd).flatten = low (ps.map Prod.snd).flatten := by
  unfold low
  rw [List.map_flatten, List.map_map, List.map_map]
  rfl

theorem low_cons (c : Char) (a : Str) : low (c :: a) = toAsciiLowercase c :: low a := rfl

theorem stays_low {t : Spec.Table} {c c' : Char} {a a' : Str} (h : low (c :: a) = low (c' :: a'))
    (hs : Spec.StaysLetter t c a) : Spec.StaysLetter t c' a' := by
  unfold Spec.StaysLetter at *
  rw [asciiLower_eq] at *
  have e : (c :: a).map toAsciiLowercase = (c' :: a').map toAsciiLowercase := h
  have e1 : toAsciiLowercase c = toAsciiLowercase c' ∧ a.map toAsciiLowercase = a'.map toAsciiLowercase := by simpa using e
  refine ⟨by rw [← e]; exact hs.1, fun hn => ?_⟩
  obtain ⟨d, hd, hd2⟩ := hs.2 (by rw [e1.1]; exact hn)
  have : (a'.map toAsciiLowercase).head? = some 'y' := by
    rw [← e1.2, List.head?_map, hd, Option.map_some, hd2]
  rw [List.head?_map, Option.map_eq_some_iff] at this
  exact this

theorem letter_low {m : Mode} (hm : m ≠ .ime) {c c' : Char} {a a' : Str} (hc : c.toNat < 128) (hc' : c'.toNat < 128)
    (h : low (c :: a) = low (c' :: a')) (hs : kana m (c :: a) = c :: kana m a) : kana m (c' :: a') = c' :: kana m a' :=
  (stays_iff hm hc' a').1 (stays_low h ((stays_iff hm hc a).2 hs))

/-- pieces read back in lower case are read back -/
theorem good_unlow {m : Mode} (hm : m ≠ .ime) {x y : Char} (hx : x ∈ "aiueo".toList) (hy : y ∈ "aiueo".toList)
    {qs : List (Str × Str)} (h : Good m qs) : ∀ ps : List (Str × Str), (∀ p ∈ ps, APiece x y p) → ps.map lowP = qs → Good m ps := by
  -- a piece that is its own lower case, or a letter
  have own : ∀ p q : Str × Str, APiece x y p → lowP p = q → p = q ∨ ∃ c, p = ([c], [c]) ∧ (Spec.AsciiLetter c ∨ c = '\'') ∧
      q = ([toAsciiLowercase c], [toAsciiLowercase c]) := by
    rintro p q (h | h | ⟨c, rfl, h⟩) e
    · left; rw [← e, rpiece_low h]
    · left; rw [← e, vpiece_low hx hy h]
    · right; exact ⟨c, rfl, h, e.symm⟩
  have lowA : ∀ c : Char, (Spec.AsciiLetter c ∨ c = '\'') → (Spec.AsciiLetter (toAsciiLowercase c) ∨ toAsciiLowercase c = '\'') := by
    rintro c (h | rfl)
    · left
      unfold Spec.AsciiLetter Spec.In at *
      rw [toAsciiLowercase_toNat]
      split <;> omega
    · right; decide
  induction h with
  | nil =>
    intro ps _ e
    rw [List.map_eq_nil_iff.1 e]
    exact .nil
  | trip hr ht hb hreg hg ih =>
    intro ps hp e
    obtain ⟨p, ps, rfl, e1, e2⟩ := List.map_eq_cons_iff.1 e
    have ih := ih ps (fun q hq => hp q (List.mem_cons_of_mem _ hq)) e2
    rcases own p _ (hp p List.mem_cons_self) e1 with rfl | ⟨c, rfl, hc, rfl⟩
    · exact .trip hr ht hb hreg ih
    · exfalso
      have := rpiece_ascii hr (toAsciiLowercase c) (by simp)
      rcases lowA c hc with h | h
      · exact this.1 h
      · exact this.2 h
  | nasal hd hg ih =>
    intro ps hp e
    obtain ⟨p, ps, rfl, e1, e2⟩ := List.map_eq_cons_iff.1 e
    have ih := ih ps (fun q hq => hp q (List.mem_cons_of_mem _ hq)) e2
    rcases own p _ (hp p List.mem_cons_self) e1 with rfl | ⟨c, rfl, hc, e3⟩
    · refine .nasal (fun d hd' => ?_) ih
      have := hd (toAsciiLowercase d) (by rw [← e2, lowP_snd]; unfold low; rw [List.head?_map, hd']; rfl)
      rwa [toAsciiLowercase_idem] at this
    · exfalso
      have : toAsciiLowercase c = 'ん' := by injection e3 with e3 _; injection e3 with e3 _; exact e3.symm
      rcases lowA c hc with h | h <;> rw [this] at h <;> revert h <;> decide
  | quote hg ih =>
    intro ps hp e
    obtain ⟨p, ps, rfl, e1, e2⟩ := List.map_eq_cons_iff.1 e
    have ih := ih ps (fun q hq => hp q (List.mem_cons_of_mem _ hq)) e2
    rcases own p _ (hp p List.mem_cons_self) e1 with rfl | ⟨c, rfl, hc, e3⟩
    · exact .quote ih
    · have : c = '\'' := by
        injection e3 with e3 _
        injection e3 with e3 _
        rcases hc with h | h
        · exfalso
          unfold Spec.AsciiLetter Spec.In at h
          rw [char_eq_iff, toAsciiLowercase_toNat] at e3
          simp only [Char.reduceToNat] at e3
          split at e3 <;> omega
        · exact h
      subst this
      exact .quote ih
  | letter hc hk hg ih =>
    intro ps hp e
    obtain ⟨p, ps, rfl, e1, e2⟩ := List.map_eq_cons_iff.1 e
    have ih := ih ps (fun q hq => hp q (List.mem_cons_of_mem _ hq)) e2
    rw [← e2, lowP_snd] at hk
    rcases own p _ (hp p List.mem_cons_self) e1 with rfl | ⟨c, rfl, hc', e3⟩
    · refine .letter hc (letter_low hm (lpiece_ascii (Or.inl hc)) (lpiece_ascii (Or.inl hc)) ?_ hk) ih
      simp only [low_cons, low_low]
    · injection e3 with e3 _
      injection e3 with e3 _
      subst e3
      rcases hc' with hc' | rfl
      · refine .letter hc' (letter_low hm (lpiece_ascii (Or.inl hc)) (lpiece_ascii (Or.inl hc')) ?_ hk) ih
        simp only [low_cons, low_low, toAsciiLowercase_idem]
      · exact .quote ih

/-! ## the romaji before a letter -/

/-- the last romaji character of pieces that are read back -/
theorem good_last {m : Mode} {ps : List (Str × Str)} (h : Good m ps) (hl : ∀ c ∈ (ps.map Prod.fst).flatten, ¬ Spec.AsciiLetter c) :
    ps = [] ∨ ∃ d, ((ps.map Prod.snd).flatten).getLast? = some d ∧ (toAsciiLowercase d ∉ "bcdfghjklmnpqrstvwxyz".toList ∨
      d = 'n' ∧ ((ps.map Prod.fst).flatten).getLast? = some 'ん') := by
  have app : ∀ (p : Str × Str) (ps : List (Str × Str)), Good m ps → (ps = [] ∨ ∃ d, ((ps.map Prod.snd).flatten).getLast? = some d ∧
      (toAsciiLowercase d ∉ "bcdfghjklmnpqrstvwxyz".toList ∨ d = 'n' ∧ ((ps.map Prod.fst).flatten).getLast? = some 'ん')) →
      (∃ d, p.2.getLast? = some d ∧ (toAsciiLowercase d ∉ "bcdfghjklmnpqrstvwxyz".toList ∨
        d = 'n' ∧ p.1.getLast? = some 'ん')) →
      ∃ d, (((p :: ps).map Prod.snd).flatten).getLast? = some d ∧ (toAsciiLowercase d ∉ "bcdfghjklmnpqrstvwxyz".toList ∨
        d = 'n' ∧ (((p :: ps).map Prod.fst).flatten).getLast? = some 'ん') := by
    intro p ps hg h1 h2
    rw [List.map_cons, List.flatten_cons, List.map_cons, List.flatten_cons]
    rcases h1 with rfl | ⟨d, hd, h1⟩
    · simpa using h2
    · refine ⟨d, ?_, ?_⟩
      · rw [getLast?_append_ne _ (by intro e; rw [e] at hd; cases hd)]
        exact hd
      · rcases h1 with h1 | ⟨h1, h3⟩
        · exact Or.inl h1
        · right
          refine ⟨h1, ?_⟩
          rw [getLast?_append_ne _ (by intro e; rw [e] at h3; cases h3)]
          exact h3
  induction h with
  | nil => exact Or.inl rfl
  | trip _ ht _ _ hg ih =>
    right
    have ih := ih fun c hc => hl c (by rw [List.map_cons, List.flatten_cons]; exact List.mem_append_right _ hc)
    obtain ⟨d, hd, hd2⟩ := ht.last
    exact app _ _ hg ih ⟨d, hd, Or.inl hd2⟩
  | nasal _ hg ih =>
    right
    have ih := ih fun c hc => hl c (by rw [List.map_cons, List.flatten_cons]; exact List.mem_append_right _ hc)
    exact app _ _ hg ih ⟨'n', rfl, Or.inr ⟨rfl, rfl⟩⟩
  | quote hg ih =>
    right
    have ih := ih fun c hc => hl c (by rw [List.map_cons, List.flatten_cons]; exact List.mem_append_right _ hc)
    exact app _ _ hg ih ⟨'\'', rfl, Or.inl (by decide)⟩
  | letter hc _ _ _ =>
    exact absurd hc (hl _ (by simp))

theorem n_cut : allModes (fun m x => decide (m = .ime) || x.1.getLast? != some 'n' ||
    x.2.transitions.all fun t => ['a', 'i', 'u', 'e', 'o', 'y', '\''].contains t.1) = true := by decide +kernel

/-- romaji is cut before a letter that does not continue it -/
theorem cut_letter {m : Mode} (hm : m ≠ .ime) {a t : Str} {c d : Char} (hd : a.getLast? = some d)
    (h : toAsciiLowercase d ∉ "bcdfghjklmnpqrstvwxyz".toList ∨ toAsciiLowercase d = 'n' ∧
      toAsciiLowercase c ∉ ['a', 'i', 'u', 'e', 'o', 'y', '\'']) : Cut m a (c :: t) := by
  rcases h with h | ⟨hn, hc⟩
  · exact cut_of_last hd h
  · intro a1 a2 n e hne hw c' hc'
    have : c = c' := by simpa using hc'
    subst this
    have hl2 : a2.getLast? = some d := by rw [← hd, e, getLast?_append_ne _ hne]
    have hlast : (low a2).getLast? = some 'n' := by rw [low, List.getLast?_map, hl2, Option.map_some, hn]
    have := allModes_walk n_cut hw
    simp only [Bool.or_eq_true, decide_eq_true_iff, bne_iff_ne, List.all_eq_true, List.contains_iff_mem] at this
    have := this.resolve_left (by
      rintro (h | h)
      · exact hm h
      · exact h hlast)
    cases hf : n.find_transition_node (toAsciiLowercase c) with
    | none => rfl
    | some n' =>
      exfalso
      exact hc (this _ (find_mem hf))

theorem governing_append {x a : Str} {g : Char} (h : Spec.governing a = some g) : Spec.governing (x ++ a) = some g := by
  unfold Spec.governing at *
  rw [List.reverse_append, List.dropWhile_append]
  split
  · next h' =>
    rw [List.isEmpty_iff] at h'
    rw [h'] at h; cases h
  · rw [List.head?_append, h]; rfl

theorem shifted_cons (c : Char) (s : Str) : shifted (c :: s) = (toHira c, decide (Spec.Katakana c)) :: shifted s := rfl

theorem flagged_shifted {std : Std} {s : Str}
    (h : ∀ a b, s = a ++ 'ー' :: b → ∀ g, Spec.governing a = some g → ¬ Spec.KatakanaLetter g) : flagged std s = shifted s := by
  unfold flagged shifted
  rw [k2hP_unprolonged (fun a b g e => h a b e g)]
  clear h
  induction s with
  | nil => rfl
  | cons c s ih =>
    rw [List.map_cons, List.map_cons, List.zip_cons_cons, ih, List.map_cons]
    congr 2
    rw [Bool.eq_iff_iff, is_char_katakana_iff, decide_eq_true_iff, specKatakana_iff]

theorem key_ascii {c : Char} (h : c.toNat < 128) : romajiKey c = false := by
  cases hk : romajiKey c with
  | false => rfl
  | true =>
    exfalso
    rw [romajiKey_iff] at hk
    simp only [List.mem_cons, List.not_mem_nil, or_false] at hk
    omega

theorem rom_letter {std : Std} (hstd : std.Lawful) (up : Bool) {c : Char} (hc : c.toNat < 128) (l s : Str) :
    rom std up (shifted (l ++ c :: s)) = rom std up (shifted l) ++ c :: rom std up (shifted s) := by
  rw [shifted_append, rom_append_pair hstd, shifted_cons, ascii_toHira hc, rom_miss (root_none hstd (key_ascii hc))]
  intro x y _ hy
  have : y.1 = c := by
    rw [shifted_cons, List.head?_cons, Option.some.injEq] at hy
    rw [← hy]
    exact ascii_toHira hc
  unfold pairOk
  rw [this, key_ascii hc, Bool.false_and]

theorem romH_letter {std : Std} (hstd : std.Lawful) {c : Char} (hc : c.toNat < 128) (l s : Str) :
    romH std (l.map toHira ++ c :: s.map toHira) = romH std (l.map toHira) ++ c :: romH std (s.map toHira) := by
  have h := rom_letter hstd false hc l s
  rw [rom_romH, rom_romH, rom_romH, shifted_fst, shifted_fst, shifted_fst, List.map_append, List.map_cons, ascii_toHira hc] at h
  exact h

/-- pieces around the first letter or apostrophe -/
theorem good_split {m : Mode} {ps : List (Str × Str)} (h : Good m ps) {c : Char} (hc : Spec.AsciiLetter c ∨ c = '\'') {b : Str} :
    ∀ l, (ps.map Prod.fst).flatten = l ++ c :: b → (∀ d ∈ l, ¬ Spec.AsciiLetter d ∧ d ≠ '\'') →
    ∃ l' r', ps = l' ++ ([c], [c]) :: r' ∧ (l'.map Prod.fst).flatten = l ∧ (r'.map Prod.fst).flatten = b ∧ Good m l' ∧ Good m r' ∧
      kana m (c :: (r'.map Prod.snd).flatten) = c :: kana m (r'.map Prod.snd).flatten := by
  have pre : ∀ {p F l : Str}, p ++ F = l ++ c :: b → c ∉ p → ∃ l2, l = p ++ l2 ∧ F = l2 ++ c :: b := by
    intro p F l h hc
    rcases List.append_eq_append_iff.1 h with ⟨a', h1, h2⟩ | ⟨c', h1, h2⟩
    · exact ⟨a', h1, h2⟩
    · cases c' with
      | nil => exact ⟨[], by simpa using h1.symm, h2.symm⟩
      | cons d c' =>
        injection h2 with e _
        subst e
        exact absurd (by rw [h1]; simp) hc
  induction h with
  | nil => intro l h; have := congrArg List.length h; simp at this
  | trip hr ht hb hreg hg ih =>
    intro l h hl
    rw [List.map_cons, List.flatten_cons] at h
    obtain ⟨l2, rfl, h2⟩ := pre h (by
      intro hm
      have := rpiece_ascii hr c hm
      rcases hc with h | h
      · exact this.1 h
      · exact this.2 h)
    obtain ⟨l', r', rfl, e1, e2, g1, g2, e3⟩ := ih l2 h2 fun d hd => hl d (List.mem_append_right _ hd)
    refine ⟨_ :: l', r', rfl, ?_, e2, .trip hr ht hb hreg g1, g2, e3⟩
    rw [List.map_cons, List.flatten_cons, e1]
  | nasal hd hg ih =>
    intro l h hl
    rw [List.map_cons, List.flatten_cons] at h
    obtain ⟨l2, rfl, h2⟩ := pre h (by
      intro hm
      rw [List.mem_singleton.1 hm] at hc
      revert hc; decide)
    obtain ⟨l', r', rfl, e1, e2, g1, g2, e3⟩ := ih l2 h2 fun d hd => hl d (List.mem_append_right _ hd)
    refine ⟨_ :: l', r', rfl, ?_, e2, .nasal (fun d hd' => hd d ?_) g1, g2, e3⟩
    · rw [List.map_cons, List.flatten_cons, e1]
    · rw [List.map_append, List.flatten_append, List.head?_append, hd']; rfl
  | quote hg ih =>
    rename_i ps
    intro l h hl
    rw [List.map_cons, List.flatten_cons] at h
    cases l with
    | nil =>
      injection h with e h
      subst e
      exact ⟨[], ps, rfl, rfl, h, .nil, hg, kana_quote_cons _ _⟩
    | cons d l =>
      injection h with e h
      exact absurd e.symm (hl d List.mem_cons_self).2
  | letter hc' hk hg ih =>
    rename_i c' ps
    intro l h hl
    rw [List.map_cons, List.flatten_cons] at h
    cases l with
    | nil =>
      injection h with e h
      subst e
      exact ⟨[], ps, rfl, rfl, h, .nil, hg, hk⟩
    | cons d l =>
      injection h with e h
      subst e
      exact absurd hc' (hl _ List.mem_cons_self).1

theorem good_no_vu {m : Mode} (hm : m ≠ .ime) {std : Std} (hstd : std.Lawful) {ps : List (Str × Str)} (h : Good m ps) :
    'ゔ' ∉ (ps.map Prod.fst).flatten := by
  obtain ⟨ws, e, hw⟩ := good_words h
  rw [e]
  intro hv
  obtain ⟨w, h1, h2⟩ := List.mem_flatten.1 hv
  rcases hw w h1 with h | ⟨c, hc, rfl⟩
  · exact (piece_no_vu hm hstd h).1 h2
  · rw [← List.mem_singleton.1 h2] at hc
    revert hc; decide

/-- romaji of a text before a letter -/
theorem cut_text {m : Mode} (hm : m ≠ .ime) {std : Std} {l : Str} {ps : List (Str × Str)} (hg : Good m ps)
    (e1 : (ps.map Prod.fst).flatten = l.map toHira) (e2 : romH std (l.map toHira) = (ps.map Prod.snd).flatten)
    (hl : ∀ c ∈ l, ¬ Spec.AsciiLetter c) {c : Char} (t : Str)
    (hc : ∀ a x, l = a ++ [x] → toHira x = 'ん' → toAsciiLowercase c ∉ ['a', 'i', 'u', 'e', 'o', 'y', '\'']) :
    Cut m (rom std true (shifted l)) (c :: t) := by
  have hlow := low_rom std (shifted l)
  rw [shifted_fst, e2] at hlow
  rcases good_last hg (by
    rw [e1]
    intro d hd
    obtain ⟨d', hd', rfl⟩ := List.mem_map.1 hd
    have := hl d' hd'
    unfold Spec.AsciiLetter Spec.In at *
    rw [toHira_toNat]
    repeat' split
    all_goals omega) with rfl | ⟨d, hd, h⟩
  · have : rom std true (shifted l) = [] := low_eq_nil hlow
    rw [this]
    intro a1 a2 n e hne
    exact absurd (List.append_eq_nil_iff.1 e.symm).2 hne
  · have h1 : (low (rom std true (shifted l))).getLast? = some (toAsciiLowercase d) := by
      rw [hlow, low, List.getLast?_map, hd]; rfl
    obtain ⟨d', hd', e⟩ := low_last_some h1
    apply cut_letter hm hd'
    rw [e]
    rcases h with h | ⟨rfl, h⟩
    · exact Or.inl h
    · right
      refine ⟨rfl, ?_⟩
      rw [e1, List.getLast?_map, Option.map_eq_some_iff] at h
      obtain ⟨x, hx, hx2⟩ := h
      obtain ⟨a, ha⟩ := List.getLast?_eq_some_iff.1 hx
      exact hc a x ha hx2

theorem split_first (p : Char → Bool) (s : Str) : (∀ c ∈ s, p c = false) ∨ ∃ l c r, s = l ++ c :: r ∧ (∀ c ∈ l, p c = false) ∧ p c = true := by
  induction s with
  | nil => left; simp
  | cons c s ih =>
    cases hc : p c with
    | true => exact Or.inr ⟨[], c, s, rfl, by simp, hc⟩
    | false =>
      rcases ih with h | ⟨l, d, r, rfl, h, hd⟩
      · left
        intro d hd
        rcases List.mem_cons.1 hd with rfl | hd
        · exact hc
        · exact h d hd
      · refine Or.inr ⟨c :: l, d, r, rfl, ?_, hd⟩
        intro e he
        rcases List.mem_cons.1 he with rfl | he
        · exact hc
        · exact h e he

/-- a letter or an apostrophe -/
def latin (c : Char) : Bool := decide (Spec.AsciiLetter c ∨ c = '\'')

/-- ん before a vowel or y-kana, across a letter -/
theorem nasal_join {l s : Str} {c : Char} (hc : c.toNat < 128)
    (h1 : ∀ a x y b, l = a ++ x :: y :: b → toHira x = 'ん' → toHira y ∈ Spec.vowelOrY → x = 'ん' ∧ ¬ Spec.Katakana y)
    (h2 : ∀ a x y b, s = a ++ x :: y :: b → toHira x = 'ん' → toHira y ∈ Spec.vowelOrY → x = 'ん' ∧ ¬ Spec.Katakana y) :
    ∀ a x y b, l ++ c :: s = a ++ x :: y :: b → toHira x = 'ん' → toHira y ∈ Spec.vowelOrY → x = 'ん' ∧ ¬ Spec.Katakana y := by
  have hcn : toHira c ≠ 'ん' ∧ toHira c ∉ Spec.vowelOrY := by
    rw [ascii_toHira hc]
    constructor
    · rintro rfl; revert hc; decide
    · intro h
      have : ∀ d ∈ Spec.vowelOrY, 128 ≤ d.toNat := by decide
      have := this c h
      omega
  induction l with
  | nil =>
    intro a x y b e hx hy
    cases a with
    | nil =>
      injection e with e _
      subst e
      exact absurd hx hcn.1
    | cons d a =>
      injection e with _ e
      exact h2 a x y b e hx hy
  | cons d l ih =>
    intro a x y b e hx hy
    cases a with
    | nil =>
      injection e with e1 e
      subst e1
      cases l with
      | nil =>
        injection e with e _
        subst e
        exact absurd hy hcn.2
      | cons d' l =>
        injection e with e _
        subst e
        exact h1 [] _ _ l rfl hx hy
    | cons d' a =>
      injection e with _ e
      exact ih (fun a x y b e => h1 (d :: a) x y b (by rw [e]; rfl)) a x y b e hx hy

/-- a text that comes back is made of words -/
theorem words_up {std : Std} (hstd : std.Lawful) (o o' : Options) (hup : o.upcase_katakana = true)
    (hime : o'.imemode = true → o'.use_obsolete_kana = true) : ∀ (n : Nat) (s : Str) (ps : List (Str × Str)), s.length ≤ n →
    Good (modeOf o') ps → (ps.map Prod.fst).flatten = s.map toHira →
    (∀ l r, ps = l ++ r → romH std (r.map Prod.fst).flatten = (r.map Prod.snd).flatten) →
    (∀ a b, s = a ++ 'ー' :: b → ∀ g, Spec.governing a = some g → ¬ Spec.KatakanaLetter g) →
    (∀ a x d b, s = a ++ x :: d :: b → toHira x = 'ん' → d ∉ ['y', 'Y', '\'']) →
    kana (modeOf o') (rom std true (shifted s)) = s →
    (∃ ws : List Str, s = ws.flatten ∧ ∀ w ∈ ws, Spec.RegularPiece true o'.use_obsolete_kana w ∨ Spec.LatinPiece w) ∧
    ∀ a x y b, s = a ++ x :: y :: b → toHira x = 'ん' → toHira y ∈ Spec.vowelOrY → x = 'ん' ∧ ¬ Spec.Katakana y := by
  have hm := modeOf_ne_ime hime
  -- a text without letters
  have plain : ∀ l : Str, (∀ c ∈ l, latin c = false) → 'ゔ' ∉ l.map toHira →
      (∀ a b, l = a ++ 'ー' :: b → ∀ g, Spec.governing a = some g → ¬ Spec.KatakanaLetter g) →
      kana (modeOf o') (rom std true (shifted l)) = l →
      (∃ ws : List Str, l = ws.flatten ∧ ∀ w ∈ ws, Spec.RegularPiece true o'.use_obsolete_kana w) ∧
      ∀ a x y b, l = a ++ x :: y :: b → toHira x = 'ん' → toHira y ∈ Spec.vowelOrY → x = 'ん' ∧ ¬ Spec.Katakana y := by
    intro l hl hv hd hk
    have := (C85_exact hstd l o o' hup hime (fun c hc => by
      have := hl c hc
      simp only [latin, decide_eq_false_iff_not, not_or] at this
      exact ⟨this.1, this.2, fun h => hv (by rw [← h]; exact List.mem_map_of_mem hc)⟩)).1
        ⟨_, by rw [to_romaji_eq hstd, hup, flagged_shifted hd], by rw [to_kana_eq hstd, hk]⟩
    exact ⟨this.1, this.2.1⟩
  intro n
  induction n with
  | zero =>
    intro s ps hlen _ _ _ _ _ _
    have : s = [] := List.length_eq_zero_iff.1 (by omega)
    subst this
    refine ⟨⟨[], rfl, by simp⟩, ?_⟩
    intro a x y b e
    have := congrArg List.length e
    simp at this
  | succ n ih =>
    intro s ps hlen hg e0 hsuf hd hopen hk
    have hv := good_no_vu hm hstd hg
    rw [e0] at hv
    rcases split_first latin s with h | ⟨l, c, r, rfl, hl, hc⟩
    · obtain ⟨⟨ws, e, hw⟩, hn⟩ := plain s h hv hd hk
      exact ⟨⟨ws, e, fun w hw' => Or.inl (hw w hw')⟩, hn⟩
    · have hc : Spec.AsciiLetter c ∨ c = '\'' := of_decide_eq_true hc
      have hasc := lpiece_ascii hc
      have hl' : ∀ d ∈ l, ¬ Spec.AsciiLetter d ∧ d ≠ '\'' := by
        intro d hd
        have := hl d hd
        simp only [latin, decide_eq_false_iff_not, not_or] at this
        exact this
      rw [List.map_append, List.map_cons, ascii_toHira hasc] at e0
      obtain ⟨l', r', rfl, e1, e2, g1, g2, e3⟩ := good_split hg hc (l.map toHira) e0 (by
        intro d hd
        obtain ⟨d', hd', rfl⟩ := List.mem_map.1 hd
        obtain ⟨h1, h2⟩ := hl' d' hd'
        constructor
        · unfold Spec.AsciiLetter Spec.In at *
          rw [toHira_toNat]
          repeat' split
          all_goals omega
        · intro h
          apply h2
          rw [char_eq_iff, toHira_toNat] at h
          apply char_ext
          simp only [Char.reduceToNat] at *
          repeat' split at h
          all_goals omega)
      have hr' := hsuf (l' ++ [([c], [c])]) r' (by simp)
      rw [e2] at hr'
      have hall := hsuf [] (l' ++ ([c], [c]) :: r') rfl
      rw [e0, romH_letter hstd hasc, hr', List.map_append, List.flatten_append, List.map_cons, List.flatten_cons,
        List.singleton_append] at hall
      have hrl : romH std (l.map toHira) = (l'.map Prod.snd).flatten := List.append_cancel_right hall
      have hlowr := low_rom std (shifted r)
      rw [shifted_fst, hr'] at hlowr
      have hstay : kana (modeOf o') (c :: rom std true (shifted r)) = c :: kana (modeOf o') (rom std true (shifted r)) :=
        letter_low hm hasc hasc (by rw [low_cons, low_cons, hlowr]) e3
      have hcut := cut_text hm g1 e1 hrl (fun d hd => (hl' d hd).1) (c := c) (rom std true (shifted r)) (by
        intro a x e hx hmem
        have hny := hopen a x c r (by rw [e]; simp) hx
        have hcases : toAsciiLowercase c ∈ "aiueo".toList ∨ c ∈ ['y', 'Y', '\''] := by
          simp only [String.reduceToList, List.mem_cons, List.not_mem_nil, or_false, char_eq_iff, toAsciiLowercase_toNat, Char.reduceToNat] at hmem ⊢
          split at hmem <;> split <;> omega
        rcases hcases with hv | hv
        · exact vowel_not_stays hm hv ((stays_iff hm hasc _).2 hstay)
        · exact hny hv)
      rw [rom_letter hstd true hasc, kana_append _ _ hcut, hstay] at hk
      have hlen2 : (kana (modeOf o') (rom std true (shifted l))).length = l.length := by
        have h1 := congrArg List.length (hlow_kana (modeOf o') _ _ (low_rom std (shifted l)))
        rw [shifted_fst, hrl, good_kana hm g1, e1] at h1
        simpa using h1
      obtain ⟨k1, k2⟩ := List.append_inj hk hlen2
      injection k2 with _ k2
      obtain ⟨⟨ws, ew, hw⟩, hn1⟩ := plain l hl (fun h => hv (by rw [List.map_append]; exact List.mem_append_left _ h))
        (fun a b e => hd a (b ++ c :: r) (by rw [e]; simp)) k1
      obtain ⟨⟨vs, ev, hv'⟩, hn2⟩ := ih r r' (by simp at hlen; omega) g2 e2
        (fun a b e => hsuf (l' ++ ([c], [c]) :: a) b (by rw [e]; simp))
        (fun a b e g hg => hd (l ++ c :: a) b (by rw [e]; simp) g (by
          rw [show l ++ c :: a = (l ++ [c]) ++ a by simp]
          exact governing_append hg))
        (fun a x d b e => hopen (l ++ c :: a) x d b (by rw [e]; simp)) k2
      refine ⟨⟨ws ++ [c] :: vs, by rw [List.flatten_append, List.flatten_cons, ← ew, ← ev]; rfl, ?_⟩, nasal_join hasc hn1 hn2⟩
      intro w hw'
      rcases List.mem_append.1 hw' with h | h
      · exact Or.inl (hw w h)
      · rcases List.mem_cons.1 h with rfl | h
        · exact Or.inr ⟨c, hc, rfl⟩
        · exact hv' w h

theorem regular_no_letter {m : Mode} (hm : m ≠ .ime) {w : Str} (h : Spec.RegularPiece true (obsOf m) w) :
    ∀ c ∈ w, ¬ Spec.AsciiLetter c := by
  rcases h with h | ⟨_, h, hh, rfl⟩ | h | h
  · exact regular_not_letter hm (Or.inl h)
  · intro c hc
    obtain ⟨d, hd, rfl⟩ := List.mem_map.1 hc
    have := regular_not_letter hm (Or.inl hh) d hd
    unfold Spec.AsciiLetter Spec.In at *
    rw [toKata_toNat]
    repeat' split
    all_goals omega
  · exact regular_not_letter hm (Or.inr (Or.inr (Or.inl h)))
  · exact regular_not_letter hm (Or.inr (Or.inr (Or.inr h)))

/-- a text that comes back is made of pieces that are read back in lower case -/
theorem good_up {std : Std} (hstd : std.Lawful) {m : Mode} (hm : m ≠ .ime) (o : Options) {x y : Char}
    (hx : to_romaji_with_opt std "ゔ".toList o = .ok ['v', x]) (hxu : x ≠ 'u')
    (hy : to_romaji_with_opt std "っゔ".toList o = .ok ['v', 'v', y]) (hyu : y ≠ 'u') {s : Str}
    (hs : ∀ a b, s = a ++ 'ー' :: b → ∀ g, Spec.governing a = some g → ¬ Spec.KatakanaLetter g)
    (hk : kana m (rom std true (shifted s)) = s) : ∃ ps : List (Str × Str), (ps.map Prod.fst).flatten = s.map toHira ∧
      Good m ps ∧ ∀ l r, ps = l ++ r → romH std (r.map Prod.fst).flatten = (r.map Prod.snd).flatten := by
  have hx' : to_romaji_with_opt std "ゔ".toList { o with upcase_katakana := false } = .ok ['v', x] := by
    rw [← C31_no_katakana hstd _ o _ (by decide)]; exact hx
  have hy' : to_romaji_with_opt std "っゔ".toList { o with upcase_katakana := false } = .ok ['v', 'v', y] := by
    rw [← C31_no_katakana hstd _ o _ (by decide)]; exact hy
  obtain ⟨hxv, hyv, ps, e0, hps, hsuf⟩ := text_pieces hstd s { o with upcase_katakana := false } rfl hx' hxu hy' hyu
  rw [k2hP_unprolonged (fun a b g e => hs a b e g)] at e0
  refine ⟨ps, e0.symm, ?_, hsuf⟩
  refine good_unlow hm hxv hyv (qs := ps.map lowP) ?_ ps hps rfl
  apply good_of hm hxv hyv hxu hyu
  · intro q hq
    obtain ⟨p, hp, rfl⟩ := List.mem_map.1 hq
    exact apiece_low hxv hyv (hps p hp)
  · have h1 := low_rom std (shifted s)
    rw [shifted_fst, e0, hsuf [] ps rfl] at h1
    rw [lowP_snd, lowP_fst, kana_low_low, hlow_kana m (low _) (rom std true (shifted s)) (by rw [low_low, h1]), hk,
      ← e0, low, List.map_map]
    rfl

/-- **C117** Exactly which texts survive the trip with `upcase_katakana`, if the standard library makes `to_romaji` write
ゔ and っゔ with a vowel other than u. -/
theorem C117_exact {std : Std} (hstd : std.Lawful) (s : Str) (o o' : Options) (hup : o.upcase_katakana = true)
    (hime : o'.imemode = true → o'.use_obsolete_kana = true) {x y : Char}
    (hx : to_romaji_with_opt std "ゔ".toList o = .ok ['v', x]) (hxu : x ≠ 'u')
    (hy : to_romaji_with_opt std "っゔ".toList o = .ok ['v', 'v', y]) (hyu : y ≠ 'u') :
    (∃ r, to_romaji_with_opt std s o = .ok r ∧ to_kana_with_opt std r o' = .ok s) ↔
    Spec.ReadBackBoth (Spec.tableFor o'.use_obsolete_kana o'.imemode) o'.use_obsolete_kana
      (fun b t => to_romaji_with_opt std b o = .ok t) s := by
  have hm := modeOf_ne_ime hime
  have hrom : ∀ s, (∀ a b, s = a ++ 'ー' :: b → ∀ g, Spec.governing a = some g → ¬ Spec.KatakanaLetter g) →
      to_romaji_with_opt std s o = .ok (rom std true (shifted s)) := by
    intro s hs
    rw [to_romaji_eq hstd, hup, flagged_shifted hs]
  have good := fun s => good_up (s := s) hstd hm o hx hxu hy hyu
  rw [tableFor_eq]
  constructor
  · rintro ⟨r, h1, h2⟩
    have hd := survives_dash hstd h1 h2
    rw [hrom s hd, Except.ok.injEq] at h1
    subst h1
    rw [to_kana_eq hstd, Except.ok.injEq] at h2
    obtain ⟨ps, e0, hg, hsuf⟩ := good s hd h2
    have hopen : ∀ a x d b, s = a ++ x :: d :: b → toHira x = 'ん' → d ∉ ['y', 'Y', '\''] := by
      intro a x d b e hx hmem
      have hd : toHira d = d := by
        have : ∀ d ∈ ['y', 'Y', '\''], toHira d = d := by decide
        exact this d hmem
      exact good_nasal hg (a.map toHira) d (b.map toHira) (by rw [e0, e]; simp [hx, hd]) hmem
    obtain ⟨hw, hn⟩ := words_up hstd o o' hup hime _ s ps (Nat.le_refl _) hg e0 hsuf hd hopen h2
    refine ⟨hw, hn, hd, hopen, ?_⟩
    intro a c b t e hc ht
    have hasc := lpiece_ascii (Or.inl hc)
    have hdb : ∀ a b', b = a ++ 'ー' :: b' → ∀ g, Spec.governing a = some g → ¬ Spec.KatakanaLetter g := by
      intro a' b' e' g hg
      refine hd (a ++ c :: a') b' (by rw [e, e']; simp) g ?_
      rw [show a ++ c :: a' = (a ++ [c]) ++ a' by simp]
      exact governing_append hg
    obtain ⟨l, r, e1, e2, e3⟩ := good_letter hg hc (a.map toHira) (b := b.map toHira) (by
      rw [e0, e, List.map_append, List.map_cons, ascii_toHira hasc])
    rw [hrom b hdb, Except.ok.injEq] at ht
    subst ht
    have hr := hsuf (l ++ [([c], [c])]) r (by rw [e1]; simp)
    rw [e2] at hr
    apply (stays_iff hm hasc _).2
    apply letter_low hm hasc hasc _ e3
    rw [low_cons, low_cons, low_rom, shifted_fst, hr]
  · rintro ⟨⟨ws, rfl, hw⟩, hn, hd, hopen, hl⟩
    have main : ∀ (n : Nat) (ws : List Str), ws.length ≤ n →
        (∀ w ∈ ws, Spec.RegularPiece true o'.use_obsolete_kana w ∨ Spec.LatinPiece w) →
        (∀ a x y b, ws.flatten = a ++ x :: y :: b → toHira x = 'ん' → toHira y ∈ Spec.vowelOrY → x = 'ん' ∧ ¬ Spec.Katakana y) →
        (∀ a b, ws.flatten = a ++ 'ー' :: b → ∀ g, Spec.governing a = some g → ¬ Spec.KatakanaLetter g) →
        (∀ a x d b, ws.flatten = a ++ x :: d :: b → toHira x = 'ん' → d ∉ ['y', 'Y', '\'']) →
        (∀ a c b t, ws.flatten = a ++ c :: b → Spec.AsciiLetter c → to_romaji_with_opt std b o = .ok t →
          Spec.StaysLetter (tableOf (modeOf o')) c t) →
        kana (modeOf o') (rom std true (shifted ws.flatten)) = ws.flatten := by
      intro n
      induction n with
      | zero =>
        intro ws hlen _ _ _ _ _
        have : ws = [] := List.length_eq_zero_iff.1 (by omega)
        subst this
        show kana (modeOf o') (rom std true []) = []
        rw [rom_nil, kana_nil]
      | succ n ih =>
        intro ws hlen hw hn hd hopen hl
        have plain : ∀ l : List Str, (∀ w ∈ l, Spec.RegularPiece true o'.use_obsolete_kana w) →
            (∀ a x y b, l.flatten = a ++ x :: y :: b → toHira x = 'ん' → toHira y ∈ Spec.vowelOrY → x = 'ん' ∧ ¬ Spec.Katakana y) →
            (∀ a b, l.flatten = a ++ 'ー' :: b → ∀ g, Spec.governing a = some g → ¬ Spec.KatakanaLetter g) →
            kana (modeOf o') (rom std true (shifted l.flatten)) = l.flatten := by
          intro l h1 h2 h3
          obtain ⟨r', k1, k2⟩ := C57_roundtrip_both hstd o o' hup hime l h1 h2 h3
          rw [hrom _ h3, Except.ok.injEq] at k1
          subst k1
          rw [to_kana_eq hstd, Except.ok.injEq] at k2
          exact k2
        rcases split_latin ws hw with h | ⟨l, c, r, rfl, hlreg, hc⟩
        · exact plain ws h hn hd
        · have efl : (l ++ [c] :: r).flatten = l.flatten ++ c :: r.flatten := by
            rw [List.flatten_append, List.flatten_cons]; rfl
          rw [efl] at hn hd hopen hl ⊢
          have hasc := lpiece_ascii hc
          have hdr : ∀ a b, r.flatten = a ++ 'ー' :: b → ∀ g, Spec.governing a = some g → ¬ Spec.KatakanaLetter g := by
            intro a' b' e' g hg
            refine hd (l.flatten ++ c :: a') b' (by rw [e']; simp) g ?_
            rw [show l.flatten ++ c :: a' = (l.flatten ++ [c]) ++ a' by simp]
            exact governing_append hg
          have hdl : ∀ a b, l.flatten = a ++ 'ー' :: b → ∀ g, Spec.governing a = some g → ¬ Spec.KatakanaLetter g :=
            fun a b e => hd a (b ++ c :: r.flatten) (by rw [e]; simp)
          have ihr := ih r (by simp at hlen; omega) (fun w hw' => hw w (by simp [hw']))
            (fun a x y b e => hn (l.flatten ++ c :: a) x y b (by rw [e]; simp)) hdr
            (fun a x d b e => hopen (l.flatten ++ c :: a) x d b (by rw [e]; simp))
            (fun a c' b t e => hl (l.flatten ++ c :: a) c' b t (by rw [e]; simp))
          have hlk := plain l hlreg (fun a x y b e => hn a x y (b ++ c :: r.flatten) (by rw [e]; simp)) hdl
          have hstay : kana (modeOf o') (c :: rom std true (shifted r.flatten)) = c :: kana (modeOf o') (rom std true (shifted r.flatten)) := by
            rcases hc with hc | rfl
            · apply (stays_iff hm hasc _).1
              exact hl l.flatten c r.flatten _ rfl hc (hrom _ hdr)
            · exact kana_quote_cons _ _
          obtain ⟨ps, e0, hg, hsuf⟩ := good l.flatten hdl hlk
          have hrl := hsuf [] ps rfl
          rw [e0] at hrl
          have hcut := cut_text hm hg e0 hrl (fun d hd => by
              obtain ⟨w, h1, h2⟩ := List.mem_flatten.1 hd
              exact regular_no_letter hm (by rw [obsOf_modeOf]; exact hlreg w h1) d h2)
            (c := c) (rom std true (shifted r.flatten)) (by
            intro a x e hx hmem
            have hny := hopen a x c r.flatten (by rw [e]; simp) hx
            have hcases : toAsciiLowercase c ∈ "aiueo".toList ∨ c ∈ ['y', 'Y', '\''] := by
              simp only [String.reduceToList, List.mem_cons, List.not_mem_nil, or_false, char_eq_iff, toAsciiLowercase_toNat, Char.reduceToNat] at hmem ⊢
              split at hmem <;> split <;> omega
            rcases hcases with hv | hv
            · exact vowel_not_stays hm hv ((stays_iff hm hasc _).2 hstay)
            · exact hny hv)
          rw [rom_letter hstd true hasc, kana_append _ _ hcut, hstay, hlk, ihr]
    refine ⟨_, hrom _ hd, ?_⟩
    rw [to_kana_eq hstd, main _ ws (Nat.le_refl _) hw hn hd hopen hl]

/-- **C117** the standard libraries of Rust 1.52 and later are such libraries -/
theorem C117_rust (s : Str) (o o' : Options) (hup : o.upcase_katakana = true)
    (hime : o'.imemode = true → o'.use_obsolete_kana = true) :
    ∀ std ∈ [rustStd, legacyStd],
    ((∃ r, to_romaji_with_opt std s o = .ok r ∧ to_kana_with_opt std r o' = .ok s) ↔
    Spec.ReadBackBoth (Spec.tableFor o'.use_obsolete_kana o'.imemode) o'.use_obsolete_kana
      (fun b t => to_romaji_with_opt std b o = .ok t) s) := by
  obtain ⟨h1, h2, h3, h4, -⟩ := C101_search { o with upcase_katakana := false } rfl
  intro std h
  simp only [List.mem_cons, List.not_mem_nil, or_false] at h
  rcases h with rfl | rfl
  · rw [C31_no_katakana rustStd_lawful _ _ o (by decide)] at h1 h2
    exact C117_exact rustStd_lawful s o o' hup hime h1 (by decide) h2 (by decide)
  · rw [C31_no_katakana legacyStd_lawful _ _ o (by decide)] at h3 h4
    exact C117_exact legacyStd_lawful s o o' hup hime h3 (by decide) h4 (by decide)

/-- texts in both scripts with letters that survive, and some that do not: the letter joins the kana, a syllable in two
scripts, ヴ, n before a consonant, and ン continued -/
example : (∀ s ∈ ["tチTち".toList, "カタカナ'とB".toList, "Nyかンg".toList, "ミン kkま".toList],
      (to_romaji_with_opt rustStd s { upcase_katakana := true } >>= fun r => to_kana rustStd r) = .ok s) ∧
    (∀ s ∈ ["kカ".toList, "キゃq".toList, "ヴq".toList, "nカ".toList, "ン'カ".toList, "ンyア".toList],
      (to_romaji_with_opt rustStd s { upcase_katakana := true } >>= fun r => to_kana rustStd r) ≠ .ok s) ∧
    to_romaji_with_opt rustStd "ゔ".toList { upcase_katakana := true } = .ok "vo".toList ∧
    to_romaji_with_opt rustStd "っゔ".toList { upcase_katakana := true } = .ok "vvo".toList := by
  decide +kernel

end WanaKana
