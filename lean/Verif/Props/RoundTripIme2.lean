import Verif.Spec.ReadBackIme
import Verif.Props.ImeAgree
import Verif.Props.RoundTripIme
import Verif.Props.RoundTrip5
/-! # C128: the trip with `upcase_katakana` in IME mode, for every text -/

namespace WanaKana
open KNode RNode
open Spec (toHira kanaTable)

/-! ## case -/

theorem letter_lowI {c c' : Char} {a a' : Str} (hc : c.toNat < 128) (hc' : c'.toNat < 128)
    (h : low (c :: a) = low (c' :: a')) (hs : kana .ime (c :: a) = c :: kana .ime a) : kana .ime (c' :: a') = c' :: kana .ime a' := by
  have h1 := (stays_iffI hc a).2 hs
  rw [h] at h1
  exact (stays_iffI hc' a').1 h1

/-- pieces read back in lower case are read back -/
theorem good_unlowI {x y : Char} (hx : x ∈ "aiueo".toList) (hy : y ∈ "aiueo".toList)
    {qs : List (Str × Str)} (h : GoodI qs) : ∀ ps : List (Str × Str), (∀ p ∈ ps, APiece x y p) → ps.map lowP = qs → GoodI ps := by
  -- a piece that is its own lower case, or a letter
  have own : ∀ p q : Str × Str, APiece x y p → lowP p = q → p = q ∨ ∃ c, p = ([c], [c]) ∧ (Spec.AsciiLetter c ∨ c = '\'') ∧
      q = ([toAsciiLowercase c], [toAsciiLowercase c]) := by
    rintro p q (h | h | ⟨c, rfl, h⟩) e
    · left; rw [← e, rpiece_low h]
    · left; rw [← e, vpiece_low hx hy h]
    · right; exact ⟨c, rfl, h, e.symm⟩
  have lowA : ∀ c : Char, (Spec.AsciiLetter c ∨ c = '\'') → (Spec.AsciiLetter (toAsciiLowercase c) ∨ toAsciiLowercase c = '\'') := by
    rintro c (h | rfl)
    · left
      unfold Spec.AsciiLetter Spec.In at *
      rw [toAsciiLowercase_toNat]
      split <;> omega
    · right; decide
  induction h with
  | nil =>
    intro ps _ e
    rw [List.map_eq_nil_iff.1 e]
    exact .nil
  | trip hr ht hb hreg hg ih =>
    intro ps hp e
    obtain ⟨p, ps, rfl, e1, e2⟩ := List.map_eq_cons_iff.1 e
    have ih := ih ps (fun q hq => hp q (List.mem_cons_of_mem _ hq)) e2
    rcases own p _ (hp p List.mem_cons_self) e1 with rfl | ⟨c, rfl, hc, rfl⟩
    · exact .trip hr ht hb hreg ih
    · exfalso
      have := rpiece_ascii hr (toAsciiLowercase c) (by simp)
      rcases lowA c hc with h | h
      · exact this.1 h
      · exact this.2 h
  | quote hg ih =>
    intro ps hp e
    obtain ⟨p, ps, rfl, e1, e2⟩ := List.map_eq_cons_iff.1 e
    have ih := ih ps (fun q hq => hp q (List.mem_cons_of_mem _ hq)) e2
    rcases own p _ (hp p List.mem_cons_self) e1 with rfl | ⟨c, rfl, hc, e3⟩
    · exact .quote ih
    · have : c = '\'' := by
        injection e3 with e3 _
        injection e3 with e3 _
        exact low_quoteA e3.symm
      subst this
      exact .quote ih
  | letter hc hk hg ih =>
    intro ps hp e
    obtain ⟨p, ps, rfl, e1, e2⟩ := List.map_eq_cons_iff.1 e
    have ih := ih ps (fun q hq => hp q (List.mem_cons_of_mem _ hq)) e2
    rw [← e2, lowP_snd] at hk
    rcases own p _ (hp p List.mem_cons_self) e1 with rfl | ⟨c, rfl, hc', e3⟩
    · refine .letter hc (letter_lowI (lpiece_ascii (Or.inl hc)) (lpiece_ascii (Or.inl hc)) ?_ hk) ih
      simp only [low_cons, low_low]
    · injection e3 with e3 _
      injection e3 with e3 _
      subst e3
      rcases hc' with hc' | rfl
      · refine .letter hc' (letter_lowI (lpiece_ascii (Or.inl hc)) (lpiece_ascii (Or.inl hc')) ?_ hk) ih
        simp only [low_cons, low_low, toAsciiLowercase_idem]
      · exact .quote ih

/-- a text that comes back is made of pieces that are read back in lower case -/
theorem good_upI {std : Std} (hstd : std.Lawful) (o : Options) {x y : Char}
    (hx : to_romaji_with_opt std "ゔ".toList o = .ok ['v', x]) (hxu : x ≠ 'u')
    (hy : to_romaji_with_opt std "っゔ".toList o = .ok ['v', 'v', y]) (hyu : y ≠ 'u') {s : Str}
    (hs : ∀ a b, s = a ++ 'ー' :: b → ∀ g, Spec.governing a = some g → ¬ Spec.KatakanaLetter g)
    (hk : kana .ime (rom std true (shifted s)) = s) : ∃ ps : List (Str × Str), (ps.map Prod.fst).flatten = s.map toHira ∧
      GoodI ps ∧ ∀ l r, ps = l ++ r → romH std (r.map Prod.fst).flatten = (r.map Prod.snd).flatten := by
  have hx' : to_romaji_with_opt std "ゔ".toList { o with upcase_katakana := false } = .ok ['v', x] := by
    rw [← C31_no_katakana hstd _ o _ (by decide)]; exact hx
  have hy' : to_romaji_with_opt std "っゔ".toList { o with upcase_katakana := false } = .ok ['v', 'v', y] := by
    rw [← C31_no_katakana hstd _ o _ (by decide)]; exact hy
  obtain ⟨hxv, hyv, ps, e0, hps, hsuf⟩ := text_pieces hstd s { o with upcase_katakana := false } rfl hx' hxu hy' hyu
  rw [k2hP_unprolonged (fun a b g e => hs a b e g)] at e0
  refine ⟨ps, e0.symm, ?_, hsuf⟩
  refine good_unlowI hxv hyv (qs := ps.map lowP) ?_ ps hps rfl
  apply good_ofI hxv hyv hxu hyu
  · intro q hq
    obtain ⟨p, hp, rfl⟩ := List.mem_map.1 hq
    exact apiece_low hxv hyv (hps p hp)
  · have h1 := low_rom std (shifted s)
    rw [shifted_fst, e0, hsuf [] ps rfl] at h1
    rw [lowP_snd, lowP_fst, kana_low_low, hlow_kana .ime (low _) (rom std true (shifted s)) (by rw [low_low, h1]), hk,
      ← e0, low, List.map_map]
    rfl

/-! ## the n of pieces without letters -/

/-- every n, in lower case, goes on a syllable -/
def nOkB : Str → Bool
  | [] => true
  | c :: t => (c != 'n' || (match t with | d :: _ => nNext.contains d | [] => false)) && nOkB t

theorem nOkB_append {a b : Str} (ha : nOkB a = true) (hb : nOkB b = true) : nOkB (a ++ b) = true := by
  induction a with
  | nil => exact hb
  | cons c t ih =>
    simp only [nOkB, Bool.and_eq_true] at ha
    have ih := ih ha.2
    rw [List.cons_append]
    simp only [nOkB, Bool.and_eq_true]
    refine ⟨?_, ih⟩
    have h := ha.1
    cases t with
    | cons d t => exact h
    | nil =>
      simp only [Bool.or_false] at h
      rw [h, Bool.true_or]

theorem nOk_of_B {s : Str} (h : nOkB (low s) = true) : NOk s := by
  have key : ∀ l : Str, nOkB l = true → ∀ a b, l = a ++ 'n' :: b → ∃ d, b.head? = some d ∧ d ∈ nNext := by
    intro l
    induction l with
    | nil => intro _ a b e; have := congrArg List.length e; simp at this
    | cons c t ih =>
      intro h a b e
      simp only [nOkB, Bool.and_eq_true] at h
      cases a with
      | nil =>
        injection e with e1 e2
        subst e1 e2
        have h := h.1
        cases t with
        | nil => cases h
        | cons d t => exact ⟨d, rfl, by simpa using h⟩
      | cons a0 a =>
        injection e with _ e
        exact ih h.2 a b e
  intro a b e
  exact Or.inr (key _ h a b e)

theorem nOk_rows : (kanaTable.all fun p => kana .ime p.2 != p.1 || p.2.getLast? == some 'n' || nOkB (low p.2)) = true := by
  decide +kernel

theorem nOk_single {c : Char} (h : toAsciiLowercase c ≠ 'n') : nOkB (low [c]) = true := by
  simp [nOkB, low, h]

theorem goodI_nOk {ps : List (Str × Str)} (h : GoodI ps) (hl : ∀ c ∈ (ps.map Prod.fst).flatten, ¬ Spec.AsciiLetter c) :
    nOkB (low (ps.map Prod.snd).flatten) = true := by
  have app : ∀ a b, low (a ++ b) = low a ++ low b := fun a b => List.map_append
  induction h with
  | nil => rfl
  | trip hr ht hb _ _ ih =>
    rw [List.map_cons, List.flatten_cons] at hl ⊢
    rw [app]
    refine nOkB_append ?_ (ih fun c hc => hl c (List.mem_append_right _ hc))
    rcases hr with h | ⟨c, rfl, h | h⟩
    · have h1 := List.all_eq_true.1 nOk_rows _ h
      simp only [Bool.or_eq_true, bne_iff_ne, beq_iff_eq] at h1
      rcases h1 with (h1 | h1) | h1
      · exact absurd hb h1
      · obtain ⟨d, hd, hd2⟩ := ht.last
        rw [h1] at hd
        cases hd
        exact absurd (by decide) hd2
      · exact h1
    · apply nOk_single
      intro e
      have hc := hl c (by simp)
      rcases low_eq_n e with rfl | rfl <;> exact hc (by decide)
    · have : ∀ c ∈ latinMarks, nOkB (low [c]) = true := by decide
      exact this c h
  | quote _ ih =>
    rw [List.map_cons, List.flatten_cons] at hl ⊢
    rw [app]
    exact nOkB_append (by decide) (ih fun c hc => hl c (List.mem_append_right _ hc))
  | letter hc _ _ _ => exact absurd hc (hl _ (by simp))

/-- the last romaji character of pieces without letters -/
theorem good_lastI {ps : List (Str × Str)} (h : GoodI ps) (hl : ∀ c ∈ (ps.map Prod.fst).flatten, ¬ Spec.AsciiLetter c) :
    ps = [] ∨ ∃ d, ((ps.map Prod.snd).flatten).getLast? = some d ∧ toAsciiLowercase d ∉ "bcdfghjklmnpqrstvwxyz".toList := by
  have app : ∀ (p : Str × Str) (ps : List (Str × Str)),
      (ps = [] ∨ ∃ d, ((ps.map Prod.snd).flatten).getLast? = some d ∧ toAsciiLowercase d ∉ "bcdfghjklmnpqrstvwxyz".toList) →
      (∃ d, p.2.getLast? = some d ∧ toAsciiLowercase d ∉ "bcdfghjklmnpqrstvwxyz".toList) →
      ∃ d, (((p :: ps).map Prod.snd).flatten).getLast? = some d ∧ toAsciiLowercase d ∉ "bcdfghjklmnpqrstvwxyz".toList := by
    intro p ps h1 h2
    rw [List.map_cons, List.flatten_cons]
    rcases h1 with rfl | ⟨d, hd, h1⟩
    · simpa using h2
    · exact ⟨d, by rw [getLast?_append_ne _ (by intro e; rw [e] at hd; cases hd)]; exact hd, h1⟩
  induction h with
  | nil => exact Or.inl rfl
  | trip _ ht _ _ _ ih =>
    have ih := ih fun c hc => hl c (by rw [List.map_cons, List.flatten_cons]; exact List.mem_append_right _ hc)
    exact Or.inr (app _ _ ih ht.last)
  | quote _ ih =>
    have ih := ih fun c hc => hl c (by rw [List.map_cons, List.flatten_cons]; exact List.mem_append_right _ hc)
    exact Or.inr (app _ _ ih ⟨'\'', rfl, by decide⟩)
  | letter hc _ _ _ => exact absurd hc (hl _ (by simp))

/-- pieces around the first letter or apostrophe -/
theorem good_splitI {ps : List (Str × Str)} (h : GoodI ps) {c : Char} (hc : Spec.AsciiLetter c ∨ c = '\'') {b : Str} :
    ∀ l, (ps.map Prod.fst).flatten = l ++ c :: b → (∀ d ∈ l, ¬ Spec.AsciiLetter d ∧ d ≠ '\'') →
    ∃ l' r', ps = l' ++ ([c], [c]) :: r' ∧ (l'.map Prod.fst).flatten = l ∧ (r'.map Prod.fst).flatten = b ∧ GoodI l' ∧ GoodI r' ∧
      kana .ime (c :: (r'.map Prod.snd).flatten) = c :: kana .ime (r'.map Prod.snd).flatten := by
  have pre : ∀ {p F l : Str}, p ++ F = l ++ c :: b → c ∉ p → ∃ l2, l = p ++ l2 ∧ F = l2 ++ c :: b := by
    intro p F l h hc
    rcases List.append_eq_append_iff.1 h with ⟨a', h1, h2⟩ | ⟨c', h1, h2⟩
    · exact ⟨a', h1, h2⟩
    · cases c' with
      | nil => exact ⟨[], by simpa using h1.symm, h2.symm⟩
      | cons d c' =>
        injection h2 with e _
        subst e
        exact absurd (by rw [h1]; simp) hc
  induction h with
  | nil => intro l h; have := congrArg List.length h; simp at this
  | trip hr ht hb hreg hg ih =>
    intro l h hl
    rw [List.map_cons, List.flatten_cons] at h
    obtain ⟨l2, rfl, h2⟩ := pre h (by
      intro hm
      have := rpiece_ascii hr c hm
      rcases hc with h | h
      · exact this.1 h
      · exact this.2 h)
    obtain ⟨l', r', rfl, e1, e2, g1, g2, e3⟩ := ih l2 h2 fun d hd => hl d (List.mem_append_right _ hd)
    refine ⟨_ :: l', r', rfl, ?_, e2, .trip hr ht hb hreg g1, g2, e3⟩
    rw [List.map_cons, List.flatten_cons, e1]
  | quote hg ih =>
    rename_i ps
    intro l h hl
    rw [List.map_cons, List.flatten_cons] at h
    cases l with
    | nil =>
      injection h with e h
      subst e
      exact ⟨[], ps, rfl, rfl, h, .nil, hg, kana_quote_cons _ _⟩
    | cons d l =>
      injection h with e h
      exact absurd e.symm (hl d List.mem_cons_self).2
  | letter hc' hk hg ih =>
    rename_i c' ps
    intro l h hl
    rw [List.map_cons, List.flatten_cons] at h
    cases l with
    | nil =>
      injection h with e h
      subst e
      exact ⟨[], ps, rfl, rfl, h, .nil, hg, hk⟩
    | cons d l =>
      injection h with e h
      subst e
      exact absurd hc' (hl _ List.mem_cons_self).1

theorem goodI_no_vu {std : Std} (hstd : std.Lawful) {ps : List (Str × Str)} (h : GoodI ps) :
    'ゔ' ∉ (ps.map Prod.fst).flatten := by
  obtain ⟨ws, e, hw⟩ := goodI_words h
  rw [e]
  intro hv
  obtain ⟨w, h1, h2⟩ := List.mem_flatten.1 hv
  rcases hw w h1 with h | ⟨c, hc, rfl⟩
  · exact (piece_no_vu (m := .normal) (by decide) hstd h).1 h2
  · rw [← List.mem_singleton.1 h2] at hc
    revert hc; decide

/-! ## texts without letters -/

theorem noLetter_hira {l : Str} (hl : ∀ c ∈ l, ¬ Spec.AsciiLetter c) : ∀ c ∈ l.map toHira, ¬ Spec.AsciiLetter c := by
  intro d hd
  obtain ⟨d', hd', rfl⟩ := List.mem_map.1 hd
  have := hl d' hd'
  unfold Spec.AsciiLetter Spec.In at *
  rw [toHira_toNat]
  repeat' split
  all_goals omega

/-- the romaji of a text of pieces without letters: the modes agree, and it is cut before whatever follows -/
theorem seg_ime {std : Std} {l : Str} {ps : List (Str × Str)} (hg : GoodI ps)
    (e1 : (ps.map Prod.fst).flatten = l.map toHira) (e2 : romH std (l.map toHira) = (ps.map Prod.snd).flatten)
    (hl : ∀ c ∈ l, ¬ Spec.AsciiLetter c) : kana .ime (rom std true (shifted l)) = kana .normal (rom std true (shifted l)) ∧
      ∀ t, Cut .ime (rom std true (shifted l)) t := by
  have hlow := low_rom std (shifted l)
  rw [shifted_fst, e2] at hlow
  have hl' : ∀ c ∈ (ps.map Prod.fst).flatten, ¬ Spec.AsciiLetter c := by rw [e1]; exact noLetter_hira hl
  constructor
  · apply agree_of_nOk
    apply nOk_of_B
    rw [hlow]
    exact goodI_nOk hg hl'
  · intro t
    rcases good_lastI hg hl' with rfl | ⟨d, hd, h⟩
    · have : rom std true (shifted l) = [] := low_eq_nil hlow
      rw [this]
      intro a1 a2 n e hne
      exact absurd (List.append_eq_nil_iff.1 e.symm).2 hne
    · have h1 : (low (rom std true (shifted l))).getLast? = some (toAsciiLowercase d) := by
        rw [hlow, low, List.getLast?_map, hd]; rfl
      obtain ⟨d', hd', e⟩ := low_last_some h1
      exact cut_of_last hd' (by rw [e]; exact h)

/-- a text that comes back is made of words -/
theorem words_upI {std : Std} (hstd : std.Lawful) (o : Options) (hup : o.upcase_katakana = true) :
    ∀ (n : Nat) (s : Str) (ps : List (Str × Str)), s.length ≤ n →
    GoodI ps → (ps.map Prod.fst).flatten = s.map toHira →
    (∀ l r, ps = l ++ r → romH std (r.map Prod.fst).flatten = (r.map Prod.snd).flatten) →
    (∀ a b, s = a ++ 'ー' :: b → ∀ g, Spec.governing a = some g → ¬ Spec.KatakanaLetter g) →
    kana .ime (rom std true (shifted s)) = s →
    (∃ ws : List Str, s = ws.flatten ∧ ∀ w ∈ ws, Spec.RegularPiece true false w ∨ Spec.LatinPiece w) ∧
    ∀ a x y b, s = a ++ x :: y :: b → toHira x = 'ん' → toHira y ∈ Spec.vowelOrY → x = 'ん' ∧ ¬ Spec.Katakana y := by
  -- a text without letters
  have plain : ∀ l : Str, (∀ c ∈ l, latin c = false) → 'ゔ' ∉ l.map toHira →
      (∀ a b, l = a ++ 'ー' :: b → ∀ g, Spec.governing a = some g → ¬ Spec.KatakanaLetter g) →
      kana .normal (rom std true (shifted l)) = l →
      (∃ ws : List Str, l = ws.flatten ∧ ∀ w ∈ ws, Spec.RegularPiece true false w) ∧
      ∀ a x y b, l = a ++ x :: y :: b → toHira x = 'ん' → toHira y ∈ Spec.vowelOrY → x = 'ん' ∧ ¬ Spec.Katakana y := by
    intro l hl hv hd hk
    have := (C85_exact hstd l o {} hup (by intro h; cases h) (fun c hc => by
      have := hl c hc
      simp only [latin, decide_eq_false_iff_not, not_or] at this
      exact ⟨this.1, this.2, fun h => hv (by rw [← h]; exact List.mem_map_of_mem hc)⟩)).1
        ⟨_, by rw [to_romaji_eq hstd, hup, flagged_shifted hd], by
          rw [to_kana_eq hstd]
          exact congrArg Except.ok hk⟩
    exact ⟨this.1, this.2.1⟩
  have noLetter : ∀ l : Str, (∀ c ∈ l, latin c = false) → ∀ d ∈ l, ¬ Spec.AsciiLetter d ∧ d ≠ '\'' := by
    intro l hl d hd
    have := hl d hd
    simp only [latin, decide_eq_false_iff_not, not_or] at this
    exact this
  intro n
  induction n with
  | zero =>
    intro s ps hlen _ _ _ _ _
    have : s = [] := List.length_eq_zero_iff.1 (by omega)
    subst this
    refine ⟨⟨[], rfl, by simp⟩, ?_⟩
    intro a x y b e
    have := congrArg List.length e
    simp at this
  | succ n ih =>
    intro s ps hlen hg e0 hsuf hd hk
    have hv := goodI_no_vu hstd hg
    rw [e0] at hv
    rcases split_first latin s with h | ⟨l, c, r, rfl, hl, hc⟩
    · have hrl := hsuf [] ps rfl
      rw [e0] at hrl
      have hseg := (seg_ime hg e0 hrl fun d hd => (noLetter s h d hd).1).1
      rw [hseg] at hk
      obtain ⟨⟨ws, e, hw⟩, hn⟩ := plain s h hv hd hk
      exact ⟨⟨ws, e, fun w hw' => Or.inl (hw w hw')⟩, hn⟩
    · have hc : Spec.AsciiLetter c ∨ c = '\'' := of_decide_eq_true hc
      have hasc := lpiece_ascii hc
      have hl' := noLetter l hl
      rw [List.map_append, List.map_cons, ascii_toHira hasc] at e0
      obtain ⟨l', r', rfl, e1, e2, g1, g2, e3⟩ := good_splitI hg hc (l.map toHira) e0 (by
        intro d hd
        refine ⟨noLetter_hira (fun c hc => (hl' c hc).1) d hd, ?_⟩
        obtain ⟨d', hd', rfl⟩ := List.mem_map.1 hd
        obtain ⟨h1, h2⟩ := hl' d' hd'
        intro h
        apply h2
        rw [char_eq_iff, toHira_toNat] at h
        apply char_ext
        simp only [Char.reduceToNat] at *
        repeat' split at h
        all_goals omega)
      have hr' := hsuf (l' ++ [([c], [c])]) r' (by simp)
      rw [e2] at hr'
      have hall := hsuf [] (l' ++ ([c], [c]) :: r') rfl
      rw [e0, romH_letter hstd hasc, hr', List.map_append, List.flatten_append, List.map_cons, List.flatten_cons,
        List.singleton_append] at hall
      have hrl : romH std (l.map toHira) = (l'.map Prod.snd).flatten := List.append_cancel_right hall
      have hlowr := low_rom std (shifted r)
      rw [shifted_fst, hr'] at hlowr
      have hstay : kana .ime (c :: rom std true (shifted r)) = c :: kana .ime (rom std true (shifted r)) :=
        letter_lowI hasc hasc (by rw [low_cons, low_cons, hlowr]) e3
      obtain ⟨hagree, hcut⟩ := seg_ime g1 e1 hrl (fun d hd => (hl' d hd).1)
      rw [rom_letter hstd true hasc, kana_append _ _ (hcut _), hstay] at hk
      have hlen2 : (kana .ime (rom std true (shifted l))).length = l.length := by
        have h1 := congrArg List.length (hlow_kana .ime _ _ (low_rom std (shifted l)))
        rw [shifted_fst, hrl, good_kanaI g1, e1] at h1
        simpa using h1
      obtain ⟨k1, k2⟩ := List.append_inj hk hlen2
      injection k2 with _ k2
      rw [hagree] at k1
      obtain ⟨⟨ws, ew, hw⟩, hn1⟩ := plain l hl (fun h => hv (by rw [List.map_append]; exact List.mem_append_left _ h))
        (fun a b e => hd a (b ++ c :: r) (by rw [e]; simp)) k1
      obtain ⟨⟨vs, ev, hv'⟩, hn2⟩ := ih r r' (by simp at hlen; omega) g2 e2
        (fun a b e => hsuf (l' ++ ([c], [c]) :: a) b (by rw [e]; simp))
        (fun a b e g hg => hd (l ++ c :: a) b (by rw [e]; simp) g (by
          rw [show l ++ c :: a = (l ++ [c]) ++ a by simp]
          exact governing_append hg)) k2
      refine ⟨⟨ws ++ [c] :: vs, by rw [List.flatten_append, List.flatten_cons, ← ew, ← ev]; rfl, ?_⟩, nasal_join hasc hn1 hn2⟩
      intro w hw'
      rcases List.mem_append.1 hw' with h | h
      · exact Or.inl (hw w h)
      · rcases List.mem_cons.1 h with rfl | h
        · exact Or.inr ⟨c, hc, rfl⟩
        · exact hv' w h

theorem vowel_hira {y : Char} (h : toHira y ∈ Spec.vowelOrY) (hk : ¬ Spec.Katakana y) : y ∈ Spec.vowelOrY := by
  have : toHira y = y := by
    apply Classical.byContradiction
    intro h1
    apply hk
    rw [specKatakana_iff]
    apply Classical.byContradiction
    intro h2
    apply h1
    apply char_ext
    rw [toHira_toNat]
    repeat' split
    all_goals omega
  rwa [this] at h

/-- **C128** Exactly which texts survive the trip with `upcase_katakana` in IME mode, if the standard library makes
`to_romaji` write ゔ and っゔ with a vowel other than u. -/
theorem C128_exact {std : Std} (hstd : std.Lawful) (s : Str) (o o' : Options) (hup : o.upcase_katakana = true)
    (him : o'.imemode = true) (hob : o'.use_obsolete_kana = false) {x y : Char}
    (hx : to_romaji_with_opt std "ゔ".toList o = .ok ['v', x]) (hxu : x ≠ 'u')
    (hy : to_romaji_with_opt std "っゔ".toList o = .ok ['v', 'v', y]) (hyu : y ≠ 'u') :
    (∃ r, to_romaji_with_opt std s o = .ok r ∧ to_kana_with_opt std r o' = .ok s) ↔
    Spec.ReadBackBothIme Spec.imeTable (fun b t => to_romaji_with_opt std b o = .ok t) s := by
  have hm : modeOf o' = .ime := modeOf_ime.2 ⟨him, hob⟩
  have hstays : ∀ {c : Char}, c.toNat < 128 → ∀ t, (∀ k ∈ Spec.imeTable, ¬ k.1 <+: (c :: t).map Spec.asciiLower) ↔
      kana .ime (c :: t) = c :: kana .ime t := by
    intro c hc t
    rw [asciiLower_eq]
    exact stays_iffI hc t
  have hrom : ∀ s, (∀ a b, s = a ++ 'ー' :: b → ∀ g, Spec.governing a = some g → ¬ Spec.KatakanaLetter g) →
      to_romaji_with_opt std s o = .ok (rom std true (shifted s)) := by
    intro s hs
    rw [to_romaji_eq hstd, hup, flagged_shifted hs]
  constructor
  · rintro ⟨r, h1, h2⟩
    have hd := survives_dash hstd h1 h2
    rw [hrom s hd, Except.ok.injEq] at h1
    subst h1
    rw [to_kana_eq hstd, Except.ok.injEq, hm] at h2
    obtain ⟨ps, e0, hg, hsuf⟩ := good_upI hstd o hx hxu hy hyu hd h2
    obtain ⟨hw, hn⟩ := words_upI hstd o hup _ s ps (Nat.le_refl _) hg e0 hsuf hd h2
    refine ⟨hw, ?_, hd, ?_⟩
    · intro a z b e hz
      obtain ⟨d, h3, h4⟩ := goodI_nasal hg (a.map toHira) (b.map toHira) (by rw [e0, e]; simp [hz])
      cases b with
      | nil => cases h3
      | cons d' b =>
        have h3 : toHira d' = d := by simpa using h3
        subst h3
        obtain ⟨h5, h6⟩ := hn a z d' b e hz h4
        exact ⟨h5, d', rfl, vowel_hira h4 h6⟩
    · intro a c b t e hc ht
      have hasc := lpiece_ascii (Or.inl hc)
      have hdb : ∀ a b', b = a ++ 'ー' :: b' → ∀ g, Spec.governing a = some g → ¬ Spec.KatakanaLetter g := by
        intro a' b' e' g hg
        refine hd (a ++ c :: a') b' (by rw [e, e']; simp) g ?_
        rw [show a ++ c :: a' = (a ++ [c]) ++ a' by simp]
        exact governing_append hg
      obtain ⟨l, r, e1, e2, e3⟩ := goodI_letter hg hc (a.map toHira) (b := b.map toHira) (by
        rw [e0, e, List.map_append, List.map_cons, ascii_toHira hasc])
      rw [hrom b hdb, Except.ok.injEq] at ht
      subst ht
      have hr := hsuf (l ++ [([c], [c])]) r (by rw [e1]; simp)
      rw [e2] at hr
      apply (hstays hasc _).2
      apply letter_lowI hasc hasc _ e3
      rw [low_cons, low_cons, low_rom, shifted_fst, hr]
  · rintro ⟨⟨ws, rfl, hw⟩, hn, hd, hl⟩
    have main : ∀ (n : Nat) (ws : List Str), ws.length ≤ n →
        (∀ w ∈ ws, Spec.RegularPiece true false w ∨ Spec.LatinPiece w) →
        (∀ a x b, ws.flatten = a ++ x :: b → toHira x = 'ん' → x = 'ん' ∧ ∃ d, b.head? = some d ∧ d ∈ Spec.vowelOrY) →
        (∀ a b, ws.flatten = a ++ 'ー' :: b → ∀ g, Spec.governing a = some g → ¬ Spec.KatakanaLetter g) →
        (∀ a c b t, ws.flatten = a ++ c :: b → Spec.AsciiLetter c → to_romaji_with_opt std b o = .ok t →
          ∀ k ∈ Spec.imeTable, ¬ k.1 <+: (c :: t).map Spec.asciiLower) →
        kana .ime (rom std true (shifted ws.flatten)) = ws.flatten := by
      intro n
      induction n with
      | zero =>
        intro ws hlen _ _ _ _
        have : ws = [] := List.length_eq_zero_iff.1 (by omega)
        subst this
        show kana .ime (rom std true []) = []
        rw [rom_nil, kana_nil]
      | succ n ih =>
        intro ws hlen hw hn hd hl
        have plain : ∀ l : List Str, (∀ w ∈ l, Spec.RegularPiece true false w) →
            (∀ a x b, l.flatten = a ++ x :: b → toHira x = 'ん' → x = 'ん' ∧ ∃ d, b.head? = some d ∧ d ∈ Spec.vowelOrY) →
            (∀ a b, l.flatten = a ++ 'ー' :: b → ∀ g, Spec.governing a = some g → ¬ Spec.KatakanaLetter g) →
            kana .ime (rom std true (shifted l.flatten)) = l.flatten ∧ ∀ t, Cut .ime (rom std true (shifted l.flatten)) t := by
          intro l h1 h2 h3
          obtain ⟨r', k1, k2⟩ := C57_roundtrip_both hstd o {} hup (by intro h; cases h) l h1 (by
            intro a x y b e hx hy
            obtain ⟨h4, d, h5, h6⟩ := h2 a x (y :: b) e hx
            have : y = d := by simpa using h5
            subst this
            refine ⟨h4, ?_⟩
            have hk : ∀ d ∈ Spec.vowelOrY, ¬ Spec.Katakana d := by decide
            exact hk y h6) h3
          rw [hrom _ h3, Except.ok.injEq] at k1
          subst k1
          rw [to_kana_eq hstd, Except.ok.injEq] at k2
          have k2 : kana .normal (rom std true (shifted l.flatten)) = l.flatten := k2
          obtain ⟨ps, e0, hg, hsuf⟩ := good_up hstd (m := .normal) (by decide) o hx hxu hy hyu h3 k2
          have hlet : ∀ c ∈ l.flatten, ¬ Spec.AsciiLetter c := by
            intro d hd
            obtain ⟨w, h4, h5⟩ := List.mem_flatten.1 hd
            exact regular_no_letter (m := .normal) (by decide) (h1 w h4) d h5
          have hgI := goodI_of_good hg (by
            intro a b e
            rw [e0] at e
            obtain ⟨a', b', e1, e2, e3⟩ := List.map_eq_append_iff.1 e
            obtain ⟨z, b'', rfl, e4, e5⟩ := List.map_eq_cons_iff.1 e3
            obtain ⟨_, d, h5, h6⟩ := h2 a' z b'' e1 e4
            have hk : ∀ d ∈ Spec.vowelOrY, toHira d = d := by decide
            exact ⟨d, by rw [← e5, List.head?_map, h5, Option.map_some, hk d h6], h6⟩) (by rw [e0]; exact noLetter_hira hlet)
          have hrl := hsuf [] ps rfl
          rw [e0] at hrl
          obtain ⟨h4, h5⟩ := seg_ime hgI e0 hrl hlet
          exact ⟨by rw [h4, k2], h5⟩
        rcases split_latin ws hw with h | ⟨l, c, r, rfl, hlreg, hc⟩
        · exact (plain ws h hn hd).1
        · have efl : (l ++ [c] :: r).flatten = l.flatten ++ c :: r.flatten := by
            rw [List.flatten_append, List.flatten_cons]; rfl
          rw [efl] at hn hd hl ⊢
          have hasc := lpiece_ascii hc
          have hdr : ∀ a b, r.flatten = a ++ 'ー' :: b → ∀ g, Spec.governing a = some g → ¬ Spec.KatakanaLetter g := by
            intro a' b' e' g hg
            refine hd (l.flatten ++ c :: a') b' (by rw [e']; simp) g ?_
            rw [show l.flatten ++ c :: a' = (l.flatten ++ [c]) ++ a' by simp]
            exact governing_append hg
          have hdl : ∀ a b, l.flatten = a ++ 'ー' :: b → ∀ g, Spec.governing a = some g → ¬ Spec.KatakanaLetter g :=
            fun a b e => hd a (b ++ c :: r.flatten) (by rw [e]; simp)
          have ihr := ih r (by simp at hlen; omega) (fun w hw' => hw w (by simp [hw']))
            (fun a x b e => hn (l.flatten ++ c :: a) x b (by rw [e]; simp)) hdr
            (fun a c' b t e => hl (l.flatten ++ c :: a) c' b t (by rw [e]; simp))
          have hlk := plain l hlreg (by
            intro a x b e hx
            obtain ⟨h1, d, h2, h3⟩ := hn a x (b ++ c :: r.flatten) (by rw [e]; simp) hx
            refine ⟨h1, ?_⟩
            cases b with
            | cons e b => exact ⟨d, h2, h3⟩
            | nil =>
              exfalso
              have : d = c := by simpa using h2.symm
              subst this
              have hk : ∀ d ∈ Spec.vowelOrY, 128 ≤ d.toNat := by decide
              have := hk d h3
              omega) hdl
          have hstay : kana .ime (c :: rom std true (shifted r.flatten)) = c :: kana .ime (rom std true (shifted r.flatten)) := by
            rcases hc with hc | rfl
            · apply (hstays hasc _).1
              exact hl l.flatten c r.flatten _ rfl hc (hrom _ hdr)
            · exact kana_quote_cons _ _
          rw [rom_letter hstd true hasc, kana_append _ _ (hlk.2 _), hstay, hlk.1, ihr]
    refine ⟨_, hrom _ hd, ?_⟩
    rw [to_kana_eq hstd, hm, main _ ws (Nat.le_refl _) hw hn hd hl]

/-- **C128** the standard libraries of Rust 1.52 and later are such libraries -/
theorem C128_rust (s : Str) (o o' : Options) (hup : o.upcase_katakana = true)
    (him : o'.imemode = true) (hob : o'.use_obsolete_kana = false) :
    ∀ std ∈ [rustStd, legacyStd],
    ((∃ r, to_romaji_with_opt std s o = .ok r ∧ to_kana_with_opt std r o' = .ok s) ↔
    Spec.ReadBackBothIme Spec.imeTable (fun b t => to_romaji_with_opt std b o = .ok t) s) := by
  obtain ⟨h1, h2, h3, h4, -⟩ := C101_search { o with upcase_katakana := false } rfl
  intro std h
  simp only [List.mem_cons, List.not_mem_nil, or_false] at h
  rcases h with rfl | rfl
  · rw [C31_no_katakana rustStd_lawful _ _ o (by decide)] at h1 h2
    exact C128_exact rustStd_lawful s o o' hup him hob h1 (by decide) h2 (by decide)
  · rw [C31_no_katakana legacyStd_lawful _ _ o (by decide)] at h3 h4
    exact C128_exact legacyStd_lawful s o o' hup him hob h3 (by decide) h4 (by decide)

/-- texts in both scripts that survive, and some that do not: ン is left waiting or joined, a syllable in two scripts,
a letter that joins the kana -/
example : (∀ s ∈ ["ほんやノ".toList, "カタカナ'とB".toList, "nカ".toList, "Nyかんいg".toList],
      (to_romaji_with_opt rustStd s { upcase_katakana := true } >>= fun r => to_kana_with_opt rustStd r { imemode := true }) = .ok s) ∧
    (∀ s ∈ ["ホン".toList, "ホンヤ".toList, "ンな".toList, "んヤ".toList, "キゃ".toList, "kカ".toList, "んa".toList],
      (to_romaji_with_opt rustStd s { upcase_katakana := true } >>= fun r => to_kana_with_opt rustStd r { imemode := true }) ≠ .ok s) := by
  decide +kernel

end WanaKana
