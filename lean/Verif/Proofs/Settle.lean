import Verif.Props.CanonicalAll
import Verif.Props.Bytes
/-! # What one trip from kana to romaji and back does to the weights of a text (for C122) -/

namespace WanaKana
open KNode RNode
open Spec (toHira kanaTable)

/-- what can still be read otherwise: letters count, t and っ less, n not at all -/
def loose (c : Char) : Nat :=
  if c.toNat = 0x6E then 0 else if c.toNat = 0x74 ∨ c.toNat = 0x3063 ∨ c.toNat = 0x30C3 then 1
  else if 0x41 ≤ c.toNat ∧ c.toNat ≤ 0x5A ∨ 0x61 ≤ c.toNat ∧ c.toNat ≤ 0x7A then 2 else 0

theorem loose_letter {c : Char} (h : Spec.AsciiLetter c) (hn : c ≠ 'n') (ht : c ≠ 't') : loose c = 2 := by
  unfold Spec.AsciiLetter Spec.In at h
  simp only [ne_eq, char_eq_iff, Char.reduceToNat] at hn ht
  unfold loose
  repeat' split
  all_goals omega

theorem loose_le (c : Char) : loose c ≤ 2 := by
  unfold loose
  repeat' split
  all_goals omega

theorem weigh_zero {w : Char → Nat} {s : Str} (h : ∀ c ∈ s, w c = 0) : weigh w s = 0 := by
  rw [weigh_const h, Nat.zero_mul]

theorem weigh_count (p : Char → Bool) (s : Str) : weigh (fun c => if p c = true then 1 else 0) s = s.countP p := by
  induction s with
  | nil => rfl
  | cons c s ih => rw [weigh_cons, List.countP_cons, ih]; omega

/-! ## the kana shift -/

theorem k2hP_weigh0 {std : Std} (hstd : std.Lawful) (dest : Bool) {w : Char → Nat}
    (hw : ∀ c : Char, 0x30A1 ≤ c.toNat → c.toNat ≤ 0x30FC → w (k2hChar c) = w c)
    (hv : ∀ c ∈ "あいうえお".toList, w c = 0) (s : Str) : ∀ {prev}, PrevOk prev →
    weigh w (k2hP std dest prev s) ≤ weigh w s := by
  induction s with
  | nil => intro prev _; cases prev <;> simp [k2hP]
  | cons c s ih =>
    intro prev hok
    rw [k2hP_cons, weigh_cons]
    by_cases hk : keeps c = true
    · have := ih hok; rw [if_pos hk, weigh_cons]; omega
    · by_cases hd : isDash c = true
      · cases prev with
        | none => have := ih hok; simp only [hk, hd, if_true, Bool.false_eq_true, if_false, weigh_cons]; omega
        | some p =>
          have h1 := ih hok
          obtain ⟨n, hn⟩ := root_has hstd (hok p rfl).1 (hok p rfl).2
          have h2 : weigh w (longOut std dest c p) = 0 := by
            apply weigh_zero
            intro d hd
            apply hv
            rw [longOut, hn] at hd
            simp only [] at hd
            split at hd
            · rw [List.mem_singleton.1 hd]; decide
            · cases hl : n.output.getLast? with
              | none => rw [hl] at hd; cases hd
              | some e =>
                rw [hl, Option.bind_some] at hd
                unfold LONG_VOWELS at hd
                split at hd <;> simp only [Option.toList, List.mem_singleton, List.not_mem_nil] at hd <;> subst hd <;> decide
          simp only [hk, hd, if_true, Bool.false_eq_true, if_false, weigh_append]; omega
      · by_cases ha : is_char_katakana c = true
        · have hp := k2hChar_prevOk (by simpa using hk) (by simpa using hd) ha
          have := ih hp
          have ha' := is_char_katakana_iff.1 ha
          rw [if_neg hk, if_neg hd, if_pos ha, weigh_cons, hw c (by omega) (by omega)]
          omega
        · have := ih prevOk_none
          rw [if_neg hk, if_neg hd, if_neg ha, weigh_cons]
          omega

theorem heavy_shift {std : Std} (hstd : std.Lawful) (s : Str) :
    (k2hP std true none s).countP heavy ≤ s.countP heavy := by
  rw [← weigh_count, ← weigh_count]
  apply k2hP_weigh0 hstd true _ (by decide) s prevOk_none
  intro c h1 h2
  have : heavy (k2hChar c) = heavy c := by
    rw [Bool.eq_iff_iff, heavy_iff, heavy_iff, k2hChar_toNat h1 h2]
    repeat' split
    all_goals omega
  rw [this]

theorem loose_shift {std : Std} (hstd : std.Lawful) (s : Str) :
    weigh loose (k2hP std true none s) ≤ weigh loose s := by
  apply k2hP_weigh0 hstd true _ (by decide) s prevOk_none
  intro c h1 h2
  unfold loose
  rw [k2hChar_toNat h1 h2]
  repeat' split
  all_goals omega

/-! ## letters that are left -/

theorem loose_styled (x out : Str) (h : ∀ d ∈ out, 0x3000 ≤ d.toNat) : weigh loose (styled x out) = weigh loose out := by
  unfold styled
  split
  · unfold weigh
    rw [List.map_map]
    congr 1
    apply List.map_congr_left
    intro c hc
    have := h c hc
    simp only [Function.comp, loose, h2kP_toNat]
    repeat' split
    all_goals omega
  · rfl

/-- the keys that begin with n -/
def nTails : List Str := [['a'], ['i'], ['u'], ['e'], ['o'], ['y', 'a'], ['y', 'i'], ['y', 'u'], ['y', 'e'], ['y', 'o']]

theorem n_keys {m : Mode} (hm : m ≠ .ime) {k out : Str} {n : KNode} (hw : (tree m).walk ('n' :: k) = some n)
    (ho : n.output = some out) : (k = [] ∨ k = ['\'']) ∧ out = ['ん'] ∨ k ∈ nTails := by
  have h : allModes (fun m x => decide (m = .ime) || match x.2.output, x.1 with
      | some out, 'n' :: k => decide ((k = [] ∨ k = ['\'']) ∧ out = ['ん'] ∨ k ∈ nTails)
      | _, _ => true) = true := by
    decide +kernel
  have := allModes_walk h hw
  simp only [ho, Bool.or_eq_true, decide_eq_true_iff] at this
  exact this.resolve_left hm

theorem n_tails_kana (m : Mode) (hm : m ≠ .ime) : (nTails.all fun k => (kana m k).all fun d => decide (0x3000 ≤ d.toNat) && loose d == 0) = true := by
  cases m with
  | normal => decide +kernel
  | obsolete => decide +kernel
  | ime => exact absurd rfl hm

theorem loose_low {m : Mode} {a : Str} (h : ∀ d ∈ kana m (low a), 0x3000 ≤ d.toNat ∧ loose d = 0) :
    weigh loose (kana m a) = 0 := by
  apply weigh_zero
  intro c hc
  have h1 : Spec.toKata (Spec.asciiLower c) ∈ fold (kana m a) := List.mem_map.2 ⟨c, hc, rfl⟩
  rw [fold_kana m a (low a) (low_low a).symm] at h1
  obtain ⟨d, hd, e⟩ := List.mem_map.1 h1
  obtain ⟨h2, h3⟩ := h d hd
  simp only [char_eq_iff, toKata_eq, asciiLower_eq, h2kP_toNat, toAsciiLowercase_toNat] at e
  unfold loose at h3 ⊢
  have h4 : ¬ (d.toNat = 0x3063 ∨ d.toNat = 0x30C3) := by
    intro h4
    rw [if_neg (by omega), if_pos (by omega)] at h3
    omega
  repeat' split at e
  all_goals (repeat' split)
  all_goals omega

theorem nTails_last : ∀ k ∈ nTails, ∃ d, k.getLast? = some d ∧ d ∉ "bcdfghjklmnpqrstvwxyz".toList := by
  intro k hk
  have h : (nTails.all fun k => match k.getLast? with
    | some d => !("bcdfghjklmnpqrstvwxyz".toList.contains d)
    | none => false) = true := by decide
  have := List.all_eq_true.1 h k hk
  cases hl : k.getLast? with
  | none => rw [hl] at this; cases this
  | some d =>
    rw [hl] at this
    exact ⟨d, rfl, by simpa only [Bool.not_eq_true', List.contains_eq_mem, decide_eq_false_iff_not] using this⟩

theorem cut_low {m : Mode} {a t : Str} (h : ∃ d, (low a).getLast? = some d ∧ d ∉ "bcdfghjklmnpqrstvwxyz".toList) :
    kana m (a ++ t) = kana m a ++ kana m t := by
  obtain ⟨d, hd, hd2⟩ := h
  obtain ⟨c, hc, rfl⟩ := low_last_some hd
  exact kana_append _ _ (cut_of_last hc hd2)

theorem loose_n_mono {m : Mode} (hm : m ≠ .ime) {c : Char} (hc : toAsciiLowercase c = 'n') (t : Str) :
    weigh loose (kana m t) ≤ weigh loose (kana m (c :: t)) := by
  obtain ⟨n, k, hst⟩ := exists_stops (tree m) (c :: t)
  cases ho : n.output with
  | none => rw [kana_miss hst ho, weigh_cons]; omega
  | some out =>
    obtain ⟨a, t', rfl, _, hw, hkana⟩ := hit_split hst ho
    rw [hkana, weigh_append]
    rw [hc] at hw
    have hq : loose '\'' = 0 := by decide
    rcases n_keys hm hw ho with ⟨h | h, _⟩ | h
    · rw [low_eq_nil h, List.nil_append]; omega
    · rw [low_quote h, List.singleton_append, kana_quote_cons, weigh_cons]; omega
    · rw [cut_low (nTails_last _ h), weigh_append, loose_low]
      · omega
      · intro d hd
        have := List.all_eq_true.1 (List.all_eq_true.1 (n_tails_kana m hm) _ h) d hd
        simpa using this

/-- the keys that begin with t and have っ -/
def tTails : List Str := ["ta", "ti", "tu", "te", "to", "tya", "tyi", "tyu", "tye", "tyo", "tsu", "tha", "thu", "tho", "tsa", "tsi",
  "tse", "tso", "thi", "the", "twa", "twi", "twu", "twe", "two"].map String.toList

theorem loose_keys {m : Mode} (hm : m ≠ .ime) {c : Char} {k out : Str} {n : KNode} (hw : (tree m).walk (c :: k) = some n)
    (ho : n.output = some out) : weigh loose out ≤ 1 ∧ (c = 'n' → weigh loose out = 0) ∧
      (c = 't' → weigh loose out = 0 ∨ k ∈ tTails) := by
  have h : allModes (fun m x => decide (m = .ime) || match x.2.output, x.1 with
      | some out, c :: k => decide (weigh loose out ≤ 1 ∧ (c = 'n' → weigh loose out = 0) ∧
          (c = 't' → weigh loose out = 0 ∨ k ∈ tTails))
      | _, _ => true) = true := by
    decide +kernel
  have := allModes_walk h hw
  simp only [ho, Bool.or_eq_true, decide_eq_true_iff] at this
  exact this.resolve_left hm

/-- one more character in front: it stays, or a key is read -/
theorem loose_cons {m : Mode} (hm : m ≠ .ime) (c : Char) (t : Str) :
    kana m (c :: t) = c :: kana m t ∨ ∃ a t' l, t = a ++ t' ∧ l ≤ 1 ∧
      weigh loose (kana m (c :: t)) ≤ l + weigh loose (kana m t) ∧ (c = 'n' → l = 0) ∧ (c = 't' → l = 0 ∨ low a ∈ tTails) := by
  obtain ⟨n, k, hst⟩ := exists_stops (tree m) (c :: t)
  cases ho : n.output with
  | none => exact Or.inl (kana_miss hst ho)
  | some out =>
    right
    obtain ⟨a, t', rfl, _, hw, hkana⟩ := hit_split hst ho
    have kw := key_weights hm hw ho
    obtain ⟨h1, h2, h3⟩ := loose_keys hm hw ho
    have hq : loose '\'' = 0 := by decide
    refine ⟨a, t', weigh loose out, rfl, h1, ?_, ?_, ?_⟩
    · rw [hkana, weigh_append, loose_styled _ _ kw.kana]
      rcases kw.shape with h | h | ⟨h, h1⟩ | h
      · rw [low_eq_nil h, List.nil_append]; omega
      · rw [low_quote h, List.singleton_append, kana_quote_cons, weigh_cons]; omega
      · obtain ⟨d, rfl, hd⟩ := low_single h
        have := loose_n_mono hm hd t'
        rw [List.singleton_append]; omega
      · rw [cut_low h, weigh_append]; omega
    · rintro rfl; exact h2 (by decide)
    · rintro rfl; exact h3 (by decide)

theorem loose_n {m : Mode} (hm : m ≠ .ime) (t : Str) : weigh loose (kana m ('n' :: t)) ≤ weigh loose (kana m t) := by
  have hq : loose 'n' = 0 := by decide
  rcases loose_cons hm 'n' t with h | ⟨a, t', l, _, _, h1, h2, _⟩
  · rw [h, weigh_cons]; omega
  · have := h2 rfl; omega

theorem loose_cons_le {m : Mode} (hm : m ≠ .ime) {c : Char} (hc : Spec.AsciiLetter c ∨ c = '\'') (t : Str) :
    weigh loose (kana m (c :: t)) ≤ loose c + weigh loose (kana m t) := by
  rcases hc with hc | rfl
  · rcases loose_cons hm c t with h | ⟨a, t', l, _, h0, h1, h2, _⟩
    · rw [h, weigh_cons]; omega
    · by_cases hn : c = 'n'
      · have := h2 hn; omega
      · by_cases ht : c = 't'
        · have h3 : loose 't' = 1 := by decide
          rw [ht] at h1 ⊢
          omega
        · have := loose_letter hc hn ht; omega
  · rw [kana_quote_cons, weigh_cons]; omega

theorem loose_table (m : Mode) (hm : m ≠ .ime) : (kanaTable.all fun p =>
    decide (weigh loose (kana m p.2) ≤ weigh loose p.1)) = true := by
  cases m with
  | normal => decide +kernel
  | obsolete => decide +kernel
  | ime => exact absurd rfl hm

theorem loose_marks (m : Mode) (hm : m ≠ .ime) : (latinMarks.all fun c => decide (weigh loose (kana m [c]) = 0)) = true := by
  cases m with
  | normal => decide +kernel
  | obsolete => decide +kernel
  | ime => exact absurd rfl hm

theorem loose_row {m : Mode} (hm : m ≠ .ime) {p : Str × Str} (h : RPiece p) : weigh loose (kana m p.2) ≤ weigh loose p.1 := by
  rcases h with h | ⟨c, rfl, h | h⟩
  · exact of_decide_eq_true (List.all_eq_true.1 (loose_table m hm) p h)
  · have hk : kana m [c] = [c] := by
      have := kana_of_not_head (m := m) (s := [c]) (by simpa using h.1.1) []
      simpa [kana_nil] using this
    rw [hk]; exact Nat.le_refl _
  · rw [of_decide_eq_true (List.all_eq_true.1 (loose_marks m hm) c h)]; omega

/-- a trip leaves no more than there was -/
theorem pieces_loose {m : Mode} (hm : m ≠ .ime) {x y : Char} (hx : x ∈ "aiueo".toList) (hy : y ∈ "aiueo".toList)
    (hxu : x ≠ 'u') (hyu : y ≠ 'u') : ∀ ps : List (Str × Str), (∀ p ∈ ps, APiece x y p) →
    weigh loose (kana m (ps.map Prod.snd).flatten) ≤ weigh loose (ps.map Prod.fst).flatten := by
  intro ps
  induction ps with
  | nil => intro _; rw [List.map_nil, List.flatten_nil, kana_nil]; exact Nat.le_refl _
  | cons p ps ih =>
    intro hp
    have ih := ih fun q hq => hp q (List.mem_cons_of_mem _ hq)
    rw [List.map_cons, List.map_cons, List.flatten_cons, List.flatten_cons, weigh_append]
    rcases hp p List.mem_cons_self with h0 | h0 | ⟨c, rfl, hc⟩
    · have hrow := loose_row hm h0
      rcases trip_of_piece hm h0 with rfl | rfl | rfl | ht
      · rw [List.nil_append]; omega
      · have := loose_n hm (ps.map Prod.snd).flatten
        simp only [List.singleton_append]; omega
      · have := loose_n hm (ps.map Prod.snd).flatten
        simp only [List.singleton_append]; omega
      · obtain ⟨c, hc, hc2⟩ := ht.last
        rw [kana_append _ _ (cut_of_last hc hc2), weigh_append]
        omega
    · obtain ⟨⟨v, hv, hb, c, hc, hc2⟩, -⟩ := vpiece_back hm hx hy hxu hyu h0
      rw [kana_append _ _ (cut_of_last hc hc2), hb, weigh_append, weigh_append]
      have h1 : ∀ v ∈ vowelRows, weigh loose [v.2.1] = 0 := by decide
      have := h1 v hv
      omega
    · simp only [List.singleton_append]
      have := loose_cons_le hm hc (ps.map Prod.snd).flatten
      rw [weigh_cons, weigh_nil]
      omega

/-! ## canonical romaji -/

/-- `c` in front of canonical romaji that begin with one of `ks` -/
def tailCheck (m : Mode) (c : Char) (hs : Str) (ks : List Str) : Bool :=
  (ks.all fun k => ((tableOf m).map Prod.fst).contains k && k != ['n'] &&
    (match k with
      | d :: _ => headChar d && d != 'n' && d != '\'' && hs.contains d
      | [] => false)) &&
  (outs m).all fun u => (match u with
      | d :: _ => !hs.contains (toAsciiLowercase d)
      | [] => true) || ks.all fun k =>
    (!(low u).isPrefixOf k && !k.isPrefixOf (low u)) || (u == k && (outs m).contains (c :: k))

theorem n_tails (m : Mode) (hm : m ≠ .ime) : tailCheck m 'n' ['a', 'i', 'u', 'e', 'o', 'y'] nTails = true := by
  cases m with
  | normal => decide +kernel
  | obsolete => decide +kernel
  | ime => exact absurd rfl hm

theorem t_tails (m : Mode) (hm : m ≠ .ime) : tailCheck m 't' ['t'] tTails = true := by
  cases m with
  | normal => decide +kernel
  | obsolete => decide +kernel
  | ime => exact absurd rfl hm

theorem low_asciiLower (s : Str) : s.map Spec.asciiLower = low s := by
  unfold low
  congr 1

/-- canonical romaji that begin with the rest of a key -/
theorem canonical_tail {m : Mode} {x : Char} {hs : Str} {ks : List Str} (hks : tailCheck m x hs ks = true) {r : Str}
    (h : Spec.CanonicalText (tableOf m) (obsOf m) r) :
    ∀ a t, r = a ++ t → low a ∈ ks → x :: a ∈ outs m ∧ Spec.CanonicalText (tableOf m) (obsOf m) t := by
  simp only [tailCheck, Bool.and_eq_true, List.all_eq_true] at hks
  obtain ⟨hks, hus⟩ := hks
  have hhead : ∀ {a : Str}, low a ∈ ks → ∃ c a', a = c :: a' ∧ headChar (toAsciiLowercase c) = true ∧
      toAsciiLowercase c ≠ 'n' ∧ toAsciiLowercase c ≠ '\'' ∧ hs.contains (toAsciiLowercase c) = true := by
    intro a ha
    have h := (hks _ ha).2
    cases a with
    | nil => simp [low] at h
    | cons d a =>
      simp only [low, List.map_cons, Bool.and_eq_true, bne_iff_ne] at h
      exact ⟨d, a, rfl, h.1.1.1, h.1.1.2, h.1.2, h.2⟩
  induction h with
  | nil =>
    intro a t e ha
    obtain ⟨c, a', rfl, _⟩ := hhead ha
    cases e
  | piece hu hn hr ih =>
    rename_i u r
    intro a t e ha
    rcases runit_iff.2 hu with h | ⟨c, hc, rfl⟩
    · cases hu0 : u with
      | nil => rw [hu0] at e; exact ih a t (by simpa using e) ha
      | cons d u' =>
      have hch := hus _ h
      simp only [Bool.or_eq_true] at hch
      have hch := List.all_eq_true.1 (hch.resolve_left (by
        obtain ⟨c, a', rfl, _, _, _, hd⟩ := hhead ha
        rw [hu0] at e ⊢
        injection e with e _
        show ¬ (!hs.contains (toAsciiLowercase d)) = true
        rw [e, hd]; exact Bool.false_ne_true)) _ ha
      simp only [Bool.or_eq_true, beq_iff_eq, Bool.and_eq_true, Bool.not_eq_true'] at hch
      rcases hch with ⟨h1, h2⟩ | ⟨h1, h2⟩
      · exfalso
        rcases List.append_eq_append_iff.1 e with ⟨b, rfl, -⟩ | ⟨b, rfl, -⟩
        · have : (low u).isPrefixOf (low (u ++ b)) = true := List.isPrefixOf_iff_prefix.2 ⟨low b, by simp [low]⟩
          rw [h1] at this; cases this
        · have : (low a).isPrefixOf (low (a ++ b)) = true := List.isPrefixOf_iff_prefix.2 ⟨low b, by simp [low]⟩
          rw [h2] at this; cases this
      · have hl : u.length = a.length := by rw [h1]; simp [low]
        obtain ⟨rfl, rfl⟩ := List.append_inj e hl
        refine ⟨?_, hr⟩
        rw [← h1] at h2
        simpa [List.contains_eq_mem] using h2
    · exfalso
      obtain ⟨d, a', rfl, hd, _⟩ := hhead ha
      injection e with e _
      subst e
      rw [hc.1] at hd; cases hd
  | n hd _ ih =>
    intro a t e ha
    exfalso
    obtain ⟨d, a', rfl, _, hd, _⟩ := hhead ha
    injection e with e _
    subst e
    exact hd (by decide)
  | quote _ ih =>
    intro a t e ha
    exfalso
    obtain ⟨d, a', rfl, _, _, hd, _⟩ := hhead ha
    injection e with e _
    subst e
    exact hd (by decide)
  | letter hc hs _ ih =>
    intro a t e ha
    exfalso
    obtain ⟨hk, hne⟩ := (hks _ ha).1
    rw [List.contains_eq_mem, decide_eq_true_iff] at hk
    obtain ⟨k, hk, ek⟩ := List.mem_map.1 hk
    have h1 := hs.1 k hk (by
      rw [e, low_asciiLower, ek]
      exact ⟨low t, by simp [low]⟩)
    rw [ek] at h1
    rw [h1] at hne
    revert hne; decide

/-- n in front of canonical romaji, if nothing is lost -/
theorem canonical_n {m : Mode} (hm : m ≠ .ime) {r : Str} (hr : Spec.CanonicalText (tableOf m) (obsOf m) r)
    (hc : (kana m ('n' :: r)).countP heavy = 1 + (kana m r).countP heavy) :
    Spec.CanonicalText (tableOf m) (obsOf m) ('n' :: r) := by
  obtain ⟨n, k, hst⟩ := exists_stops (tree m) ('n' :: r)
  cases ho : n.output with
  | none => exact .letter (by decide) ((stays_iff hm (by decide) _).2 (kana_miss hst ho)) hr
  | some out =>
    obtain ⟨a, t, rfl, hk, hw, hkana⟩ := hit_split hst ho
    rcases n_keys hm hw ho with ⟨h | h, he⟩ | h
    · have := low_eq_nil h
      subst this
      rw [List.nil_append] at hst hr ⊢
      refine .n ?_ hr
      intro d hd hmem
      have h2 := hst.stop d (by rw [hk]; simpa using hd)
      exact walk_snoc hw (List.all_eq_true.1 (n_step m hm) _ (low_open.2 hmem)) h2
    · exfalso
      have := low_quote h
      subst this
      have h2 : heavy '\'' = true := by decide
      rw [hkana, he, List.singleton_append, kana_quote_cons, List.countP_append, heavy_styled, List.countP_cons_of_pos h2] at hc
      have h1 : (['ん'] : Str).countP heavy = 1 := by decide
      omega
    · obtain ⟨h1, h2⟩ := canonical_tail (n_tails m hm) hr a t rfl h
      have h3 : Spec.CanonicalPiece (obsOf m) ('n' :: a) := runit_iff.1 (Or.inl h1)
      refine Spec.CanonicalText.piece h3 ?_ h2
      intro e
      injection e with _ e
      rw [e] at h
      revert h; decide

theorem heavy_outs (m : Mode) (hm : m ≠ .ime) : (kanaTable.all fun p => !(p.1.contains 'ゐ' || p.1.contains 'ゑ') ||
    (obsOf m && !p.1.contains 'っ') || decide ((kana m p.2).countP heavy < p.1.countP heavy)) = true := by
  cases m with
  | normal => decide +kernel
  | obsolete => decide +kernel
  | ime => exact absurd rfl hm

theorem marks_outs (m : Mode) (hm : m ≠ .ime) : (latinMarks.all fun c => (outs m).contains [c]) = true := by
  cases m with
  | normal => decide +kernel
  | obsolete => decide +kernel
  | ime => exact absurd rfl hm

/-- If nothing gets lighter and no letter disappears, the romaji are canonical. -/
theorem canonical_or_fewer {m : Mode} (hm : m ≠ .ime) {x y : Char} (hx : x ∈ "aiueo".toList) (hy : y ∈ "aiueo".toList)
    (hxu : x ≠ 'u') (hyu : y ≠ 'u') : ∀ ps : List (Str × Str), (∀ p ∈ ps, RPiece p ∨ LPiece p) →
    (kana m (ps.map Prod.snd).flatten).countP heavy = ((ps.map Prod.fst).flatten).countP heavy →
    Spec.CanonicalText (tableOf m) (obsOf m) (ps.map Prod.snd).flatten ∨
    weigh loose (kana m (ps.map Prod.snd).flatten) < weigh loose (ps.map Prod.fst).flatten := by
  intro ps
  induction ps with
  | nil => intro _ _; exact Or.inl .nil
  | cons p ps ih =>
    intro hp hcount
    have hps : ∀ q ∈ ps, RPiece q ∨ LPiece q := fun q hq => hp q (List.mem_cons_of_mem _ hq)
    have hpsA : ∀ q ∈ ps, APiece x y q := fun q hq => (hps q hq).imp id Or.inr
    have ih := ih hps
    have hW := pieces_heavy hm hx hy hxu hyu ps hpsA
    have hB := pieces_loose hm hx hy hxu hyu ps hpsA
    rw [List.map_cons, List.map_cons, List.flatten_cons, List.flatten_cons] at hcount ⊢
    rw [List.countP_append] at hcount
    rw [weigh_append]
    have hn : ∀ c : Char, c = 'n' → (kana m (c :: (ps.map Prod.snd).flatten)).countP heavy =
        1 + ((ps.map Prod.fst).flatten).countP heavy →
        Spec.CanonicalText (tableOf m) (obsOf m) (c :: (ps.map Prod.snd).flatten) ∨
        weigh loose (kana m (c :: (ps.map Prod.snd).flatten)) < weigh loose (ps.map Prod.fst).flatten := by
      rintro c rfl e
      have h1 := kana_cons_heavy hm 'n' (ps.map Prod.snd).flatten
      rcases ih (by omega) with h | h
      · left
        exact canonical_n hm h (by omega)
      · right
        have := loose_n hm (ps.map Prod.snd).flatten
        omega
    rcases hp p List.mem_cons_self with h0 | ⟨c, rfl, hc⟩
    · have hrow := (rpiece_row hm h0).1
      have hrowB := loose_row hm h0
      rcases trip_of_piece hm h0 with rfl | rfl | rfl | ht
      · exfalso
        have h1 : (['っ'] : Str).countP heavy = 1 := by decide
        simp only [List.nil_append] at hcount
        omega
      · have h1 : (['ん'] : Str).countP heavy = 1 := by decide
        have h2 : weigh loose ['ん'] = 0 := by decide
        simp only [List.singleton_append] at hcount ⊢
        rw [h2, Nat.zero_add]
        exact hn 'n' rfl (by omega)
      · exfalso
        have := kana_cons_heavy hm 'n' (ps.map Prod.snd).flatten
        have h1 : (['っ', 'ん'] : Str).countP heavy = 2 := by decide
        simp only [List.singleton_append] at hcount
        omega
      · obtain ⟨c, hc, hc2⟩ := ht.last
        rw [kana_append _ _ (cut_of_last hc hc2)] at hcount ⊢
        rw [List.countP_append] at hcount
        rw [weigh_append]
        rcases ih (by omega) with h | h
        · left
          refine .piece (runit_iff.1 ?_) ?_ h
          · rcases h0 with h0 | ⟨c, rfl, h0 | h0⟩
            · have := List.all_eq_true.1 (heavy_outs m hm) p h0
              rw [Bool.or_eq_true, decide_eq_true_iff] at this
              exact Or.inl (List.mem_map.2 ⟨p, List.mem_filter.2 ⟨h0, this.resolve_right (by omega)⟩, rfl⟩)
            · exact Or.inr ⟨c, h0.1, rfl⟩
            · have := List.all_eq_true.1 (marks_outs m hm) c h0
              simp only [List.contains_eq_mem, decide_eq_true_iff] at this
              exact Or.inl this
          · intro e
            rw [e] at hc
            cases hc
            exact hc2 (by decide)
        · right; omega
    · have h1 : ([c] : Str).countP heavy = 1 := by simp [heavy_low (lpiece_ascii hc)]
      have hle := kana_cons_heavy hm c (ps.map Prod.snd).flatten
      simp only [List.singleton_append] at hcount ⊢
      rw [weigh_cons, weigh_nil]
      by_cases hcn : c = 'n'
      · rcases hn c hcn (by omega) with h | h
        · exact Or.inl h
        · right; omega
      rcases hc with hc | rfl
      · have hc' := lpiece_ascii (Or.inl hc)
        rcases loose_cons hm c (ps.map Prod.snd).flatten with h | ⟨a, t', l, e, hl, h, _, hat⟩
        · rw [h, List.countP_cons_of_pos (heavy_low hc')] at hcount
          rcases ih (by omega) with h4 | h4
          · exact Or.inl (.letter hc ((stays_iff hm hc' _).2 h) h4)
          · right
            rw [h, weigh_cons]
            omega
        · by_cases hct : c = 't'
          · have h2 : loose 't' = 1 := by decide
            rw [hct] at h ⊢
            rcases hat hct with rfl | ha
            · right; omega
            · rcases ih (by omega) with h4 | h4
              · left
                obtain ⟨h5, h6⟩ := canonical_tail (t_tails m hm) h4 a t' e ha
                rw [e, ← List.cons_append]
                exact .piece (runit_iff.1 (Or.inl h5)) (by simp) h6
              · right; omega
          · have h2 := loose_letter hc hcn hct
            right; omega
      · have h3 : heavy '\'' = true := by decide
        rw [kana_quote_cons, List.countP_cons_of_pos h3] at hcount
        have h2 : loose '\'' = 0 := by decide
        rcases ih (by omega) with h4 | h4
        · exact Or.inl (.quote h4)
        · right
          rw [kana_quote_cons, weigh_cons]
          omega

end WanaKana
