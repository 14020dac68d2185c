import Verif.Proofs.Settle
import Verif.Props.CanonicalIme
/-! # What one trip does to the weights of a text in IME mode (for C125) -/

namespace WanaKana
open KNode RNode
open Spec (toHira kanaTable)

/-- what can still be read otherwise in IME mode: letters count, t, っ, n and ん less -/
def looseI (c : Char) : Nat :=
  if c.toNat = 0x6E ∨ c.toNat = 0x4E ∨ c.toNat = 0x3093 ∨ c.toNat = 0x30F3 ∨ c.toNat = 0x74 ∨ c.toNat = 0x3063 ∨ c.toNat = 0x30C3 then 1
  else if 0x41 ≤ c.toNat ∧ c.toNat ≤ 0x5A ∨ 0x61 ≤ c.toNat ∧ c.toNat ≤ 0x7A then 2 else 0

theorem looseI_le (c : Char) : looseI c ≤ 2 := by
  unfold looseI
  repeat' split
  all_goals omega

theorem looseI_n {c : Char} (h : toAsciiLowercase c = 'n') : looseI c = 1 := by
  rw [char_eq_iff, toAsciiLowercase_toNat] at h
  simp only [Char.reduceToNat] at h
  unfold looseI
  repeat' split
  all_goals (split at h <;> omega)

theorem looseI_letter {c : Char} (h : Spec.AsciiLetter c) (hn : toAsciiLowercase c ≠ 'n') (ht : c ≠ 't') : looseI c = 2 := by
  unfold Spec.AsciiLetter Spec.In at h
  rw [ne_eq, char_eq_iff, toAsciiLowercase_toNat] at hn
  simp only [ne_eq, char_eq_iff, Char.reduceToNat] at hn ht
  unfold looseI
  split at hn
  all_goals (repeat' split)
  all_goals omega

theorem looseI_shift {std : Std} (hstd : std.Lawful) (s : Str) :
    weigh looseI (k2hP std true none s) ≤ weigh looseI s := by
  apply k2hP_weigh0 hstd true _ (by decide) s prevOk_none
  intro c h1 h2
  unfold looseI
  rw [k2hChar_toNat h1 h2]
  repeat' split
  all_goals omega

theorem looseI_styled (x out : Str) (h : ∀ d ∈ out, 0x3000 ≤ d.toNat) : weigh looseI (styled x out) = weigh looseI out := by
  unfold styled
  split
  · unfold weigh
    rw [List.map_map]
    congr 1
    apply List.map_congr_left
    intro c hc
    have := h c hc
    simp only [Function.comp, looseI, h2kP_toNat]
    repeat' split
    all_goals omega
  · rfl

/-- the keys that begin with n give ん or weigh nothing -/
theorem n_keysI {k out : Str} {n : KNode} (hw : (tree .ime).walk ('n' :: k) = some n)
    (ho : n.output = some out) : (k = ['n'] ∨ k = [' '] ∨ k = ['\'']) ∧ out = ['ん'] ∨ k ∈ nTails ∧ weigh looseI out = 0 := by
  have h : allModes (fun m x => decide (m ≠ .ime) || match x.2.output, x.1 with
      | some out, 'n' :: k => decide ((k = ['n'] ∨ k = [' '] ∨ k = ['\'']) ∧ out = ['ん'] ∨ k ∈ nTails ∧ weigh looseI out = 0)
      | _, _ => true) = true := by
    decide +kernel
  have := allModes_walk h hw
  simp only [ho, Bool.or_eq_true, decide_eq_true_iff] at this
  exact this.resolve_left (fun h => h rfl)

theorem n_tails_kanaI : (nTails.all fun k => (kana .ime k).all fun d => decide (0x3000 ≤ d.toNat) && looseI d == 0) = true := by
  decide +kernel

theorem looseI_low {a : Str} (h : ∀ d ∈ kana .ime (low a), 0x3000 ≤ d.toNat ∧ looseI d = 0) :
    weigh looseI (kana .ime a) = 0 := by
  apply weigh_zero
  intro c hc
  have h1 : Spec.toKata (Spec.asciiLower c) ∈ fold (kana .ime a) := List.mem_map.2 ⟨c, hc, rfl⟩
  rw [fold_kana .ime a (low a) (low_low a).symm] at h1
  obtain ⟨d, hd, e⟩ := List.mem_map.1 h1
  obtain ⟨h2, h3⟩ := h d hd
  simp only [char_eq_iff, toKata_eq, asciiLower_eq, h2kP_toNat, toAsciiLowercase_toNat] at e
  unfold looseI at h3 ⊢
  have h4 : ¬ (d.toNat = 0x3063 ∨ d.toNat = 0x30C3 ∨ d.toNat = 0x3093 ∨ d.toNat = 0x30F3) := by
    intro h4
    rw [if_pos (by omega)] at h3
    omega
  repeat' split at e
  all_goals (repeat' split)
  all_goals omega

theorem keysI {c : Char} {k out : Str} {n : KNode} (hw : (tree .ime).walk (c :: k) = some n)
    (ho : n.output = some out) : weigh looseI out ≤ 1 ∧ (c = 't' → weigh looseI out = 0 ∨ k ∈ tTails) := by
  have h : allModes (fun m x => decide (m ≠ .ime) || match x.2.output, x.1 with
      | some out, c :: k => decide (weigh looseI out ≤ 1 ∧ (c = 't' → weigh looseI out = 0 ∨ k ∈ tTails))
      | _, _ => true) = true := by
    decide +kernel
  have := allModes_walk h hw
  simp only [ho, Bool.or_eq_true, decide_eq_true_iff] at this
  exact this.resolve_left (fun h => h rfl)

/-- one more character in front: it stays, or a key is read; an n takes nothing away -/
theorem looseI_cons : ∀ t : Str, (∀ c, kana .ime (c :: t) = c :: kana .ime t ∨ ∃ a t' l, t = a ++ t' ∧ l ≤ 1 ∧
      weigh looseI (kana .ime (c :: t)) ≤ l + weigh looseI (kana .ime t) ∧
      (toAsciiLowercase c = 'n' → l = 0 ∨ (low a = ['n'] ∨ low a = [' '] ∨ low a = ['\'']) ∧
        ∃ b, kana .ime (c :: t) = b :: kana .ime t' ∧ heavy b = true ∧ looseI b = 1) ∧
      (c = 't' → l = 0 ∨ low a ∈ tTails)) ∧
    ∀ c, toAsciiLowercase c = 'n' → weigh looseI (kana .ime t) ≤ weigh looseI (kana .ime (c :: t)) := by
  intro t
  have hq : looseI '\'' = 0 := by decide
  have hs : weigh looseI (kana .ime [' ']) = 0 := by decide +kernel
  have hspace : ∀ a t : Str, low a = [' '] → kana .ime (a ++ t) = kana .ime [' '] ++ kana .ime t := by
    intro a t h
    rw [cut_low (h ▸ ⟨' ', rfl, by decide⟩)]
    obtain ⟨d, rfl, hd⟩ := low_single h
    have : d = ' ' := by
      rw [char_eq_iff, toAsciiLowercase_toNat] at hd
      rw [char_eq_iff]
      simp only [Char.reduceToNat] at hd ⊢
      split at hd <;> omega
    rw [this]
  induction t using list_strong with
  | _ t ih =>
    constructor
    · intro c
      obtain ⟨n, k, hst⟩ := exists_stops (tree .ime) (c :: t)
      cases ho : n.output with
      | none => exact Or.inl (kana_miss hst ho)
      | some out =>
        right
        obtain ⟨a, t', rfl, _, hw, hkana⟩ := hit_split hst ho
        have kw := key_weightsI hw ho
        obtain ⟨h1, h3⟩ := keysI hw ho
        refine ⟨a, t', weigh looseI out, rfl, h1, ?_, ?_, ?_⟩
        · rw [hkana, weigh_append, looseI_styled _ _ kw.kana]
          rcases kw.shape with h | h | ⟨h, h1⟩ | h
          · rw [low_eq_nil h, List.nil_append]; omega
          · rw [low_quote h, List.singleton_append, kana_quote_cons, weigh_cons]; omega
          · obtain ⟨d, rfl, hd⟩ := low_single h
            have := (ih t' (by simp)).2 d hd
            rw [List.singleton_append]; omega
          · rw [cut_low h, weigh_append]; omega
        · intro hc
          rw [hc] at hw
          rcases n_keysI hw ho with ⟨h, e⟩ | h
          · right
            refine ⟨h, ?_⟩
            rw [hkana, e]
            unfold styled
            split
            · exact ⟨_, rfl, by decide, by decide⟩
            · exact ⟨_, rfl, by decide, by decide⟩
          · exact Or.inl h.2
        · rintro rfl; exact h3 (by decide)
    · intro c hc
      obtain ⟨n, k, hst⟩ := exists_stops (tree .ime) (c :: t)
      cases ho : n.output with
      | none => rw [kana_miss hst ho, weigh_cons]; omega
      | some out =>
        obtain ⟨a, t', rfl, _, hw, hkana⟩ := hit_split hst ho
        have kw := key_weightsI hw ho
        rw [hkana, weigh_append, looseI_styled _ _ kw.kana]
        rw [hc] at hw
        rcases n_keysI hw ho with ⟨h | h | h, e⟩ | ⟨h, _⟩
        · obtain ⟨d, rfl, hd⟩ := low_single h
          rw [List.singleton_append, e, show weigh looseI ['ん'] = 1 by decide]
          have hdn := looseI_n hd
          rcases (ih t' (by simp)).1 d with h | ⟨_, _, l, _, hl, h, _⟩
          · rw [h, weigh_cons]; omega
          · omega
        · rw [hspace a t' h, weigh_append]; omega
        · rw [low_quote h, List.singleton_append, kana_quote_cons, weigh_cons]; omega
        · rw [cut_low (nTails_last _ h), weigh_append, looseI_low]
          · omega
          · intro d hd
            have := List.all_eq_true.1 (List.all_eq_true.1 n_tails_kanaI _ h) d hd
            simpa using this

theorem looseI_cons_le {c : Char} (hc : Spec.AsciiLetter c ∨ c = '\'') (t : Str) :
    weigh looseI (kana .ime (c :: t)) ≤ looseI c + weigh looseI (kana .ime t) := by
  rcases hc with hc | rfl
  · rcases (looseI_cons t).1 c with h | ⟨a, t', l, _, h0, h1, _⟩
    · rw [h, weigh_cons]; omega
    · by_cases hn : toAsciiLowercase c = 'n'
      · have := looseI_n hn; omega
      · by_cases ht : c = 't'
        · have h3 : looseI 't' = 1 := by decide
          rw [ht] at h1 ⊢
          omega
        · have := looseI_letter hc hn ht; omega
  · rw [kana_quote_cons, weigh_cons]; omega

theorem looseI_table : (kanaTable.all fun p => decide (weigh looseI (kana .ime p.2) ≤ weigh looseI p.1)) = true := by
  decide +kernel

theorem looseI_marks : (latinMarks.all fun c => decide (weigh looseI (kana .ime [c]) = 0)) = true := by
  decide +kernel

theorem looseI_row {p : Str × Str} (h : RPiece p) : weigh looseI (kana .ime p.2) ≤ weigh looseI p.1 := by
  rcases h with h | ⟨c, rfl, h | h⟩
  · exact of_decide_eq_true (List.all_eq_true.1 looseI_table p h)
  · have hk : kana .ime [c] = [c] := by
      have := kana_of_not_head (m := .ime) (s := [c]) (by simpa using h.1.1) []
      simpa [kana_nil] using this
    rw [hk]; exact Nat.le_refl _
  · rw [of_decide_eq_true (List.all_eq_true.1 looseI_marks c h)]; omega

/-- a trip leaves no more than there was -/
theorem pieces_looseI {x y : Char} (hx : x ∈ "aiueo".toList) (hy : y ∈ "aiueo".toList)
    (hxu : x ≠ 'u') (hyu : y ≠ 'u') : ∀ ps : List (Str × Str), (∀ p ∈ ps, APiece x y p) →
    weigh looseI (kana .ime (ps.map Prod.snd).flatten) ≤ weigh looseI (ps.map Prod.fst).flatten := by
  intro ps
  induction ps with
  | nil => intro _; rw [List.map_nil, List.flatten_nil, kana_nil]; exact Nat.le_refl _
  | cons p ps ih =>
    intro hp
    have ih := ih fun q hq => hp q (List.mem_cons_of_mem _ hq)
    have hn := looseI_cons_le (c := 'n') (Or.inl (by decide)) (ps.map Prod.snd).flatten
    have hn1 : looseI 'n' = 1 := by decide
    rw [List.map_cons, List.map_cons, List.flatten_cons, List.flatten_cons, weigh_append]
    rcases hp p List.mem_cons_self with h0 | h0 | ⟨c, rfl, hc⟩
    · have hrow := looseI_row h0
      rcases trip_of_pieceI h0 with rfl | rfl | rfl | ht
      · rw [List.nil_append]; omega
      · have h1 : weigh looseI ['ん'] = 1 := by decide
        simp only [List.singleton_append]; omega
      · have h1 : weigh looseI ['っ', 'ん'] = 2 := by decide
        simp only [List.singleton_append]; omega
      · obtain ⟨c, hc, hc2⟩ := ht.last
        rw [kana_append _ _ (cut_of_last hc hc2), weigh_append]
        omega
    · obtain ⟨v, hv, hb, c, hc, hc2⟩ := vpiece_backI hx hy hxu hyu h0
      rw [kana_append _ _ (cut_of_last hc hc2), hb, weigh_append, weigh_append]
      have h1 : ∀ v ∈ vowelRows, weigh looseI [v.2.1] = 0 := by decide
      have := h1 v hv
      omega
    · simp only [List.singleton_append]
      have := looseI_cons_le hc (ps.map Prod.snd).flatten
      rw [weigh_cons, weigh_nil]
      omega

/-! ## canonical romaji -/

theorem t_tailsI : tailCheck .ime 't' ['t'] tTails = true := by decide +kernel

/-- canonical romaji that begin with the rest of a key -/
theorem canonical_tailI {x : Char} {hs : Str} {ks : List Str} (hks : tailCheck .ime x hs ks = true) {r : Str}
    (h : Spec.CanonicalIme r) : ∀ a t, r = a ++ t → low a ∈ ks → x :: a ∈ outs .ime ∧ Spec.CanonicalIme t := by
  simp only [tailCheck, Bool.and_eq_true, List.all_eq_true] at hks
  obtain ⟨hks, hus⟩ := hks
  have hhead : ∀ {a : Str}, low a ∈ ks → ∃ c a', a = c :: a' ∧ headChar (toAsciiLowercase c) = true ∧
      toAsciiLowercase c ≠ 'n' ∧ toAsciiLowercase c ≠ '\'' ∧ hs.contains (toAsciiLowercase c) = true := by
    intro a ha
    have h := (hks _ ha).2
    cases a with
    | nil => simp [low] at h
    | cons d a =>
      simp only [low, List.map_cons, Bool.and_eq_true, bne_iff_ne] at h
      exact ⟨d, a, rfl, h.1.1.1, h.1.1.2, h.1.2, h.2⟩
  induction h with
  | nil =>
    intro a t e ha
    obtain ⟨c, a', rfl, _⟩ := hhead ha
    cases e
  | piece hu hn hr ih =>
    rename_i u r
    intro a t e ha
    rcases (runit_iff (m := .ime)).2 hu with h | ⟨c, hc, rfl⟩
    · cases hu0 : u with
      | nil => rw [hu0] at e; exact ih a t (by simpa using e) ha
      | cons d u' =>
      have hch := hus _ h
      simp only [Bool.or_eq_true] at hch
      have hch := List.all_eq_true.1 (hch.resolve_left (by
        obtain ⟨c, a', rfl, _, _, _, hd⟩ := hhead ha
        rw [hu0] at e ⊢
        injection e with e _
        show ¬ (!hs.contains (toAsciiLowercase d)) = true
        rw [e, hd]; exact Bool.false_ne_true)) _ ha
      simp only [Bool.or_eq_true, beq_iff_eq, Bool.and_eq_true, Bool.not_eq_true'] at hch
      rcases hch with ⟨h1, h2⟩ | ⟨h1, h2⟩
      · exfalso
        rcases List.append_eq_append_iff.1 e with ⟨b, rfl, -⟩ | ⟨b, rfl, -⟩
        · have : (low u).isPrefixOf (low (u ++ b)) = true := List.isPrefixOf_iff_prefix.2 ⟨low b, by simp [low]⟩
          rw [h1] at this; cases this
        · have : (low a).isPrefixOf (low (a ++ b)) = true := List.isPrefixOf_iff_prefix.2 ⟨low b, by simp [low]⟩
          rw [h2] at this; cases this
      · have hl : u.length = a.length := by rw [h1]; simp [low]
        obtain ⟨rfl, rfl⟩ := List.append_inj e hl
        refine ⟨?_, hr⟩
        rw [← h1] at h2
        simpa [List.contains_eq_mem] using h2
    · exfalso
      obtain ⟨d, a', rfl, hd, _⟩ := hhead ha
      injection e with e _
      subst e
      rw [hc.1] at hd; cases hd
  | quote _ ih =>
    intro a t e ha
    exfalso
    obtain ⟨d, a', rfl, _, _, hd, _⟩ := hhead ha
    injection e with e _
    subst e
    exact hd (by decide)
  | letter hc hs _ ih =>
    intro a t e ha
    exfalso
    have hk := (hks _ ha).1.1
    rw [List.contains_eq_mem, decide_eq_true_iff] at hk
    obtain ⟨k, hk, ek⟩ := List.mem_map.1 hk
    exact hs k hk (by
      rw [e, low_asciiLower, ek]
      exact ⟨low t, by simp [low]⟩)

/-- without its n a romaji weighs less -/
theorem n_outsI : ((outs .ime).all fun u => match u with
    | d :: u' => toAsciiLowercase d != 'n' || u' == [] && d == 'n' || (decide ((kana .ime u').countP heavy < (kana .ime u).countP heavy) ||
        decide ((kana .ime u').countP heavy ≤ (kana .ime u).countP heavy ∧ weigh looseI (kana .ime u') < weigh looseI (kana .ime u))) &&
      (match u'.getLast? with
        | some c => !("bcdfghjklmnpqrstvwxyz".toList.contains (toAsciiLowercase c))
        | none => false) && d == 'n'
    | [] => true) = true := by
  decide +kernel

theorem canonical_nnI {r : Str} (h : Spec.CanonicalIme r) : ∀ d t, r = d :: t → toAsciiLowercase d = 'n' →
    (kana .ime t).countP heavy < (kana .ime r).countP heavy ∨
    weigh looseI (kana .ime t) < weigh looseI (kana .ime r) := by
  induction h with
  | nil => intro d t e; cases e
  | piece hu hn hr ih =>
    rename_i u r
    intro d t e hd
    rcases (runit_iff (m := .ime)).2 hu with h | ⟨c, hc, rfl⟩
    · have hch := List.all_eq_true.1 n_outsI _ h
      cases u with
      | nil => exact ih d t e hd
      | cons d' u' =>
        injection e with e1 e
        subst e1
        simp only [hd, bne_self_eq_false, Bool.false_or, Bool.or_eq_true, Bool.and_eq_true, beq_iff_eq, decide_eq_true_iff] at hch
        rcases hch with ⟨h, h'⟩ | ⟨⟨h, hl⟩, e2⟩
        · exact absurd (by rw [h, h']) hn
        · have hl' : ∃ c, u'.getLast? = some c ∧ toAsciiLowercase c ∉ "bcdfghjklmnpqrstvwxyz".toList := by
            cases hl0 : u'.getLast? with
            | none => rw [hl0] at hl; cases hl
            | some c =>
              rw [hl0] at hl
              exact ⟨c, rfl, by simpa only [Bool.not_eq_true', List.contains_eq_mem, decide_eq_false_iff_not] using hl⟩
          obtain ⟨c, hc, hc2⟩ := hl'
          have hcu : (d' :: u').getLast? = some c := by
            rw [← List.singleton_append, getLast?_append_ne _ (by intro e; rw [e] at hc; cases hc)]; exact hc
          have e3 : t = u' ++ r := e.symm
          rw [e3, kana_append _ _ (cut_of_last hcu hc2), kana_append _ _ (cut_of_last hc hc2), List.countP_append,
            List.countP_append, weigh_append, weigh_append]
          rcases h with h | h
          · left; omega
          · right; omega
    · exfalso
      injection e with e _
      subst e
      have := hc.1
      rw [hd] at this
      revert this; decide
  | quote _ ih =>
    intro d t e hd
    injection e with e _
    subst e
    exact absurd hd (by decide)
  | letter hc hs _ ih =>
    intro d t e hd
    injection e with e1 e
    subst e1 e
    have ha := lpiece_ascii (Or.inl hc)
    rw [(stays_ime ha _).1 hs]
    left
    rw [List.countP_cons_of_pos (heavy_low ha)]
    omega

theorem heavy_outsI : (kanaTable.all fun p => !(p.1.contains 'ゐ' || p.1.contains 'ゑ') ||
    decide ((kana .ime p.2).countP heavy < p.1.countP heavy)) = true := by
  decide +kernel

theorem marks_outsI : (latinMarks.all fun c => (outs .ime).contains [c]) = true := by
  decide +kernel

/-- If nothing gets lighter and no letter disappears, the romaji are canonical. -/
theorem canonical_or_fewerI {x y : Char} (hx : x ∈ "aiueo".toList) (hy : y ∈ "aiueo".toList)
    (hxu : x ≠ 'u') (hyu : y ≠ 'u') : ∀ ps : List (Str × Str), (∀ p ∈ ps, RPiece p ∨ LPiece p) →
    (kana .ime (ps.map Prod.snd).flatten).countP heavy = ((ps.map Prod.fst).flatten).countP heavy →
    Spec.CanonicalIme (ps.map Prod.snd).flatten ∨
    weigh looseI (kana .ime (ps.map Prod.snd).flatten) < weigh looseI (ps.map Prod.fst).flatten := by
  intro ps
  induction ps with
  | nil => intro _ _; exact Or.inl .nil
  | cons p ps ih =>
    intro hp hcount
    have hps : ∀ q ∈ ps, RPiece q ∨ LPiece q := fun q hq => hp q (List.mem_cons_of_mem _ hq)
    have hpsA : ∀ q ∈ ps, APiece x y q := fun q hq => (hps q hq).imp id Or.inr
    have ih := ih hps
    have hW := pieces_heavyI hx hy hxu hyu ps hpsA
    have hB := pieces_looseI hx hy hxu hyu ps hpsA
    rw [List.map_cons, List.map_cons, List.flatten_cons, List.flatten_cons] at hcount ⊢
    rw [List.countP_append] at hcount
    rw [weigh_append]
    have hstay : ∀ c : Char, Spec.AsciiLetter c → kana .ime (c :: (ps.map Prod.snd).flatten) = c :: kana .ime (ps.map Prod.snd).flatten →
        (kana .ime (c :: (ps.map Prod.snd).flatten)).countP heavy = 1 + ((ps.map Prod.fst).flatten).countP heavy →
        Spec.CanonicalIme (c :: (ps.map Prod.snd).flatten) ∨
        weigh looseI (kana .ime (c :: (ps.map Prod.snd).flatten)) < looseI c + weigh looseI (ps.map Prod.fst).flatten := by
      intro c hc h hcount
      have hc' := lpiece_ascii (Or.inl hc)
      rw [h, List.countP_cons_of_pos (heavy_low hc')] at hcount
      rcases ih (by omega) with h4 | h4
      · exact Or.inl (.letter hc ((stays_ime hc' _).2 h) h4)
      · right
        rw [h, weigh_cons]
        omega
    have hn : ∀ c : Char, Spec.AsciiLetter c → toAsciiLowercase c = 'n' → (kana .ime (c :: (ps.map Prod.snd).flatten)).countP heavy =
        1 + ((ps.map Prod.fst).flatten).countP heavy →
        Spec.CanonicalIme (c :: (ps.map Prod.snd).flatten) ∨
        weigh looseI (kana .ime (c :: (ps.map Prod.snd).flatten)) < looseI c + weigh looseI (ps.map Prod.fst).flatten := by
      intro c hc hcn e
      have hc1 := looseI_n hcn
      rcases (looseI_cons (ps.map Prod.snd).flatten).1 c with h | ⟨a, t', l, e1, hl, h, hnn, _⟩
      · exact hstay c hc h e
      · right
        rcases hnn hcn with rfl | ⟨ha, b, hb, hb1, hb2⟩
        · omega
        · have h1 := (kana_cons_heavyI (ps.map Prod.snd).flatten).1 c
          rcases ih (by omega) with h4 | h4
          · rw [hb, List.countP_cons_of_pos hb1] at e
            rcases ha with ha | ha | ha
            · obtain ⟨d, rfl, hd⟩ := low_single ha
              rcases canonical_nnI h4 d t' e1 hd with h5 | h5
              · exfalso; omega
              · rw [hb, weigh_cons]; omega
            · exfalso
              have h6 : (kana .ime a).countP heavy = 1 := by
                obtain ⟨d, rfl, hd⟩ := low_single ha
                have : d = ' ' := by
                  rw [char_eq_iff, toAsciiLowercase_toNat] at hd
                  rw [char_eq_iff]
                  simp only [Char.reduceToNat] at hd ⊢
                  split at hd <;> omega
                rw [this]; decide +kernel
              have h5 : (kana .ime (ps.map Prod.snd).flatten).countP heavy = 1 + (kana .ime t').countP heavy := by
                rw [e1, cut_low (ha ▸ ⟨' ', rfl, by decide⟩), List.countP_append, h6]
              omega
            · exfalso
              have h3 : heavy '\'' = true := by decide
              have h5 : (kana .ime (ps.map Prod.snd).flatten).countP heavy = 1 + (kana .ime t').countP heavy := by
                rw [e1, low_quote ha, List.singleton_append, kana_quote_cons, List.countP_cons_of_pos h3, Nat.add_comm]
              omega
          · omega
    rcases hp p List.mem_cons_self with h0 | ⟨c, rfl, hc⟩
    · have hrow := (rpiece_rowI h0).1
      have hrowB := looseI_row h0
      rcases trip_of_pieceI h0 with rfl | rfl | rfl | ht
      · exfalso
        have h1 : (['っ'] : Str).countP heavy = 1 := by decide
        simp only [List.nil_append] at hcount
        omega
      · have h1 : (['ん'] : Str).countP heavy = 1 := by decide
        have h2 : weigh looseI ['ん'] = looseI 'n' := by decide
        simp only [List.singleton_append] at hcount ⊢
        rw [h2]
        exact hn 'n' (by decide) (by decide) (by omega)
      · exfalso
        have := (kana_cons_heavyI (ps.map Prod.snd).flatten).1 'n'
        have h1 : (['っ', 'ん'] : Str).countP heavy = 2 := by decide
        simp only [List.singleton_append] at hcount
        omega
      · obtain ⟨c, hc, hc2⟩ := ht.last
        rw [kana_append _ _ (cut_of_last hc hc2)] at hcount ⊢
        rw [List.countP_append] at hcount
        rw [weigh_append]
        rcases ih (by omega) with h | h
        · left
          refine .piece ((runit_iff (m := .ime)).1 ?_) ?_ h
          · rcases h0 with h0 | ⟨c, rfl, h0 | h0⟩
            · have := List.all_eq_true.1 heavy_outsI p h0
              rw [Bool.or_eq_true, decide_eq_true_iff] at this
              exact Or.inl (List.mem_map.2 ⟨p, List.mem_filter.2 ⟨h0, by
                rw [Bool.or_eq_true]; exact Or.inl (this.resolve_right (by omega))⟩, rfl⟩)
            · exact Or.inr ⟨c, h0.1, rfl⟩
            · have := List.all_eq_true.1 marks_outsI c h0
              simp only [List.contains_eq_mem, decide_eq_true_iff] at this
              exact Or.inl this
          · intro e
            rw [e] at hc
            cases hc
            exact hc2 (by decide)
        · right; omega
    · have h1 : ([c] : Str).countP heavy = 1 := by simp [heavy_low (lpiece_ascii hc)]
      have hle := (kana_cons_heavyI (ps.map Prod.snd).flatten).1 c
      simp only [List.singleton_append] at hcount ⊢
      rw [weigh_cons, weigh_nil, Nat.add_zero]
      rcases hc with hc | rfl
      · by_cases hcn : toAsciiLowercase c = 'n'
        · exact hn c hc hcn (by omega)
        rcases (looseI_cons (ps.map Prod.snd).flatten).1 c with h | ⟨a, t', l, e, hl, h, _, hat⟩
        · exact hstay c hc h (by omega)
        · by_cases hct : c = 't'
          · have h2 : looseI 't' = 1 := by decide
            rw [hct] at h ⊢
            rcases hat hct with rfl | ha
            · right; omega
            · rcases ih (by omega) with h4 | h4
              · left
                obtain ⟨h5, h6⟩ := canonical_tailI t_tailsI h4 a t' e ha
                rw [e, ← List.cons_append]
                exact .piece ((runit_iff (m := .ime)).1 (Or.inl h5)) (by simp) h6
              · right; omega
          · have h2 := looseI_letter hc hcn hct
            right; omega
      · have h3 : heavy '\'' = true := by decide
        rw [kana_quote_cons, List.countP_cons_of_pos h3] at hcount
        have h2 : looseI '\'' = 0 := by decide
        rcases ih (by omega) with h4 | h4
        · exact Or.inl (.quote h4)
        · right
          rw [kana_quote_cons, weigh_cons]
          omega

end WanaKana
