import Verif.Props.RoundTripLatin
/-! # The trip kana → romaji → kana in IME mode (for C123)

The checks behind C112 hold for the IME tree too; what differs is n, which is a key of its own only outside IME mode. -/

namespace WanaKana
open KNode RNode
open Spec (toHira kanaTable)

/-! ## the pieces -/

theorem trip_tableI : kanaTable.all (tripCheck .ime) = true := by decide +kernel

theorem trip_marksI : (latinMarks.all fun c => tripCheck .ime ([c], [c])) = true := by decide +kernel

theorem trip_of_pieceI {p : Str × Str} (h : RPiece p) :
    p = (['っ'], []) ∨ p = (['ん'], ['n']) ∨ p = (['っ', 'ん'], ['n']) ∨ Trip .ime p := by
  rcases h with h | ⟨c, rfl, h | h⟩
  · exact trip_of_check (List.all_eq_true.1 trip_tableI p h)
  · exact Or.inr (Or.inr (Or.inr (trip_copied h.1 h.2)))
  · exact trip_of_check (List.all_eq_true.1 trip_marksI c h)

theorem row_tableI : (kanaTable.all fun p =>
    decide ((kana .ime p.2).countP heavy ≤ p.1.countP heavy ∧ (kana .ime p.2).map toHira = kana .ime p.2)) = true := by
  decide +kernel

theorem row_marksI : (latinMarks.all fun c =>
    decide ((kana .ime [c]).countP heavy ≤ [c].countP heavy ∧ (kana .ime [c]).map toHira = kana .ime [c])) = true := by
  decide +kernel

theorem rpiece_rowI {p : Str × Str} (h : RPiece p) :
    (kana .ime p.2).countP heavy ≤ p.1.countP heavy ∧ (kana .ime p.2).map toHira = kana .ime p.2 := by
  rcases h with h | ⟨c, rfl, h | h⟩
  · exact of_decide_eq_true (List.all_eq_true.1 row_tableI p h)
  · have hk : kana .ime [c] = [c] := by
      have := kana_of_not_head (m := .ime) (s := [c]) (by simpa using h.1.1) []
      simpa [kana_nil] using this
    rw [hk]
    exact ⟨Nat.le_refl _, by simp [plain_fixed h.1.2.2.2]⟩
  · exact of_decide_eq_true (List.all_eq_true.1 row_marksI c h)

theorem vu_backI : ∀ v ∈ vowelRows,
    kana .ime ['v', v.1] = ['ゔ', v.2.1] ∧ kana .ime ['v', 'v', v.1] = ['っ', 'ゔ', v.2.1] := by
  decide +kernel

theorem vpiece_backI {x y : Char} (hx : x ∈ "aiueo".toList) (hy : y ∈ "aiueo".toList)
    (hxu : x ≠ 'u') (hyu : y ≠ 'u') {p : Str × Str} (h : VPiece x y p) :
    ∃ v ∈ vowelRows, kana .ime p.2 = p.1 ++ [v.2.1] ∧ ∃ c, p.2.getLast? = some c ∧
      toAsciiLowercase c ∉ "bcdfghjklmnpqrstvwxyz".toList := by
  have hl : ∀ v ∈ vowelRows, toAsciiLowercase v.1 ∉ "bcdfghjklmnpqrstvwxyz".toList := by decide
  rcases h with rfl | rfl
  · obtain ⟨v, hv, rfl⟩ := vowelRow_of hx hxu
    exact ⟨v, hv, (vu_backI v hv).1, v.1, rfl, hl v hv⟩
  · obtain ⟨v, hv, rfl⟩ := vowelRow_of hy hyu
    exact ⟨v, hv, (vu_backI v hv).2, v.1, rfl, hl v hv⟩

theorem shift_tableI : (vowelRows.all fun v => kanaTable.all fun p =>
    shiftCheck .ime v.2.1 v.2.2 p && shiftCheck .ime v.2.2 v.2.2 p) = true := by
  decide +kernel

/-- no piece, a letter included, is a shift by a vowel -/
theorem shift_stepI {x y : Char} {v : Char × Char × Char} (hv : v ∈ vowelRows) {p : Str × Str}
    (h0 : APiece x y p) {a : Char} (ha : a = v.2.1 ∨ a = v.2.2) {F T : Str}
    (e : p.1 ++ F = a :: (kana .ime (p.2 ++ T)).map toHira) : F = v.2.2 :: (kana .ime T).map toHira := by
  have hk : ∀ v ∈ vowelRows, romajiKey v.2.1 = true ∧ romajiKey v.2.2 = true ∧ v.2.1 ∉ latinMarks ∧ v.2.2 ∉ latinMarks ∧
      v.2.1 ≠ 'ゔ' ∧ v.2.2 ≠ 'ゔ' ∧ v.2.1 ≠ 'っ' ∧ v.2.2 ≠ 'っ' ∧ 128 ≤ v.2.1.toNat ∧ 128 ≤ v.2.2.toNat := by decide +kernel
  have hka : romajiKey a = true ∧ a ∉ latinMarks ∧ a ≠ 'ゔ' ∧ a ≠ 'っ' ∧ 128 ≤ a.toNat := by
    obtain ⟨k1, k2, k3, k4, k5, k6, k7, k8, k9, k10⟩ := hk v hv
    rcases ha with rfl | rfl
    · exact ⟨k1, k3, k5, k7, k9⟩
    · exact ⟨k2, k4, k6, k8, k10⟩
  obtain ⟨k1, k2, k3, k4, k5⟩ := hka
  rcases h0 with (h | ⟨c, rfl, h⟩) | (rfl | rfl) | ⟨c, rfl, h⟩
  · have h0 : RPiece p := Or.inl h
    have hs := List.all_eq_true.1 (List.all_eq_true.1 shift_tableI v hv) p h
    rw [Bool.and_eq_true] at hs
    have hs : shiftCheck .ime a v.2.2 p = true := by
      rcases ha with rfl | rfl
      · exact hs.1
      · exact hs.2
    have hne := RPiece.ne_nil (x := x) (y := y) (Or.inl h0)
    simp only [shiftCheck, Bool.or_eq_true, Bool.and_eq_true, bne_iff_ne, beq_iff_eq] at hs
    rcases hs with h | ⟨h, hl⟩
    · exfalso
      apply h
      have := congrArg List.head? e
      rw [List.head?_append] at this
      cases hp : p.1 with
      | nil => exact absurd hp hne
      | cons c r => rw [hp] at this; simpa using this
    · have hcut : kana .ime (p.2 ++ T) = kana .ime p.2 ++ kana .ime T := by
        cases hg : p.2.getLast? with
        | none => rw [hg] at hl; cases hl
        | some c =>
          rw [hg] at hl
          exact kana_append _ _ (cut_of_last hg (by simpa only [Bool.not_eq_true', List.contains_eq_mem, decide_eq_false_iff_not] using hl))
      rw [hcut, List.map_append, (rpiece_rowI h0).2] at e
      rcases h with ⟨⟨h1, _⟩, h2⟩ | h
      · rw [h1, h2] at e
        simpa using e
      · rw [← List.cons_append] at e
        rw [not_differ e] at h; cases h
  · exfalso
    injection e with e _
    subst e
    rcases h with h | h
    · have := h.1.2.2.1; rw [k1] at this; cases this
    · exact k2 h
  · injection e with e _; exact absurd e.symm k3
  · injection e with e _; exact absurd e.symm k4
  · injection e with e _
    have := lpiece_ascii h
    rw [e] at this; omega

theorem no_shiftI {x y : Char} {v : Char × Char × Char} (hv : v ∈ vowelRows) :
    ∀ ps : List (Str × Str), (∀ p ∈ ps, APiece x y p) → ∀ a, a = v.2.1 ∨ a = v.2.2 →
    (ps.map Prod.fst).flatten ≠ a :: (kana .ime (ps.map Prod.snd).flatten).map toHira := by
  intro ps
  induction ps with
  | nil => intro _ a _ h; cases h
  | cons p ps ih =>
    intro hp a ha h
    rw [List.map_cons, List.map_cons, List.flatten_cons, List.flatten_cons] at h
    exact ih (fun q hq => hp q (List.mem_cons_of_mem _ hq)) v.2.2 (Or.inr rfl)
      (shift_stepI hv (hp p List.mem_cons_self) ha h)

/-! ## weights -/

/-- the weights of a key of the IME tree -/
def weightKeyI (m : Mode) (x : Str × KNode) : Bool :=
  decide (m ≠ .ime) || match x.2.output, x.1 with
    | some out, c :: k =>
      decide (out.countP heavy ≤ 1 + (kana m k).countP heavy) &&
      (k == [] || k == ['\''] || (k == ['n'] && decide (out.countP heavy ≤ 1) && (c != 'n' || out == ['ん'])) || (match k.getLast? with
        | some d => !("bcdfghjklmnpqrstvwxyz".toList.contains d)
        | none => false)) &&
      (c != 'n' || k != []) &&
      (c != 'n' || k == ['n'] || decide ((kana m k).countP heavy ≤ out.countP heavy)) &&
      (c != 'n' || (out.map toHira).head? != some 'ん' || out == ['ん'] && (k == ['n'] || k == ['\''] || k == [' '])) &&
      out.all (fun d => decide (0x3000 ≤ d.toNat)) && out != [] && x.2.transitions.isEmpty
    | _, _ => true

theorem weight_keysI : allModes weightKeyI = true := by decide +kernel

structure KeyWeightsI (c : Char) (k out : Str) (node : KNode) : Prop where
  le : out.countP heavy ≤ 1 + (kana .ime k).countP heavy
  shape : k = [] ∨ k = ['\''] ∨ (k = ['n'] ∧ out.countP heavy ≤ 1 ∧ (c = 'n' → out = ['ん'])) ∨
    ∃ d, k.getLast? = some d ∧ d ∉ "bcdfghjklmnpqrstvwxyz".toList
  notN : c = 'n' → k ≠ []
  n : c = 'n' → k = ['n'] ∨ (kana .ime k).countP heavy ≤ out.countP heavy
  nasal : c = 'n' → (out.map toHira).head? = some 'ん' → out = ['ん'] ∧ (k = ['n'] ∨ k = ['\''] ∨ k = [' '])
  kana : ∀ d ∈ out, 0x3000 ≤ d.toNat
  ne : out ≠ []
  leaf : node.transitions = []

theorem key_weightsI {c : Char} {k out : Str} {n : KNode} (hw : (tree .ime).walk (c :: k) = some n)
    (ho : n.output = some out) : KeyWeightsI c k out n := by
  have h := allModes_walk weight_keysI hw
  unfold weightKeyI at h
  simp only [ho, Bool.or_eq_true, decide_eq_true_iff, Bool.and_eq_true, bne_iff_ne, beq_iff_eq, List.all_eq_true,
    List.isEmpty_iff] at h
  obtain ⟨⟨⟨⟨⟨⟨⟨h1, h2⟩, h3⟩, h4⟩, h5⟩, h6⟩, h7⟩, h8⟩ := h.resolve_left (by simp)
  refine ⟨h1, ?_, ?_, ?_, ?_, h6, h7, h8⟩
  · rcases h2 with ((h | h) | h) | h
    · exact Or.inl h
    · exact Or.inr (Or.inl h)
    · exact Or.inr (Or.inr (Or.inl ⟨h.1.1, h.1.2, fun hc => h.2.resolve_left fun h => h hc⟩))
    · right; right; right
      cases hk : k.getLast? with
      | none => rw [hk] at h; cases h
      | some d =>
        rw [hk] at h
        exact ⟨d, rfl, by simpa only [Bool.not_eq_true', List.contains_eq_mem, decide_eq_false_iff_not] using h⟩
  · intro hc; exact h3.resolve_left fun h => h hc
  · intro hc
    rcases h4 with (h | h) | h
    · exact absurd hc h
    · exact Or.inl h
    · exact Or.inr h
  · intro hc hh
    rcases h5 with (h | h) | h
    · exact absurd hc h
    · exact absurd hh h
    · exact ⟨h.1, or_assoc.1 h.2⟩

/-- one more character in front adds at most one to the weight, and an n takes nothing away -/
theorem kana_cons_heavyI : ∀ t : Str, (∀ c, (kana .ime (c :: t)).countP heavy ≤ 1 + (kana .ime t).countP heavy) ∧
    ∀ c, toAsciiLowercase c = 'n' → (kana .ime t).countP heavy ≤ (kana .ime (c :: t)).countP heavy := by
  intro t
  induction t using list_strong with
  | _ t ih =>
    constructor
    · intro c
      obtain ⟨n, k, hst⟩ := exists_stops (tree .ime) (c :: t)
      cases ho : n.output with
      | none => rw [kana_miss hst ho, List.countP_cons]; split <;> omega
      | some out =>
        obtain ⟨a, t', rfl, _, hw, hkana⟩ := hit_split hst ho
        have kw := key_weightsI hw ho
        have hle := kw.le
        rw [hkana, List.countP_append, heavy_styled]
        rcases kw.shape with h | h | ⟨h, h1, _⟩ | h
        · rw [low_eq_nil h] at hle ⊢
          rw [show low [] = [] from rfl, kana_nil] at hle
          simp at hle ⊢
          omega
        · rw [tail_cut (Or.inl h)]; omega
        · obtain ⟨d, rfl, hd⟩ := low_single h
          have := (ih t' (by simp)).2 d hd
          rw [List.singleton_append]; omega
        · rw [tail_cut (Or.inr h)]; omega
    · intro c hc
      obtain ⟨n, k, hst⟩ := exists_stops (tree .ime) (c :: t)
      cases ho : n.output with
      | none => rw [kana_miss hst ho, List.countP_cons]; omega
      | some out =>
        obtain ⟨a, t', rfl, _, hw, hkana⟩ := hit_split hst ho
        have kw := key_weightsI hw ho
        rw [hkana, List.countP_append, heavy_styled]
        rcases kw.shape with h | h | ⟨h, h1, h2⟩ | h
        · rw [low_eq_nil h]; simp
        · have := (kw.n hc).resolve_left (by rw [h]; decide)
          rw [tail_cut (Or.inl h)]; omega
        · obtain ⟨d, rfl, hd⟩ := low_single h
          have := (ih t' (by simp)).1 d
          rw [h2 hc, List.singleton_append, show (['ん'] : Str).countP heavy = 1 by decide]; exact this
        · rcases kw.n hc with h1 | h1
          · rw [h1] at h
            obtain ⟨d, h, h2⟩ := h
            cases h
            exact absurd (by decide) h2
          · rw [tail_cut (Or.inr h)]; omega

theorem pieces_heavyI {x y : Char} (hx : x ∈ "aiueo".toList) (hy : y ∈ "aiueo".toList)
    (hxu : x ≠ 'u') (hyu : y ≠ 'u') : ∀ ps : List (Str × Str), (∀ p ∈ ps, APiece x y p) →
    (kana .ime (ps.map Prod.snd).flatten).countP heavy ≤ ((ps.map Prod.fst).flatten).countP heavy := by
  intro ps
  induction ps with
  | nil => intro _; rw [List.map_nil, List.flatten_nil, kana_nil]; exact Nat.le_refl _
  | cons p ps ih =>
    intro hp
    have ih := ih fun q hq => hp q (List.mem_cons_of_mem _ hq)
    rw [List.map_cons, List.map_cons, List.flatten_cons, List.flatten_cons, List.countP_append]
    have hone := fun c => (kana_cons_heavyI (ps.map Prod.snd).flatten).1 c
    rcases hp p List.mem_cons_self with h0 | h0 | ⟨c, rfl, hc⟩
    · have hrow := (rpiece_rowI h0).1
      rcases trip_of_pieceI h0 with rfl | rfl | rfl | ht
      · rw [List.nil_append]; omega
      · have := hone 'n'
        have h1 : (['ん'] : Str).countP heavy = 1 := by decide
        simp only [List.singleton_append]
        omega
      · have := hone 'n'
        have h1 : (['っ', 'ん'] : Str).countP heavy = 2 := by decide
        simp only [List.singleton_append]
        omega
      · obtain ⟨c, hc, hc2⟩ := ht.last
        rw [kana_append _ _ (cut_of_last hc hc2), List.countP_append]
        omega
    · obtain ⟨v, hv, hb, c, hc, hc2⟩ := vpiece_backI hx hy hxu hyu h0
      rw [kana_append _ _ (cut_of_last hc hc2), hb, List.countP_append, List.countP_append]
      have : ([v.2.1] : Str).countP heavy = 0 := by simp [(vowel_small v hv).1]
      omega
    · have := hone c
      have h1 : ([c] : Str).countP heavy = 1 := by simp [heavy_low (lpiece_ascii hc)]
      simp only [List.singleton_append]
      omega

/-! ## letters -/

/-- a converted result does not begin with the letter -/
theorem hit_not_copied {c : Char} (hc : c.toNat < 128) {t : Str} {n : KNode} {k : Nat} (hst : Stops (tree .ime) (c :: t) n k)
    {out : Str} (ho : n.output = some out) (s : Str) : (kana .ime (c :: t)).map toHira ≠ c :: s := by
  intro h
  obtain ⟨a, t', rfl, _, hw, hkana⟩ := hit_split hst ho
  have kw := key_weightsI hw ho
  rw [hkana] at h
  have h1 : ((styled (c :: a) out).map toHira).head? = some c := by
    have h := congrArg List.head? h
    rw [List.map_append, List.head?_append] at h
    cases hh : ((styled (c :: a) out).map toHira).head? with
    | some d => rw [hh] at h; simpa using h
    | none =>
      exfalso
      have he := List.head?_eq_none_iff.1 hh
      have hn := kw.ne
      unfold styled at he
      split at he <;> simp at he <;> exact hn he
  obtain ⟨e, he, h2⟩ := styled_first h1
  have hge := kw.kana e (List.mem_of_mem_head? he)
  rcases h2 with h2 | h2
  · rw [char_eq_iff, toHira_toNat] at h2
    repeat' split at h2
    all_goals omega
  · rw [char_eq_iff, toHira_toNat, h2kP_toNat] at h2
    repeat' split at h2
    all_goals omega

theorem letter_missI {c : Char} (hc : c.toNat < 128) {t s : Str}
    (h : (kana .ime (c :: t)).map toHira = c :: s) : kana .ime (c :: t) = c :: kana .ime t := by
  obtain ⟨n, k, hst⟩ := exists_stops (tree .ime) (c :: t)
  cases ho : n.output with
  | none => exact kana_miss hst ho
  | some out => exact absurd h (hit_not_copied hc hst ho s)

/-- the search goes at least as far as any path in the text -/
theorem stops_longest {t : KNode} {s : Str} {n : KNode} {k : Nat} (hst : Stops t s n k) {p : Str} (hp : p <+: low s)
    {n' : KNode} (hw' : t.walk p = some n') : p <+: low (s.take k) := by
  have hlt : low (s.take k) = (low s).take k := List.map_take
  have hle := hst.le
  apply List.prefix_of_prefix_length_le (l₃ := low s) hp
  · rw [hlt]; exact List.take_prefix _ _
  · apply Classical.byContradiction
    intro hlen
    have h1 : low (s.take k) <+: p := by
      apply List.prefix_of_prefix_length_le (l₃ := low s)
      · rw [hlt]; exact List.take_prefix _ _
      · exact hp
      · omega
    obtain ⟨q, rfl⟩ := h1
    cases q with
    | nil => rw [List.append_nil] at hlen; omega
    | cons d q =>
      have h2 : (s.drop k).head?.map toAsciiLowercase = some d := by
        obtain ⟨u, hu⟩ := hp
        have h5 : low s = low (s.take k) ++ low (s.drop k) := by
          unfold low; rw [← List.map_append, List.take_append_drop]
        rw [h5, List.append_assoc] at hu
        have := List.append_cancel_left hu
        rw [← List.head?_map]
        show (low (s.drop k)).head? = some d
        rw [← this]; rfl
      cases h3 : (s.drop k).head? with
      | none => rw [h3] at h2; cases h2
      | some e =>
        rw [h3] at h2
        have h4 := hst.stop e h3
        simp only [Option.map_some, Option.some.injEq] at h2
        rw [h2] at h4
        rw [walk_append, hst.walk] at hw'
        simp only [Option.bind, walk, h4] at hw'
        cases hw'

/-- a letter stays a letter exactly if no key begins there -/
theorem stays_iffI {c : Char} (hc : c.toNat < 128) (t : Str) :
    (∀ k ∈ tableOf .ime, ¬ k.1 <+: low (c :: t)) ↔ kana .ime (c :: t) = c :: kana .ime t := by
  obtain ⟨n, k, hst⟩ := exists_stops (tree .ime) (c :: t)
  have hlt : low ((c :: t).take k) = (low (c :: t)).take k := List.map_take
  constructor
  · intro h
    cases ho : n.output with
    | none => exact kana_miss hst ho
    | some out =>
      exfalso
      have hk := stops_pos hst ho
      have hne : low ((c :: t).take k) ≠ [] := by
        intro e
        have := congrArg List.length (low_eq_nil e)
        simp at this
        omega
      have hl := (walk_table hst.walk hne).1
      rw [ho] at hl
      exact h _ (mem_of_lookup hl.symm) (by rw [hlt]; exact List.take_prefix _ _)
  · intro h kk hkk hp
    have hn : n.output = none := by
      cases ho : n.output with
      | none => rfl
      | some out =>
        have h2 : (kana .ime (c :: t)).map toHira = c :: (kana .ime t).map toHira := by
          rw [h, List.map_cons]
          congr 1
          apply char_ext
          rw [toHira_toNat]
          repeat' split
          all_goals omega
        exact absurd h2 (hit_not_copied hc hst ho _)
    obtain ⟨n', hw'⟩ := walk_of_prefix hkk (List.prefix_refl _)
    have hkne := key_ne_nil hkk
    have ho' := (walk_table hw' hkne).1
    obtain ⟨out, hout⟩ := Option.isSome_iff_exists.1 (table_lookup_of_mem hkk)
    rw [hout] at ho'
    obtain ⟨q, hq⟩ := stops_longest hst hp hw'
    have hw := hst.walk
    rw [← hq, walk_append, hw'] at hw
    have hleaf : n'.transitions = [] := by
      cases hk1 : kk.1 with
      | nil => exact absurd hk1 hkne
      | cons d k1 => rw [hk1] at hw'; exact (key_weightsI hw' ho').leaf
    cases q with
    | nil =>
      simp only [Option.bind, walk, Option.some.injEq] at hw
      rw [hw, hn] at ho'; cases ho'
    | cons d q =>
      simp only [Option.bind, walk, find_none_of_leaf hleaf] at hw
      cases hw

/-- a result that begins with ん -/
theorem nasal_firstI {t s : Str} (h : (kana .ime ('n' :: t)).map toHira = 'ん' :: s) :
    ∃ d t', t = d :: t' ∧ (toAsciiLowercase d = 'n' ∨ d = '\'' ∨ d = ' ') ∧ kana .ime ('n' :: t) = 'ん' :: kana .ime t' := by
  obtain ⟨n, k, hst⟩ := exists_stops (tree .ime) ('n' :: t)
  cases ho : n.output with
  | none =>
    exfalso
    rw [kana_miss hst ho] at h
    injection h with h _
    exact absurd h (by decide)
  | some out =>
    obtain ⟨a, t', rfl, hk, hw, hkana⟩ := hit_split hst ho
    have kw := key_weightsI hw ho
    have hsty : styled ('n' :: a) out = out := by
      unfold styled
      rw [if_neg]
      intro hh
      have := List.all_eq_true.1 hh 'n' List.mem_cons_self
      exact absurd this (by decide)
    have h1 : (out.map toHira).head? = some 'ん' := by
      rw [hkana, hsty] at h
      have h := congrArg List.head? h
      cases out with
      | nil => exact absurd rfl kw.ne
      | cons e out => simpa using h
    obtain ⟨rfl, ha⟩ := kw.nasal (by decide) h1
    rw [hsty] at hkana
    rcases ha with ha | ha | ha
    · obtain ⟨d, rfl, hd⟩ := low_single ha
      exact ⟨d, t', rfl, Or.inl hd, hkana⟩
    · have := low_quote ha
      subst this
      exact ⟨'\'', t', rfl, Or.inr (Or.inl rfl), hkana⟩
    · obtain ⟨d, rfl, hd⟩ := low_single ha
      have := low_eq_nonletter (by decide) hd
      exact ⟨d, t', rfl, Or.inr (Or.inr this), hkana⟩

/-! ## texts that come back -/

/-- pieces whose romaji is read back piece by piece in IME mode -/
inductive GoodI : List (Str × Str) → Prop
  | nil : GoodI []
  | trip {p ps} : RPiece p → Trip .ime p → kana .ime p.2 = p.1 → (regKey .ime p.1 = true ∨ ∃ c, p.1 = [c] ∧ Spec.Neutral c) →
      GoodI ps → GoodI (p :: ps)
  | quote {ps} : GoodI ps → GoodI ((['\''], ['\'']) :: ps)
  | letter {c ps} : Spec.AsciiLetter c → kana .ime (c :: (ps.map Prod.snd).flatten) = c :: kana .ime (ps.map Prod.snd).flatten →
      GoodI ps → GoodI (([c], [c]) :: ps)

/-- a row whose romaji begins with n is not read as itself without the n -/
theorem n_rows : (kanaTable.all fun p => match p.2 with
    | c :: v => c != 'n' || v == [] || (differ p.1 (kana .ime v) && decide ((kana .ime v).map toHira = kana .ime v))
    | [] => true) = true := by
  decide +kernel

theorem n_rowsI {p : Str × Str} (hp : RPiece p) (ht : Trip .ime p) {d : Char} {v : Str} (hd : toAsciiLowercase d = 'n')
    (e : p.2 = d :: v) : differ p.1 (kana .ime v) = true ∧ (kana .ime v).map toHira = kana .ime v ∧ v ≠ [] := by
  have hv : v ≠ [] := by
    rintro rfl
    obtain ⟨c, hc, hc2⟩ := ht.last
    rw [e] at hc
    cases hc
    have hc2 : toAsciiLowercase d ∉ "bcdfghjklmnpqrstvwxyz".toList := hc2
    rw [hd] at hc2
    exact hc2 (by decide)
  have hdn : d = 'n' := by
    obtain ⟨c, hc, hl, _⟩ := ht.head
    rw [e] at hc
    cases hc
    rw [← hl, hd]
  subst hdn
  rcases hp with h | ⟨c, rfl, h⟩
  · have := List.all_eq_true.1 n_rows p h
    rw [e] at this
    simp only [Bool.or_eq_true, bne_self_eq_false, Bool.false_eq_true, false_or, beq_iff_eq, Bool.and_eq_true,
      decide_eq_true_iff] at this
    obtain ⟨h1, h2⟩ := this.resolve_left hv
    exact ⟨h1, h2, hv⟩
  · injection e with _ e
    exact absurd e.symm hv

/-- a text whose romaji begins with n is not read as itself without the n -/
theorem no_n_shift {x y : Char} (hx : x ∈ "aiueo".toList) (hy : y ∈ "aiueo".toList)
    (hxu : x ≠ 'u') (hyu : y ≠ 'u') (ps : List (Str × Str)) (hps : ∀ p ∈ ps, APiece x y p) {d : Char} {T : Str}
    (hd : toAsciiLowercase d = 'n') (e : (ps.map Prod.snd).flatten = d :: T) :
    (kana .ime T).map toHira ≠ (ps.map Prod.fst).flatten := by
  intro h
  cases ps with
  | nil => cases e
  | cons p ps =>
    have hW := pieces_heavyI hx hy hxu hyu ps fun q hq => hps q (List.mem_cons_of_mem _ hq)
    have hcount : (kana .ime T).countP heavy = (((p :: ps).map Prod.fst).flatten).countP heavy := by
      rw [← h, countP_map_eq heavy_toHira]
    have hmono := (kana_cons_heavyI T).2 d hd
    rw [List.map_cons, List.flatten_cons] at e h hcount
    rw [List.countP_append] at hcount
    rcases hps p List.mem_cons_self with h0 | h0 | ⟨c, rfl, hc⟩
    · rcases trip_of_pieceI h0 with rfl | rfl | rfl | ht
      · rw [List.nil_append] at e
        rw [e] at hW
        have h1 : (['っ'] : Str).countP heavy = 1 := by decide
        simp only at hcount
        omega
      · injection e with _ e
        rw [show (ps.map Prod.snd).flatten = T from e] at hW
        have h1 : (['ん'] : Str).countP heavy = 1 := by decide
        simp only at hcount
        omega
      · injection e with _ e
        rw [show (ps.map Prod.snd).flatten = T from e] at hW
        have h1 : (['っ', 'ん'] : Str).countP heavy = 2 := by decide
        simp only at hcount
        omega
      · cases hp : p.2 with
        | nil =>
          obtain ⟨c, hc, _⟩ := ht.head
          rw [hp] at hc; cases hc
        | cons c v =>
          rw [hp] at e
          injection e with e1 e
          subst e1
          obtain ⟨h1, h2, h3⟩ := n_rowsI h0 ht hd hp
          obtain ⟨c', hc, hc2⟩ := ht.last
          have hcv : v.getLast? = some c' := by
            rw [hp, ← List.singleton_append, getLast?_append_ne _ h3] at hc
            exact hc
          rw [← show v ++ (ps.map Prod.snd).flatten = T from e, kana_append _ _ (cut_of_last hcv hc2), List.map_append, h2] at h
          rw [not_differ h.symm] at h1; cases h1
    · rcases h0 with rfl | rfl
      · injection e with e _
        rw [← e] at hd; exact absurd hd (by decide)
      · injection e with e _
        rw [← e] at hd; exact absurd hd (by decide)
    · injection e with _ e
      rw [show (ps.map Prod.snd).flatten = T from e] at hW
      have h1 : ([c] : Str).countP heavy = 1 := by simp [heavy_low (lpiece_ascii hc)]
      simp only at hcount
      omega

theorem good_ofI {x y : Char} (hx : x ∈ "aiueo".toList) (hy : y ∈ "aiueo".toList)
    (hxu : x ≠ 'u') (hyu : y ≠ 'u') : ∀ ps : List (Str × Str), (∀ p ∈ ps, APiece x y p) →
    (kana .ime (ps.map Prod.snd).flatten).map toHira = (ps.map Prod.fst).flatten → GoodI ps := by
  intro ps
  induction ps with
  | nil => intro _ _; exact .nil
  | cons p ps ih =>
    intro hp h
    have hps : ∀ q ∈ ps, APiece x y q := fun q hq => hp q (List.mem_cons_of_mem _ hq)
    have ih := ih hps
    have hW := pieces_heavyI hx hy hxu hyu ps hps
    have hcount : (kana .ime ((p :: ps).map Prod.snd).flatten).countP heavy = (((p :: ps).map Prod.fst).flatten).countP heavy := by
      rw [← h, countP_map_eq heavy_toHira]
    rw [List.map_cons, List.map_cons, List.flatten_cons, List.flatten_cons] at h hcount
    rw [List.countP_append] at hcount
    rcases hp p List.mem_cons_self with h0 | h0 | ⟨c, rfl, hc⟩
    · rcases trip_of_pieceI h0 with rfl | rfl | rfl | ht
      · exfalso
        have h1 : (['っ'] : Str).countP heavy = 1 := by decide
        simp only [List.nil_append] at hcount
        omega
      · exfalso
        simp only [List.singleton_append] at h
        obtain ⟨d, T, e, hd, hk⟩ := nasal_firstI h
        rw [hk] at h
        injection h with _ h
        rcases hd with hd | rfl | rfl
        · exact no_n_shift hx hy hxu hyu ps hps hd e h
        · rw [e, kana_quote_cons, List.countP_cons, ← h, countP_map_eq heavy_toHira] at hW
          have : heavy '\'' = true := by decide
          rw [if_pos this] at hW
          omega
        · rw [e, kana_cons_not_head (by decide), List.countP_cons, ← h, countP_map_eq heavy_toHira] at hW
          have : heavy ' ' = true := by decide
          rw [if_pos this] at hW
          omega
      · exfalso
        have := (kana_cons_heavyI (ps.map Prod.snd).flatten).1 'n'
        have h1 : (['っ', 'ん'] : Str).countP heavy = 2 := by decide
        simp only [List.singleton_append] at hcount
        omega
      · obtain ⟨c, hc, hc2⟩ := ht.last
        rw [kana_append _ _ (cut_of_last hc hc2), List.map_append, (rpiece_rowI h0).2] at h
        rcases ht.back with ⟨hb, hreg⟩ | hd
        · rw [hb] at h
          exact .trip h0 ht hb hreg (ih (List.append_cancel_left h))
        · rw [not_differ h] at hd; cases hd
    · exfalso
      obtain ⟨v, hv, hb, c, hc, hc2⟩ := vpiece_backI hx hy hxu hyu h0
      have hfix : p.1.map toHira = p.1 := by
        rcases h0 with rfl | rfl <;> rfl
      rw [kana_append _ _ (cut_of_last hc hc2), hb, List.map_append, List.map_append, hfix, List.append_assoc] at h
      have h := List.append_cancel_left h
      rw [List.map_singleton, (vowel_small v hv).2] at h
      exact no_shiftI hv ps hps _ (Or.inl rfl) h.symm
    · simp only [List.singleton_append] at h
      have e := letter_missI (lpiece_ascii hc) h
      rw [e] at h
      injection h with _ h
      rcases hc with hc | rfl
      · exact .letter hc e (ih h)
      · exact .quote (ih h)

theorem good_kanaI {ps : List (Str × Str)} (h : GoodI ps) :
    kana .ime (ps.map Prod.snd).flatten = (ps.map Prod.fst).flatten := by
  induction h with
  | nil => rw [List.map_nil, List.flatten_nil, kana_nil]; rfl
  | trip _ ht hb _ _ ih =>
    obtain ⟨c, hc, hc2⟩ := ht.last
    rw [List.map_cons, List.map_cons, List.flatten_cons, List.flatten_cons, kana_append _ _ (cut_of_last hc hc2), hb, ih]
  | quote _ ih =>
    rw [List.map_cons, List.map_cons, List.flatten_cons, List.flatten_cons]
    simp only [List.singleton_append]
    rw [kana_quote_cons, ih]
  | letter _ e _ ih =>
    rw [List.map_cons, List.map_cons, List.flatten_cons, List.flatten_cons]
    simp only [List.singleton_append]
    rw [e, ih]

end WanaKana
