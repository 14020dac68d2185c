import Verif.Props.RoundTrip2
import Verif.Props.RomajiVu
/-! # C110: the trip kana → romaji → kana of texts with ゔ -/

namespace WanaKana
open RNode
open Spec (toHira kanaTable)

/-- the pieces for ゔ, written with the vowels `x` and `y` -/
def VPiece (x y : Char) (p : Str × Str) : Prop := p = (['ゔ'], ['v', x]) ∨ p = (['っ', 'ゔ'], ['v', 'v', y])

/-- keys with ゔ -/
def vuKey (q : Str) : Bool :=
  !q.contains 'ゔ' || match q with
    | 'ゔ' :: _ => true
    | 'っ' :: 'ゔ' :: _ => true
    | _ => false

theorem vuKey_cases {q : Str} (h : vuKey q = true) (hv : 'ゔ' ∈ q) :
    ∃ pre r, q = (pre ++ ['ゔ']) ++ r ∧ (pre = [] ∨ pre = ['っ']) := by
  simp only [vuKey, Bool.or_eq_true, Bool.not_eq_true', List.contains_eq_mem, decide_eq_false_iff_not] at h
  have h := h.resolve_left (fun h => h hv)
  split at h
  · exact ⟨[], _, rfl, Or.inl rfl⟩
  · exact ⟨['っ'], _, rfl, Or.inr rfl⟩
  · cases h

theorem vu_walk {std : Std} (hstd : std.Lawful) {x y : Char} (hxy : VuVowels std x y) (hx : x ≠ 'u') (hy : y ≠ 'u')
    {q : Str} {n : RNode} (h : TO_ROMAJI_NODE_TREE.rwalk std q = some n) (hv : 'ゔ' ∈ q) : VPiece x y (q, n.output) := by
  have hc : (TO_ROMAJI_NODE_TREE.paths.all fun q => vuKey q.1) = true := by decide +kernel
  obtain ⟨pre, r, rfl, hp⟩ := vuKey_cases (rwalk_check hstd hc h) hv
  obtain ⟨n0, hn0, he⟩ := vu_entry hstd hp
  have hl := vuVowels_last hxy hp
  have hr := romH_walk_end (by simp) hn0
  have hu : n0.output.getLast? ≠ some 'u' := by
    rw [← hr, hl]
    intro e
    injection e with e
    split at e
    · exact hy e
    · exact hx e
  have hts : n0.ts = [] := by
    unfold vuEntry at he
    split at he
    · rename_i h; exact absurd h hu
    · simpa using he
    · cases he
  rw [rwalk_append, hn0] at h
  cases r with
  | nil =>
    simp only [Option.bind, rwalk] at h
    cases h
    rw [List.append_nil, ← hr]
    rcases hp with rfl | rfl
    · exact Or.inl (by rw [List.nil_append, hxy.alone])
    · exact Or.inr (by rw [List.singleton_append, hxy.sokuon])
  | cons c r =>
    exfalso
    simp only [Option.bind, rwalk] at h
    have : n0.rfind std c = none := by
      unfold rfind
      rw [hts]
      cases std.binarySearch _ c <;> simp
    rw [this] at h
    cases h

theorem rom_piecesV {std : Std} (hstd : std.Lawful) {x y : Char} (hxy : VuVowels std x y) (hx : x ≠ 'u') (hy : y ≠ 'u') :
    ∀ z : List (Char × Bool),
    (∀ x ∈ z, (plainChar x.1 = true ∨ x.1 = 'ゔ') ∧ ¬ Spec.AsciiLetter x.1 ∧ x.1 ≠ '\'') →
    ∃ ps : List (Str × Str), z.map Prod.fst = (ps.map Prod.fst).flatten ∧
      rom std false z = (ps.map Prod.snd).flatten ∧ ∀ p ∈ ps, RPiece p ∨ VPiece x y p := by
  intro z
  induction z using rom_ind (std := std) with
  | nil => intro _; exact ⟨[], rfl, by rw [rom_nil]; rfl, by simp⟩
  | miss c b z h ih =>
    intro hz
    obtain ⟨ps, h0, h1, h2⟩ := ih fun x hx => hz x (List.mem_cons_of_mem _ hx)
    refine ⟨([c], [c]) :: ps, by rw [List.map_cons, h0]; rfl, by rw [rom_miss h, h1]; rfl, ?_⟩
    intro p hp
    rcases List.mem_cons.1 hp with rfl | hp
    · obtain ⟨p1, p2, p3⟩ := hz (c, b) List.mem_cons_self
      simp only at p1 p2 p3
      have hkey : romajiKey c = false := by
        cases hk : romajiKey c with
        | false => rfl
        | true =>
          obtain ⟨n, hn⟩ := root_some hstd hk
          rw [hn] at h; cases h
      have p1 : plainChar c = true := by
        rcases p1 with h | rfl
        · exact h
        · exact absurd hkey (by decide)
      left
      right
      refine ⟨c, rfl, ?_⟩
      cases hh : headChar (toAsciiLowercase c) with
      | false => exact Or.inl ⟨⟨hh, p3, hkey, p1⟩, p2⟩
      | true =>
        right
        rw [headChar_iff, toAsciiLowercase_toNat] at hh
        unfold Spec.AsciiLetter Spec.In at p2
        simp only [latinMarks, List.mem_cons, List.not_mem_nil, or_false, char_eq_iff, Char.reduceToNat] at hh ⊢
        split at hh <;> omega
    · exact h2 p hp
  | hit z n k hk h ih =>
    intro hz
    obtain ⟨ps, h0, h1, h2⟩ := ih fun x hx => hz x (List.mem_of_mem_drop hx)
    refine ⟨((z.map Prod.fst).take k, n.output) :: ps, ?_, ?_, ?_⟩
    · rw [List.map_cons, List.flatten_cons, ← h0]
      simp only [List.map_drop, List.take_append_drop]
    · rw [rom_hit h hk, h1]; simp
    · intro p hp
      rcases List.mem_cons.1 hp with rfl | hp
      · have hw := h.walk
        have hq : ∀ c ∈ (z.map Prod.fst).take k, plainChar c = true ∨ c = 'ゔ' := by
          intro c hc
          obtain ⟨x, hx, rfl⟩ := List.mem_map.1 (List.mem_of_mem_take hc)
          exact (hz x hx).1
        have hne : (z.map Prod.fst).take k ≠ [] := by
          intro e
          have h1 := congrArg List.length e
          have h2 := h.le
          rw [List.length_take, List.length_nil] at h1
          omega
        generalize (z.map Prod.fst).take k = q at hw hq hne
        by_cases hv : 'ゔ' ∈ q
        · exact Or.inr (vu_walk hstd hxy hx hy hw hv)
        · left; left
          cases q with
          | nil => exact absurd rfl hne
          | cons c q =>
            refine mem_of_lookup (table_of_mwalk (n := n) (c := c) (q := q) hv (fun hm => ?_) hstd hw)
            rcases hq _ hm with h | h
            · exact absurd h (by decide)
            · exact absurd h (by decide)
      · exact h2 p hp

/-- the vowels other than u: the letter, the small kana and the kana -/
def vowelRows : List (Char × Char × Char) := [('a', 'ぁ', 'あ'), ('i', 'ぃ', 'い'), ('e', 'ぇ', 'え'), ('o', 'ぉ', 'お')]

/-- a row that begins with `a` is `a` alone and becomes `b`, or differs from `a` and what it becomes -/
def shiftCheck (m : Mode) (a b : Char) (p : Str × Str) : Bool :=
  p.1.head? != some a ||
  (p.1 == [a] && p.2 != [] && kana m p.2 == [b] || differ p.1 (a :: kana m p.2)) &&
  (match p.2.getLast? with
    | some c => !("bcdfghjklmnpqrstvwxyz".toList.contains (toAsciiLowercase c))
    | none => false)

theorem shift_table (m : Mode) (hm : m ≠ .ime) : (vowelRows.all fun v => kanaTable.all fun p =>
    shiftCheck m v.2.1 v.2.2 p && shiftCheck m v.2.2 v.2.2 p) = true := by
  cases m with
  | normal => decide +kernel
  | obsolete => decide +kernel
  | ime => exact absurd rfl hm

theorem shift_piece {m : Mode} (hm : m ≠ .ime) {x y : Char} {v : Char × Char × Char} (hv : v ∈ vowelRows)
    {p : Str × Str} (h : RPiece p ∨ VPiece x y p) : shiftCheck m v.2.1 v.2.2 p = true ∧ shiftCheck m v.2.2 v.2.2 p = true := by
  have hk : ∀ v ∈ vowelRows, romajiKey v.2.1 = true ∧ romajiKey v.2.2 = true ∧ v.2.1 ∉ latinMarks ∧ v.2.2 ∉ latinMarks ∧
      v.2.1 ≠ 'ゔ' ∧ v.2.2 ≠ 'ゔ' ∧ v.2.1 ≠ 'っ' ∧ v.2.2 ≠ 'っ' := by decide +kernel
  obtain ⟨k1, k2, k3, k4, k5, k6, k7, k8⟩ := hk v hv
  have main : ∀ a, p.1.head? ≠ some a → ∀ b, shiftCheck m a b p = true := by
    intro a ha b
    simp only [shiftCheck, Bool.or_eq_true, bne_iff_ne]
    exact Or.inl ha
  rcases h with (h | ⟨c, rfl, h⟩) | h
  · have := List.all_eq_true.1 (List.all_eq_true.1 (shift_table m hm) v hv) p h
    simpa only [Bool.and_eq_true] using this
  · have hc : c ≠ v.2.1 ∧ c ≠ v.2.2 := by
      rcases h with h | h
      · constructor
        · rintro rfl; have := h.1.2.2.1; rw [k1] at this; cases this
        · rintro rfl; have := h.1.2.2.1; rw [k2] at this; cases this
      · exact ⟨fun e => k3 (e ▸ h), fun e => k4 (e ▸ h)⟩
    exact ⟨main _ (by simpa using hc.1) _, main _ (by simpa using hc.2) _⟩
  · rcases h with rfl | rfl
    · exact ⟨main _ (by simpa using Ne.symm k5) _, main _ (by simpa using Ne.symm k6) _⟩
    · exact ⟨main _ (by simpa using Ne.symm k7) _, main _ (by simpa using Ne.symm k8) _⟩

theorem shift_step {m : Mode} {a b : Char} {p : Str × Str} (h : shiftCheck m a b p = true) {t T : Str}
    (e : p.1 ++ t = a :: kana m (p.2 ++ T)) (hne : p.1 ≠ []) : t = b :: kana m T := by
  simp only [shiftCheck, Bool.or_eq_true, Bool.and_eq_true, bne_iff_ne, beq_iff_eq] at h
  rcases h with h | ⟨h, hl⟩
  · exfalso
    apply h
    have := congrArg List.head? e
    rw [List.head?_append] at this
    cases hp : p.1 with
    | nil => exact absurd hp hne
    | cons c r => rw [hp] at this; simpa using this
  · have hcut : kana m (p.2 ++ T) = kana m p.2 ++ kana m T := by
      cases hg : p.2.getLast? with
      | none => rw [hg] at hl; cases hl
      | some c =>
        rw [hg] at hl
        exact kana_append _ _ (cut_of_last hg (by simpa only [Bool.not_eq_true', List.contains_eq_mem, decide_eq_false_iff_not] using hl))
    rw [hcut] at e
    rcases h with ⟨⟨h1, _⟩, h2⟩ | h
    · rw [h1, h2] at e
      simpa using e
    · rw [← List.cons_append] at e
      rw [not_differ e] at h; cases h

theorem RPiece.ne_nil {x y : Char} {p : Str × Str} (h : RPiece p ∨ VPiece x y p) : p.1 ≠ [] := by
  rcases h with (h | ⟨c, rfl, _⟩) | (rfl | rfl)
  · have : (kanaTable.all fun p => p.1 != []) = true := by decide +kernel
    simpa using List.all_eq_true.1 this p h
  · simp
  · simp
  · simp

/-- a text is never the kana of its romaji with a vowel in front -/
theorem no_shift {m : Mode} (hm : m ≠ .ime) {x y : Char} {v : Char × Char × Char} (hv : v ∈ vowelRows) :
    ∀ ps : List (Str × Str), (∀ p ∈ ps, RPiece p ∨ VPiece x y p) →
    (ps.map Prod.fst).flatten ≠ v.2.2 :: kana m (ps.map Prod.snd).flatten := by
  intro ps
  induction ps with
  | nil => intro _ h; cases h
  | cons p ps ih =>
    intro hp h
    rw [List.map_cons, List.map_cons, List.flatten_cons, List.flatten_cons] at h
    have h0 := hp p List.mem_cons_self
    exact ih (fun q hq => hp q (List.mem_cons_of_mem _ hq)) (shift_step (shift_piece hm hv h0).2 h (RPiece.ne_nil h0))

/-- nor with a small vowel in front -/
theorem no_shift_small {m : Mode} (hm : m ≠ .ime) {x y : Char} {v : Char × Char × Char} (hv : v ∈ vowelRows)
    (ps : List (Str × Str)) (hp : ∀ p ∈ ps, RPiece p ∨ VPiece x y p) :
    (ps.map Prod.fst).flatten ≠ v.2.1 :: kana m (ps.map Prod.snd).flatten := by
  cases ps with
  | nil => intro h; cases h
  | cons p ps =>
    intro h
    rw [List.map_cons, List.map_cons, List.flatten_cons, List.flatten_cons] at h
    have h0 := hp p List.mem_cons_self
    exact no_shift hm hv ps (fun q hq => hp q (List.mem_cons_of_mem _ hq))
      (shift_step (shift_piece hm hv h0).1 h (RPiece.ne_nil h0))

theorem vowelRow_of {x : Char} (hx : x ∈ "aiueo".toList) (hu : x ≠ 'u') : ∃ v ∈ vowelRows, v.1 = x := by
  have : ∀ x ∈ "aiueo".toList, x ≠ 'u' → ∃ v ∈ vowelRows, v.1 = x := by decide
  exact this x hx hu

theorem vu_back {m : Mode} (hm : m ≠ .ime) : ∀ v ∈ vowelRows,
    kana m ['v', v.1] = ['ゔ', v.2.1] ∧ kana m ['v', 'v', v.1] = ['っ', 'ゔ', v.2.1] := by
  cases m with
  | normal => decide +kernel
  | obsolete => decide +kernel
  | ime => exact absurd rfl hm

/-- what the proof needs of a piece for ゔ -/
theorem vpiece_back {m : Mode} (hm : m ≠ .ime) {x y : Char} (hx : x ∈ "aiueo".toList) (hy : y ∈ "aiueo".toList)
    (hxu : x ≠ 'u') (hyu : y ≠ 'u') {p : Str × Str} (h : VPiece x y p) :
    (∃ v ∈ vowelRows, kana m p.2 = p.1 ++ [v.2.1] ∧ ∃ c, p.2.getLast? = some c ∧
      toAsciiLowercase c ∉ "bcdfghjklmnpqrstvwxyz".toList) ∧ p.2.head? = some 'v' := by
  have hl : ∀ v ∈ vowelRows, toAsciiLowercase v.1 ∉ "bcdfghjklmnpqrstvwxyz".toList := by decide
  rcases h with rfl | rfl
  · obtain ⟨v, hv, rfl⟩ := vowelRow_of hx hxu
    exact ⟨⟨v, hv, (vu_back hm v hv).1, v.1, rfl, hl v hv⟩, rfl⟩
  · obtain ⟨v, hv, rfl⟩ := vowelRow_of hy hyu
    exact ⟨⟨v, hv, (vu_back hm v hv).2, v.1, rfl, hl v hv⟩, rfl⟩

theorem kana_n_piecesV {m : Mode} (hm : m ≠ .ime) {x y : Char} (hx : x ∈ "aiueo".toList) (hy : y ∈ "aiueo".toList)
    (hxu : x ≠ 'u') (hyu : y ≠ 'u') {ps : List (Str × Str)} (hp : ∀ p ∈ ps, RPiece p ∨ VPiece x y p) :
    kana m ('n' :: (ps.map Prod.snd).flatten) = 'ん' :: kana m (ps.map Prod.snd).flatten ∨
    ∃ x r, kana m ('n' :: (ps.map Prod.snd).flatten) = x :: r ∧ x ≠ 'っ' ∧ x ≠ 'ん' := by
  by_cases hv : ∃ c, ((ps.map Prod.snd).flatten).head? = some c ∧ c ∈ ['a', 'i', 'u', 'e', 'o', 'y']
  · obtain ⟨c, hc, hcv⟩ := hv
    obtain ⟨p, h1, t, h2, h3⟩ := pieces_head hc
    right
    rcases hp p h1 with hp | hp
    · rcases trip_of_piece hm hp with rfl | rfl | rfl | h
      · cases h3
      · cases h3; exact absurd hcv (by decide)
      · cases h3; exact absurd hcv (by decide)
      · obtain ⟨c', hc', _, _, hn⟩ := h.head
        rw [h3] at hc'; cases hc'
        obtain ⟨x, r, hk, hx⟩ := hn hcv
        obtain ⟨d, hd, hd2⟩ := h.last
        have hd' : ('n' :: p.2).getLast? = some d := by
          cases hp2 : p.2 with
          | nil => rw [hp2] at hd; cases hd
          | cons y q => rw [hp2] at hd; rw [List.getLast?_cons_cons]; exact hd
        refine ⟨x, r ++ kana m t, ?_, hx⟩
        rw [h2, ← List.cons_append, kana_append _ _ (cut_of_last hd' hd2), hk]
        rfl
    · have := (vpiece_back hm hx hy hxu hyu hp).2
      rw [h3] at this; cases this
      exact absurd hcv (by decide)
  · left
    have := kana_n (m := m) hm (c := 'n') (by decide) (t := (ps.map Prod.snd).flatten) fun d hd hmem => by
      obtain ⟨p, h1, t, h2, h3⟩ := pieces_head hd
      have hlow : toAsciiLowercase d = d ∧ d ≠ '\'' := by
        rcases hp p h1 with hp | hp
        · rcases trip_of_piece hm hp with rfl | rfl | rfl | h
          · cases h3
          · cases h3; decide
          · cases h3; decide
          · obtain ⟨c', hc', h1, h2, _⟩ := h.head
            rw [h3] at hc'; cases hc'
            exact ⟨h1, h2⟩
        · have := (vpiece_back hm hx hy hxu hyu hp).2
          rw [h3] at this; cases this
          decide
      rw [hlow.1] at hmem
      apply hv
      refine ⟨d, hd, ?_⟩
      have : ∀ x ∈ ['a', 'i', 'u', 'e', 'o', 'y', '\''], x ∈ ['a', 'i', 'u', 'e', 'o', 'y'] ∨ x = '\'' := by decide
      exact (this d hmem).resolve_right hlow.2
    exact this

/-- `trip_pieces` with pieces for ゔ: there are none -/
theorem trip_piecesV {m : Mode} (hm : m ≠ .ime) {x y : Char} (hx : x ∈ "aiueo".toList) (hy : y ∈ "aiueo".toList)
    (hxu : x ≠ 'u') (hyu : y ≠ 'u') :
    ∀ (ps : List (Str × Str)), (∀ p ∈ ps, RPiece p ∨ VPiece x y p) → ∀ k : Nat,
    kana m (ps.map Prod.snd).flatten = List.replicate k 'っ' ++ (ps.map Prod.fst).flatten →
    k = 0 ∧ ∀ p ∈ ps, regKey m p.1 = true ∨ ∃ c, p.1 = [c] ∧ Spec.Neutral c := by
  intro ps
  induction ps with
  | nil =>
    intro _ k h
    cases k with
    | zero => exact ⟨rfl, by simp⟩
    | succ k =>
      rw [List.map_nil, List.flatten_nil, kana_nil] at h
      simp [List.replicate_succ] at h
  | cons p ps ih =>
    intro hp k h
    have hps : ∀ q ∈ ps, RPiece q ∨ VPiece x y q := fun q hq => hp q (List.mem_cons_of_mem _ hq)
    have hn := kana_n_piecesV hm hx hy hxu hyu hps
    rw [List.map_cons, List.map_cons, List.flatten_cons, List.flatten_cons] at h
    rcases hp p List.mem_cons_self with h0 | h0
    · rcases trip_of_piece hm h0 with rfl | rfl | rfl | ht
      · have := ih hps (k + 1) (by
          rw [List.nil_append] at h
          rw [h, List.replicate_succ']
          simp)
        omega
      · simp only [List.cons_append, List.nil_append] at h
        cases k with
        | succ k =>
          exfalso
          rw [List.replicate_succ, List.cons_append] at h
          rcases hn with hn | ⟨x, r, hn, h1, _⟩
          · rw [hn] at h; injection h with e _; exact absurd e (by decide)
          · rw [hn] at h; injection h with e _; exact h1 e
        | zero =>
          rw [List.replicate_zero, List.nil_append] at h
          rcases hn with hn | ⟨x, r, hn, _, h1⟩
          · rw [hn] at h
            injection h with _ h
            refine ⟨rfl, ?_⟩
            intro q hq
            rcases List.mem_cons.1 hq with rfl | hq
            · left
              cases m <;> decide +kernel
            · exact (ih hps 0 (by simpa using h)).2 q hq
          · rw [hn] at h; injection h with e _; exact absurd e h1
      · exfalso
        have h' : ∃ y, kana m ('n' :: (ps.map Prod.snd).flatten) = 'っ' :: y := by
          cases k with
          | zero => exact ⟨_, h⟩
          | succ k => exact ⟨_, by rw [List.replicate_succ, List.cons_append] at h; exact h⟩
        obtain ⟨y, h'⟩ := h'
        rcases hn with hn | ⟨x, r, hn, h1, _⟩
        · rw [hn] at h'; injection h' with e _; exact absurd e (by decide)
        · rw [hn] at h'; injection h' with e _; exact h1 e
      · obtain ⟨c, hc, hc2⟩ := ht.last
        rw [kana_append _ _ (cut_of_last hc hc2)] at h
        cases k with
        | zero =>
          rw [List.replicate_zero, List.nil_append] at h
          rcases ht.back with ⟨hb, hreg⟩ | hd
          · rw [hb] at h
            have h := List.append_cancel_left h
            refine ⟨rfl, ?_⟩
            intro q hq
            rcases List.mem_cons.1 hq with rfl | hq
            · exact hreg
            · exact (ih hps 0 (by simpa using h)).2 q hq
          · rw [not_differ h] at hd; cases hd
        | succ k =>
          exfalso
          rw [List.replicate_succ, List.cons_append] at h
          obtain ⟨x, r, hx, hx2⟩ := ht.sokuon
          rw [hx, List.cons_append] at h
          injection h with e h
          rcases hx2 with hx2 | ⟨hh, y, r', rfl, hy⟩
          · exact hx2 e
          · cases k with
            | zero =>
              rw [List.replicate_zero, List.nil_append] at h
              obtain ⟨key, out⟩ := p
              cases key with
              | nil => cases hh
              | cons a key =>
                cases hh
                injection h with e _
                exact hy e
            | succ k =>
              rw [List.replicate_succ] at h
              injection h with e _
              exact hy e
    · exfalso
      obtain ⟨⟨v, hv, hb, c, hc, hc2⟩, -⟩ := vpiece_back hm hx hy hxu hyu h0
      rw [kana_append _ _ (cut_of_last hc hc2), hb] at h
      cases k with
      | zero =>
        rw [List.replicate_zero, List.nil_append, List.append_assoc] at h
        exact no_shift_small hm hv ps hps (List.append_cancel_left h).symm
      | succ k =>
        rw [List.replicate_succ] at h
        rcases h0 with rfl | rfl
        · injection h with e _
          exact absurd e (by decide)
        · injection h with _ h
          cases k with
          | zero => injection h with e _; exact absurd e (by decide)
          | succ k => rw [List.replicate_succ] at h; injection h with e _; exact absurd e (by decide)

/-- the romaji of a text has neither capital letters nor katakana letters other than ヵ and ヶ -/
theorem pieces_charsV {x y : Char} (hx : x ∈ "aiueo".toList) (hy : y ∈ "aiueo".toList) {ps : List (Str × Str)}
    (h : ∀ p ∈ ps, RPiece p ∨ VPiece x y p) : ∀ c ∈ (ps.map Prod.snd).flatten,
    ¬ Spec.AsciiUpper c ∧ (Spec.Katakana c → toHira c = c) := by
  intro c hc
  obtain ⟨u, hu, hcu⟩ := List.mem_flatten.1 hc
  obtain ⟨p, hp, rfl⟩ := List.mem_map.1 hu
  rcases h p hp with h | h
  · exact pieces_chars (ps := [p]) (by simpa using h) c (by simpa using hcu)
  · have h1 : c = 'v' ∨ c = x ∨ c = y := by
      rcases h with rfl | rfl
      · simp only [List.mem_cons, List.not_mem_nil, or_false] at hcu
        rcases hcu with h | h
        · exact Or.inl h
        · exact Or.inr (Or.inl h)
      · simp only [List.mem_cons, List.not_mem_nil, or_false] at hcu
        rcases hcu with h | h | h
        · exact Or.inl h
        · exact Or.inl h
        · exact Or.inr (Or.inr h)
    have h2 : c ∈ "vaiueo".toList := by
      have hs : ∀ x ∈ "aiueo".toList, x ∈ "vaiueo".toList := by decide
      rcases h1 with rfl | rfl | rfl
      · decide
      · exact hs _ hx
      · exact hs _ hy
    have : ∀ c ∈ "vaiueo".toList, ¬ Spec.AsciiUpper c ∧ (Spec.Katakana c → toHira c = c) := by decide
    exact this c h2

/-- a text without Latin letters and apostrophe is cut into pieces -/
theorem romaji_pieces {std : Std} (hstd : std.Lawful) (s : Str) (o : Options) (hu : o.upcase_katakana = false) {x y : Char}
    (hx : to_romaji_with_opt std "ゔ".toList o = .ok ['v', x]) (hxu : x ≠ 'u')
    (hy : to_romaji_with_opt std "っゔ".toList o = .ok ['v', 'v', y]) (hyu : y ≠ 'u')
    (hs : ∀ c ∈ s, ¬ Spec.AsciiLetter c ∧ c ≠ '\'') :
    x ∈ "aiueo".toList ∧ y ∈ "aiueo".toList ∧ ∃ ps : List (Str × Str), k2hP std true none s = (ps.map Prod.fst).flatten ∧
      to_romaji_with_opt std s o = .ok (ps.map Prod.snd).flatten ∧ ∀ p ∈ ps, RPiece p ∨ VPiece x y p := by
  have hxy := vuVowels_of hstd hu hx hy
  obtain ⟨x', hxv, y', hyv, ex, ey⟩ := C101_vu hstd o hu
  rw [hx] at ex; cases ex
  rw [hy] at ey; cases ey
  have hz : ∀ x ∈ flagged std s, (plainChar x.1 = true ∨ x.1 = 'ゔ') ∧ ¬ Spec.AsciiLetter x.1 ∧ x.1 ≠ '\'' := by
    intro x hx
    have hm2 := k2hP_hiraFromV hstd true s []
    rw [show k2hPrev none [] = none from rfl] at hm2
    have hx1 : x.1 ∈ k2hP std true none s := by
      rw [← flagged_fst hstd]; exact List.mem_map_of_mem hx
    have hout := k2hP_out hstd true s prevOk_none _ hx1
    have hpl : plainChar x.1 = true ∨ x.1 = 'ゔ' := by
      by_cases h : x.1 = 'ゔ'
      · exact Or.inr h
      · left
        simp only [plainChar, Bool.and_eq_true, bne_iff_ne, Bool.or_eq_true, Bool.not_eq_true']
        exact ⟨h, or_assoc.2 hout⟩
    rw [hm2] at hx1
    refine ⟨hpl, ?_⟩
    rcases hiraFromV_mem _ _ _ _ _ hx1 with ⟨c, hc, e⟩ | h
    · obtain ⟨h1, h2⟩ := hs c hc
      rw [e]
      constructor
      · unfold Spec.AsciiLetter Spec.In at *
        rw [toHira_toNat]
        repeat' split
        all_goals omega
      · intro h
        apply h2
        rw [char_eq_iff, toHira_toNat] at h
        apply char_ext
        simp only [Char.reduceToNat] at *
        repeat' split at h
        all_goals omega
    · have : ∀ y ∈ ['あ', 'い', 'う', 'え', 'お', 'ー'], ¬ Spec.AsciiLetter y ∧ y ≠ '\'' := by decide
      exact this _ h
  obtain ⟨ps, e0, e1, hps⟩ := rom_piecesV hstd hxy hxu hyu (flagged std s) hz
  rw [flagged_fst hstd] at e0
  exact ⟨hxv, hyv, ps, e0, by rw [to_romaji_eq hstd, hu, e1], hps⟩

/-- **C110** Exactly which texts survive the trip kana → romaji → kana, ゔ and ヴ included, if the standard library makes
`to_romaji` write ゔ and っゔ with a vowel other than u: those made of regular hiragana syllables, Japanese marks and
characters that neither function converts.  The text has no Latin letter and no apostrophe. -/
theorem C110_exact {std : Std} (hstd : std.Lawful) (s : Str) (o o' : Options) (hu : o.upcase_katakana = false)
    (hime : o'.imemode = true → o'.use_obsolete_kana = true) {x y : Char}
    (hx : to_romaji_with_opt std "ゔ".toList o = .ok ['v', x]) (hxu : x ≠ 'u')
    (hy : to_romaji_with_opt std "っゔ".toList o = .ok ['v', 'v', y]) (hyu : y ≠ 'u')
    (hs : ∀ c ∈ s, ¬ Spec.AsciiLetter c ∧ c ≠ '\'') :
    (∃ r, to_romaji_with_opt std s o = .ok r ∧ to_kana_with_opt std r o' = .ok s) ↔
    ∃ ws : List Str, s = ws.flatten ∧ ∀ w ∈ ws, Spec.RegularPiece false o'.use_obsolete_kana w := by
  constructor
  · rintro ⟨r, h1, h2⟩
    have hm := modeOf_ne_ime hime
    obtain ⟨hxv, hyv, ps, e0, e1, hps⟩ := romaji_pieces hstd s o hu hx hxu hy hyu hs
    rw [e1] at h1
    cases h1
    obtain ⟨r', hr', hk⟩ := C14_lower hstd _ o' fun c hc => (pieces_charsV hxv hyv hps c hc).1
    rw [h2] at hr'
    cases hr'
    have hfix : ∀ c ∈ s, toHira c = c := by
      intro c hc
      by_cases hK : Spec.Katakana c
      · rcases hk c hc hK with h | h
        · exact (pieces_charsV hxv hyv hps c h).2 hK
        · have : ∀ c ∈ ['ヵ', 'ヶ', '・', 'ー'], toHira c = c := by decide
          exact this c h
      · apply toHira_other
        right; right
        cases ha : is_char_katakana c with
        | false => rfl
        | true => exact absurd (specKatakana_iff.2 (is_char_katakana_iff.1 ha)) hK
    have hid : k2hP std true none s = s := by
      apply k2hP_id
      intro d hd
      exact fixed_other (hfix d hd)
    rw [hid] at e0
    rw [to_kana_eq hstd] at h2
    have h2 : kana (modeOf o') (ps.map Prod.snd).flatten = s := by injection h2
    have := (trip_piecesV hm hxv hyv hxu hyu ps hps 0 (by simpa [← e0] using h2)).2
    obtain ⟨ws, e, hw⟩ := regular_all ps this
    rw [obsOf_modeOf] at hw
    exact ⟨ws, by rw [e0, e], hw⟩
  · rintro ⟨ws, rfl, hw⟩
    exact C36_roundtrip hstd o o' hime ws hw

/-- **C110** with these libraries no text with ゔ or ヴ survives the trip -/
theorem C110_lost {std : Std} (hstd : std.Lawful) (s : Str) (o o' : Options) (hu : o.upcase_katakana = false)
    (hime : o'.imemode = true → o'.use_obsolete_kana = true) {x y : Char}
    (hx : to_romaji_with_opt std "ゔ".toList o = .ok ['v', x]) (hxu : x ≠ 'u')
    (hy : to_romaji_with_opt std "っゔ".toList o = .ok ['v', 'v', y]) (hyu : y ≠ 'u')
    (hs : ∀ c ∈ s, ¬ Spec.AsciiLetter c ∧ c ≠ '\'') (hv : 'ゔ' ∈ s ∨ 'ヴ' ∈ s) :
    ∃ r k, to_romaji_with_opt std s o = .ok r ∧ to_kana_with_opt std r o' = .ok k ∧ k ≠ s := by
  obtain ⟨r, hr⟩ := C27_total hstd s o
  obtain ⟨k, hk⟩ := C09_total hstd r o'
  refine ⟨r, k, hr, hk, ?_⟩
  rintro rfl
  obtain ⟨ws, rfl, hw⟩ := (C110_exact hstd k o o' hu hime hx hxu hy hyu hs).1 ⟨r, hr, hk⟩
  have hm := modeOf_ne_ime hime
  have key : ∀ w ∈ ws, 'ゔ' ∉ w ∧ 'ヴ' ∉ w := fun w h => piece_no_vu hm hstd (by rw [obsOf_modeOf]; exact hw w h)
  rcases hv with hv | hv
  · obtain ⟨w, h1, h2⟩ := List.mem_flatten.1 hv
    exact (key w h1).1 h2
  · obtain ⟨w, h1, h2⟩ := List.mem_flatten.1 hv
    exact (key w h1).2 h2

/-- **C110** the standard libraries of Rust 1.52 and later are such libraries -/
theorem C110_rust (s : Str) (o o' : Options) (hu : o.upcase_katakana = false)
    (hime : o'.imemode = true → o'.use_obsolete_kana = true) (hs : ∀ c ∈ s, ¬ Spec.AsciiLetter c ∧ c ≠ '\'') :
    ((∃ r, to_romaji_with_opt rustStd s o = .ok r ∧ to_kana_with_opt rustStd r o' = .ok s) ↔
      ∃ ws : List Str, s = ws.flatten ∧ ∀ w ∈ ws, Spec.RegularPiece false o'.use_obsolete_kana w) ∧
    ((∃ r, to_romaji_with_opt legacyStd s o = .ok r ∧ to_kana_with_opt legacyStd r o' = .ok s) ↔
      ∃ ws : List Str, s = ws.flatten ∧ ∀ w ∈ ws, Spec.RegularPiece false o'.use_obsolete_kana w) := by
  obtain ⟨h1, h2, h3, h4, -⟩ := C101_search o hu
  exact ⟨C110_exact rustStd_lawful s o o' hu hime h1 (by decide) h2 (by decide) hs,
    C110_exact legacyStd_lawful s o o' hu hime h3 (by decide) h4 (by decide) hs⟩

/-- a text with ゔ, its romaji and the kana that come back; a search that finds the first entry would bring it back -/
example : (∀ c ∈ "ゔぉお".toList, ¬ Spec.AsciiLetter c ∧ c ≠ '\'') ∧
    to_romaji rustStd "ゔぉお".toList = .ok "vooo".toList ∧
    to_kana rustStd "vooo".toList = .ok "ゔぉおお".toList ∧
    to_romaji firstStd "ゔ".toList = .ok "vu".toList ∧ to_kana firstStd "vu".toList = .ok "ゔ".toList := by
  decide +kernel

end WanaKana
