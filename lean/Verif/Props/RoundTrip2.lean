import Verif.Props.RomajiNormal
/-! # C82: exactly which texts survive the trip kana → romaji → kana -/

namespace WanaKana
open RNode
open Spec (toHira kanaTable)

/-- Latin and typographic marks that `to_kana` converts -/
def latinMarks : Str := ['!', '(', ')', ',', '-', '.', '/', ':', '?', '[', ']', '{', '}', '~', '‘', '’', '“', '”']

/-- a piece of text with its romaji -/
def RPiece (p : Str × Str) : Prop := p ∈ kanaTable ∨ ∃ c, p = ([c], [c]) ∧ (Copied c ∧ ¬ Spec.AsciiLetter c ∨ c ∈ latinMarks)

theorem rom_pieces {std : Std} (hstd : std.Lawful) : ∀ z : List (Char × Bool),
    (∀ x ∈ z, plainChar x.1 = true ∧ ¬ Spec.AsciiLetter x.1 ∧ x.1 ≠ '\'') →
    ∃ ps : List (Str × Str), z.map Prod.fst = (ps.map Prod.fst).flatten ∧
      rom std false z = (ps.map Prod.snd).flatten ∧ ∀ p ∈ ps, RPiece p := by
  intro z
  induction z using rom_ind (std := std) with
  | nil => intro _; exact ⟨[], rfl, by rw [rom_nil]; rfl, by simp⟩
  | miss c b z h ih =>
    intro hz
    obtain ⟨ps, h0, h1, h2⟩ := ih fun x hx => hz x (List.mem_cons_of_mem _ hx)
    refine ⟨([c], [c]) :: ps, by rw [List.map_cons, h0]; rfl, by rw [rom_miss h, h1]; rfl, ?_⟩
    intro p hp
    rcases List.mem_cons.1 hp with rfl | hp
    · obtain ⟨p1, p2, p3⟩ := hz (c, b) List.mem_cons_self
      simp only at p1 p2 p3
      have hkey : romajiKey c = false := by
        cases hk : romajiKey c with
        | false => rfl
        | true =>
          obtain ⟨n, hn⟩ := root_some hstd hk
          rw [hn] at h; cases h
      right
      refine ⟨c, rfl, ?_⟩
      cases hh : headChar (toAsciiLowercase c) with
      | false => exact Or.inl ⟨⟨hh, p3, hkey, p1⟩, p2⟩
      | true =>
        right
        rw [headChar_iff, toAsciiLowercase_toNat] at hh
        unfold Spec.AsciiLetter Spec.In at p2
        simp only [latinMarks, List.mem_cons, List.not_mem_nil, or_false, char_eq_iff, Char.reduceToNat] at hh ⊢
        split at hh <;> omega
    · exact h2 p hp
  | hit z n k hk h ih =>
    intro hz
    obtain ⟨ps, h0, h1, h2⟩ := ih fun x hx => hz x (List.mem_of_mem_drop hx)
    refine ⟨((z.map Prod.fst).take k, n.output) :: ps, ?_, ?_, ?_⟩
    · rw [List.map_cons, List.flatten_cons, ← h0]
      simp only [List.map_drop, List.take_append_drop]
    · rw [rom_hit h hk, h1]; simp
    · intro p hp
      rcases List.mem_cons.1 hp with rfl | hp
      · left
        have hw := h.walk
        have hq : ∀ c ∈ (z.map Prod.fst).take k, plainChar c = true := by
          intro c hc
          obtain ⟨x, hx, rfl⟩ := List.mem_map.1 (List.mem_of_mem_take hc)
          exact (hz x hx).1
        have hne : (z.map Prod.fst).take k ≠ [] := by
          intro e
          have h1 := congrArg List.length e
          have h2 := h.le
          rw [List.length_take, List.length_nil] at h1
          omega
        generalize (z.map Prod.fst).take k = q at hw hq hne
        cases q with
        | nil => exact absurd rfl hne
        | cons c q =>
          exact mem_of_lookup (table_of_mwalk (n := n) (c := c) (q := q)
            (fun hm => absurd (hq _ hm) (by decide)) (fun hm => absurd (hq _ hm) (by decide)) hstd hw)
      · exact h2 p hp

/-- two texts differ at a common position -/
def differ (a b : Str) : Bool := (a.zip b).any fun x => x.1 != x.2

theorem not_differ {a b x y : Str} (h : a ++ x = b ++ y) : differ a b = false := by
  induction a generalizing b with
  | nil => rfl
  | cons c a ih =>
    cases b with
    | nil => rfl
    | cons d b =>
      simp only [List.cons_append, List.cons.injEq] at h
      have := ih h.2
      simp only [differ] at this ⊢
      simp [this, h.1]

/-- a table row made of regular syllables -/
def regKey (m : Mode) (k : Str) : Bool :=
  (tablePieces m).contains k || (match k with
    | [a, b] => a == 'ん' && Spec.vowelOrY.contains b
    | _ => false)

/-- what the proof needs of a row of the table -/
def tripCheck (m : Mode) (p : Str × Str) : Bool :=
  p == (['っ'], []) || (p.2 == ['n'] && (p.1 == ['ん'] || p.1 == ['っ', 'ん'])) ||
  (match p.2 with
    | [] => false
    | c :: _ => decide (toAsciiLowercase c = c) && c != '\'' &&
      (match p.2.getLast? with
        | some c => !("bcdfghjklmnpqrstvwxyz".toList.contains (toAsciiLowercase c))
        | none => false) &&
      (decide (kana m p.2 = p.1) && regKey m p.1 || differ (kana m p.2) p.1) &&
      (match kana m p.2 with
        | [] => false
        | x :: r => x != 'っ' || (p.1.head? == some 'っ' && (match r with
          | [] => false
          | y :: _ => y != 'っ'))) &&
      (!['a', 'i', 'u', 'e', 'o', 'y'].contains c || (match kana m ('n' :: p.2) with
        | [] => false
        | x :: _ => x != 'っ' && x != 'ん')))

theorem trip_table (m : Mode) (hm : m ≠ .ime) : kanaTable.all (tripCheck m) = true := by
  cases m with
  | normal => decide +kernel
  | obsolete => decide +kernel
  | ime => exact absurd rfl hm

theorem trip_marks (m : Mode) (hm : m ≠ .ime) : (latinMarks.all fun c => tripCheck m ([c], [c])) = true := by
  cases m with
  | normal => decide +kernel
  | obsolete => decide +kernel
  | ime => exact absurd rfl hm

/-- a row that is not ん or a lost っ -/
structure Trip (m : Mode) (p : Str × Str) : Prop where
  head : ∃ c, p.2.head? = some c ∧ toAsciiLowercase c = c ∧ c ≠ '\'' ∧ (c ∈ ['a', 'i', 'u', 'e', 'o', 'y'] →
    ∃ x r, kana m ('n' :: p.2) = x :: r ∧ x ≠ 'っ' ∧ x ≠ 'ん')
  last : ∃ c, p.2.getLast? = some c ∧ toAsciiLowercase c ∉ "bcdfghjklmnpqrstvwxyz".toList
  back : kana m p.2 = p.1 ∧ (regKey m p.1 = true ∨ ∃ c, p.1 = [c] ∧ Spec.Neutral c) ∨ differ (kana m p.2) p.1 = true
  sokuon : ∃ x r, kana m p.2 = x :: r ∧ (x ≠ 'っ' ∨ p.1.head? = some 'っ' ∧ ∃ y r', r = y :: r' ∧ y ≠ 'っ')

theorem trip_of_check {m : Mode} {p : Str × Str} (h : tripCheck m p = true) :
    p = (['っ'], []) ∨ p = (['ん'], ['n']) ∨ p = (['っ', 'ん'], ['n']) ∨ Trip m p := by
  obtain ⟨k, u⟩ := p
  simp only [tripCheck, Bool.or_eq_true, Bool.and_eq_true, beq_iff_eq] at h
  rcases h with (h | ⟨h1, h2⟩) | h
  · exact Or.inl h
  · subst h1
    rcases h2 with rfl | rfl
    · exact Or.inr (Or.inl rfl)
    · exact Or.inr (Or.inr (Or.inl rfl))
  · right; right; right
    cases u with
    | nil => cases h
    | cons c u =>
      simp only [Bool.and_eq_true, decide_eq_true_iff, bne_iff_ne, Bool.or_eq_true, Bool.not_eq_true',
        List.contains_eq_mem, decide_eq_false_iff_not] at h
      obtain ⟨⟨⟨⟨⟨h1, h2⟩, h3⟩, h4⟩, h5⟩, h6⟩ := h
      refine ⟨⟨c, rfl, h1, h2, fun hv => ?_⟩, ?_, ?_, ?_⟩
      · have h6 := h6.resolve_left (fun h => h hv)
        simp only
        cases hk : kana m ('n' :: c :: u) with
        | nil => rw [hk] at h6; cases h6
        | cons x r =>
          rw [hk] at h6
          simp only [Bool.and_eq_true, bne_iff_ne] at h6
          exact ⟨x, r, rfl, h6⟩
      · simp only
        cases hl : (c :: u).getLast? with
        | none => rw [hl] at h3; cases h3
        | some d =>
          rw [hl] at h3
          exact ⟨d, rfl, by simpa only [Bool.not_eq_true', List.contains_eq_mem, decide_eq_false_iff_not] using h3⟩
      · rcases h4 with h | h
        · exact Or.inl ⟨h.1, Or.inl h.2⟩
        · exact Or.inr h
      · simp only
        cases hk : kana m (c :: u) with
        | nil => rw [hk] at h5; cases h5
        | cons x r =>
          rw [hk] at h5
          refine ⟨x, r, rfl, ?_⟩
          simp only [Bool.or_eq_true, bne_iff_ne, Bool.and_eq_true, beq_iff_eq] at h5
          rcases h5 with h | ⟨h, h'⟩
          · exact Or.inl h
          · cases r with
            | nil => cases h'
            | cons y r' => exact Or.inr ⟨h, y, r', rfl, by simpa using h'⟩

theorem plain_fixed {c : Char} (h : plainChar c = true) : toHira c = c := by
  simp only [plainChar, Bool.and_eq_true, Bool.or_eq_true, Bool.not_eq_true'] at h
  exact toHira_other (or_assoc.1 h.2)

theorem fixed_other {c : Char} (h : toHira c = c) : keeps c = true ∨ isDash c = true ∨ is_char_katakana c = false := by
  cases ha : is_char_katakana c with
  | false => exact Or.inr (Or.inr rfl)
  | true =>
    have hr := is_char_katakana_iff.1 ha
    rw [char_eq_iff, toHira_toNat] at h
    rw [keeps_iff, isDash_iff]
    repeat' split at h
    all_goals omega

theorem copied_neutral {c : Char} (h : Copied c) (hl : ¬ Spec.AsciiLetter c) : Spec.Neutral c := by
  obtain ⟨h1, h2, h3, h4⟩ := h
  refine ⟨?_, hl, ?_⟩
  · rw [convertible_iff, h3]
    rintro (h | ⟨ha, hb⟩)
    · cases h
    · simp only [plainChar, Bool.and_eq_true, Bool.or_eq_true, Bool.not_eq_true', hb, ha] at h4
      rcases h4.2 with (h | h) | h
      · cases h
      · have : c = 'ー' := by
          have hd := isDash_iff.1 h
          exact char_ext hd
        subst this
        exact absurd h3 (by decide)
      · cases h
  · intro hm
    have : ∀ x ∈ ['!', '(', ')', ',', '-', '.', '/', ':', '?', '[', ']', '{', '}', '~', '‘', '’', '“', '”', '\''],
        headChar (toAsciiLowercase x) = true ∨ x = '\'' := by decide
    rcases this c hm with h | h
    · rw [h] at h1; cases h1
    · exact h2 h

theorem trip_copied {m : Mode} {c : Char} (h : Copied c) (hl : ¬ Spec.AsciiLetter c) : Trip m ([c], [c]) := by
  have hk : kana m [c] = [c] := by
    have := kana_of_not_head (m := m) (s := [c]) (by simpa using h.1) []
    simpa [kana_nil] using this
  have hlow : toAsciiLowercase c = c := by
    apply char_ext
    unfold Spec.AsciiLetter Spec.In at hl
    rw [toAsciiLowercase_toNat]
    split <;> omega
  refine ⟨⟨c, rfl, hlow, h.2.1, fun hv => ?_⟩, ⟨c, rfl, fun hm => ?_⟩,
    Or.inl ⟨hk, Or.inr ⟨c, rfl, copied_neutral h hl⟩⟩, ⟨c, [], hk, Or.inl ?_⟩⟩
  · have : ∀ x ∈ ['a', 'i', 'u', 'e', 'o', 'y'], Spec.AsciiLetter x := by decide
    exact absurd (this c hv) hl
  · have : ∀ x ∈ "bcdfghjklmnpqrstvwxyz".toList, headChar x = true := by decide
    have h1 := h.1
    rw [this _ hm] at h1; cases h1
  · rintro rfl
    exact absurd h.2.2.1 (by decide)

theorem trip_of_piece {m : Mode} (hm : m ≠ .ime) {p : Str × Str} (h : RPiece p) :
    p = (['っ'], []) ∨ p = (['ん'], ['n']) ∨ p = (['っ', 'ん'], ['n']) ∨ Trip m p := by
  rcases h with h | ⟨c, rfl, h | h⟩
  · exact trip_of_check (List.all_eq_true.1 (trip_table m hm) p h)
  · exact Or.inr (Or.inr (Or.inr (trip_copied h.1 h.2)))
  · exact trip_of_check (List.all_eq_true.1 (trip_marks m hm) c h)

/-- the first non-empty romaji -/
theorem pieces_head {ps : List (Str × Str)} {c : Char} (h : ((ps.map Prod.snd).flatten).head? = some c) :
    ∃ p ∈ ps, ∃ t, (ps.map Prod.snd).flatten = p.2 ++ t ∧ p.2.head? = some c := by
  induction ps with
  | nil => cases h
  | cons p ps ih =>
    obtain ⟨k, u⟩ := p
    cases u with
    | nil =>
      obtain ⟨p, h1, t, h2, h3⟩ := ih h
      exact ⟨p, List.mem_cons_of_mem _ h1, t, h2, h3⟩
    | cons d u => exact ⟨_, List.mem_cons_self, _, rfl, h⟩

theorem kana_n_pieces {m : Mode} (hm : m ≠ .ime) {ps : List (Str × Str)} (hp : ∀ p ∈ ps, RPiece p) :
    kana m ('n' :: (ps.map Prod.snd).flatten) = 'ん' :: kana m (ps.map Prod.snd).flatten ∨
    ∃ x r, kana m ('n' :: (ps.map Prod.snd).flatten) = x :: r ∧ x ≠ 'っ' ∧ x ≠ 'ん' := by
  by_cases hv : ∃ c, ((ps.map Prod.snd).flatten).head? = some c ∧ c ∈ ['a', 'i', 'u', 'e', 'o', 'y']
  · obtain ⟨c, hc, hcv⟩ := hv
    obtain ⟨p, h1, t, h2, h3⟩ := pieces_head hc
    right
    rcases trip_of_piece hm (hp p h1) with rfl | rfl | rfl | h
    · cases h3
    · cases h3; exact absurd hcv (by decide)
    · cases h3; exact absurd hcv (by decide)
    · obtain ⟨c', hc', _, _, hn⟩ := h.head
      rw [h3] at hc'; cases hc'
      obtain ⟨x, r, hk, hx⟩ := hn hcv
      obtain ⟨d, hd, hd2⟩ := h.last
      have hd' : ('n' :: p.2).getLast? = some d := by
        cases hp2 : p.2 with
        | nil => rw [hp2] at hd; cases hd
        | cons y q => rw [hp2] at hd; rw [List.getLast?_cons_cons]; exact hd
      refine ⟨x, r ++ kana m t, ?_, hx⟩
      rw [h2, ← List.cons_append, kana_append _ _ (cut_of_last hd' hd2), hk]
      rfl
  · left
    have := kana_n (m := m) hm (c := 'n') (by decide) (t := (ps.map Prod.snd).flatten) fun d hd hmem => by
      obtain ⟨p, h1, t, h2, h3⟩ := pieces_head hd
      have hlow : toAsciiLowercase d = d ∧ d ≠ '\'' := by
        rcases trip_of_piece hm (hp p h1) with rfl | rfl | rfl | h
        · cases h3
        · cases h3; decide
        · cases h3; decide
        · obtain ⟨c', hc', h1, h2, _⟩ := h.head
          rw [h3] at hc'; cases hc'
          exact ⟨h1, h2⟩
      rw [hlow.1] at hmem
      apply hv
      refine ⟨d, hd, ?_⟩
      have : ∀ x ∈ ['a', 'i', 'u', 'e', 'o', 'y', '\''], x ∈ ['a', 'i', 'u', 'e', 'o', 'y'] ∨ x = '\'' := by decide
      exact (this d hmem).resolve_right hlow.2
    exact this

/-- If the romaji of the pieces converts back to the text, with any number of っ in front, then there is no
っ in front and every piece is regular. -/
theorem trip_pieces {m : Mode} (hm : m ≠ .ime) : ∀ (ps : List (Str × Str)), (∀ p ∈ ps, RPiece p) → ∀ k : Nat,
    kana m (ps.map Prod.snd).flatten = List.replicate k 'っ' ++ (ps.map Prod.fst).flatten →
    k = 0 ∧ ∀ p ∈ ps, regKey m p.1 = true ∨ ∃ c, p.1 = [c] ∧ Spec.Neutral c := by
  intro ps
  induction ps with
  | nil =>
    intro _ k h
    cases k with
    | zero => exact ⟨rfl, by simp⟩
    | succ k =>
      rw [List.map_nil, List.flatten_nil, kana_nil] at h
      simp [List.replicate_succ] at h
  | cons p ps ih =>
    intro hp k h
    have hps : ∀ q ∈ ps, RPiece q := fun q hq => hp q (List.mem_cons_of_mem _ hq)
    have hn := kana_n_pieces hm hps
    rw [List.map_cons, List.map_cons, List.flatten_cons, List.flatten_cons] at h
    rcases trip_of_piece hm (hp p List.mem_cons_self) with rfl | rfl | rfl | ht
    · have := ih hps (k + 1) (by
        rw [List.nil_append] at h
        rw [h, List.replicate_succ']
        simp)
      omega
    · simp only [List.cons_append, List.nil_append] at h
      cases k with
      | succ k =>
        exfalso
        rw [List.replicate_succ, List.cons_append] at h
        rcases hn with hn | ⟨x, r, hn, h1, _⟩
        · rw [hn] at h; injection h with e _; exact absurd e (by decide)
        · rw [hn] at h; injection h with e _; exact h1 e
      | zero =>
        rw [List.replicate_zero, List.nil_append] at h
        rcases hn with hn | ⟨x, r, hn, _, h1⟩
        · rw [hn] at h
          injection h with _ h
          refine ⟨rfl, ?_⟩
          intro q hq
          rcases List.mem_cons.1 hq with rfl | hq
          · left
            cases m <;> decide +kernel
          · exact (ih hps 0 (by simpa using h)).2 q hq
        · rw [hn] at h; injection h with e _; exact absurd e h1
    · exfalso
      have h' : ∃ y, kana m ('n' :: (ps.map Prod.snd).flatten) = 'っ' :: y := by
        cases k with
        | zero => exact ⟨_, h⟩
        | succ k => exact ⟨_, by rw [List.replicate_succ, List.cons_append] at h; exact h⟩
      obtain ⟨y, h'⟩ := h'
      rcases hn with hn | ⟨x, r, hn, h1, _⟩
      · rw [hn] at h'; injection h' with e _; exact absurd e (by decide)
      · rw [hn] at h'; injection h' with e _; exact h1 e
    · obtain ⟨c, hc, hc2⟩ := ht.last
      rw [kana_append _ _ (cut_of_last hc hc2)] at h
      cases k with
      | zero =>
        rw [List.replicate_zero, List.nil_append] at h
        rcases ht.back with ⟨hb, hreg⟩ | hd
        · rw [hb] at h
          have h := List.append_cancel_left h
          refine ⟨rfl, ?_⟩
          intro q hq
          rcases List.mem_cons.1 hq with rfl | hq
          · exact hreg
          · exact (ih hps 0 (by simpa using h)).2 q hq
        · rw [not_differ h] at hd; cases hd
      | succ k =>
        exfalso
        rw [List.replicate_succ, List.cons_append] at h
        obtain ⟨x, r, hx, hx2⟩ := ht.sokuon
        rw [hx, List.cons_append] at h
        injection h with e h
        rcases hx2 with hx2 | ⟨hh, y, r', rfl, hy⟩
        · exact hx2 e
        · cases k with
          | zero =>
            rw [List.replicate_zero, List.nil_append] at h
            obtain ⟨key, out⟩ := p
            cases key with
            | nil => cases hh
            | cons a key =>
              cases hh
              injection h with e _
              exact hy e
          | succ k =>
            rw [List.replicate_succ] at h
            injection h with e _
            exact hy e

/-- a regular row is a list of regular pieces -/
theorem regKey_pieces {m : Mode} {k : Str} (h : regKey m k = true ∨ ∃ c, k = [c] ∧ Spec.Neutral c) :
    ∃ ws : List Str, k = ws.flatten ∧ ∀ w ∈ ws, Spec.RegularPiece false (obsOf m) w := by
  rcases h with h | ⟨c, rfl, hc⟩
  · simp only [regKey, Bool.or_eq_true, List.contains_iff_mem] at h
    rcases h with h | h
    · refine ⟨[k], by simp, ?_⟩
      intro w hw
      rw [List.mem_singleton] at hw
      subst hw
      rcases List.mem_append.1 h with h | h
      · exact Or.inl h
      · obtain ⟨c, hc, rfl⟩ := List.mem_map.1 h
        exact Or.inr (Or.inr (Or.inl ⟨c, hc, rfl⟩))
    · split at h
      · next a b =>
        simp only [Bool.and_eq_true, beq_iff_eq, List.contains_iff_mem] at h
        obtain ⟨rfl, hb⟩ := h
        refine ⟨[['ん'], [b]], rfl, ?_⟩
        have h1 : ['ん'] ∈ Spec.regularSyllables (obsOf m) := by cases m <;> decide +kernel
        have h2 : ∀ b ∈ Spec.vowelOrY, [b] ∈ Spec.regularSyllables (obsOf m) := by cases m <;> decide +kernel
        intro w hw
        simp only [List.mem_cons, List.not_mem_nil, or_false] at hw
        rcases hw with rfl | rfl
        · exact Or.inl h1
        · exact Or.inl (h2 b hb)
      · cases h
  · exact ⟨[[c]], rfl, fun w hw => Or.inr (Or.inr (Or.inr ⟨c, hc, by simpa using hw⟩))⟩

theorem regular_all {m : Mode} : ∀ ps : List (Str × Str),
    (∀ p ∈ ps, regKey m p.1 = true ∨ ∃ c, p.1 = [c] ∧ Spec.Neutral c) →
    ∃ ws : List Str, (ps.map Prod.fst).flatten = ws.flatten ∧ ∀ w ∈ ws, Spec.RegularPiece false (obsOf m) w := by
  intro ps
  induction ps with
  | nil => intro _; exact ⟨[], rfl, by simp⟩
  | cons p ps ih =>
    intro h
    obtain ⟨vs, e1, h1⟩ := ih fun q hq => h q (List.mem_cons_of_mem _ hq)
    obtain ⟨us, e2, h2⟩ := regKey_pieces (h p List.mem_cons_self)
    refine ⟨us ++ vs, by rw [List.map_cons, List.flatten_cons, e1, e2, List.flatten_append], ?_⟩
    intro w hw
    rcases List.mem_append.1 hw with hw | hw
    · exact h2 w hw
    · exact h1 w hw

/-- the romaji of a text has neither capital letters nor katakana letters other than ヵ and ヶ -/
theorem pieces_chars {ps : List (Str × Str)} (h : ∀ p ∈ ps, RPiece p) : ∀ c ∈ (ps.map Prod.snd).flatten,
    ¬ Spec.AsciiUpper c ∧ (Spec.Katakana c → toHira c = c) := by
  intro c hc
  obtain ⟨u, hu, hcu⟩ := List.mem_flatten.1 hc
  obtain ⟨p, hp, rfl⟩ := List.mem_map.1 hu
  rcases h p hp with h | ⟨d, rfl, h | h⟩
  · have ht : (kanaTable.all fun x => x.2.all fun c => decide (¬ Spec.AsciiUpper c ∧ (Spec.Katakana c → toHira c = c))) = true := by
      decide +kernel
    exact of_decide_eq_true (List.all_eq_true.1 (List.all_eq_true.1 ht p h) c hcu)
  · rw [List.mem_singleton.1 hcu]
    refine ⟨fun hU => h.2 ?_, fun _ => plain_fixed h.1.2.2.2⟩
    unfold Spec.AsciiUpper Spec.AsciiLetter Spec.In at *
    omega
  · rw [List.mem_singleton.1 hcu]
    have : ∀ c ∈ latinMarks, ¬ Spec.AsciiUpper c ∧ (Spec.Katakana c → toHira c = c) := by decide +kernel
    exact this d h

/-- **C82** Exactly which texts survive the trip kana → romaji → kana: those made of regular hiragana syllables,
Japanese marks and characters that neither function converts.  The text has no Latin letter and no apostrophe
(`to_kana` reads these too) and no ゔ or ヴ. -/
theorem C82_exact {std : Std} (hstd : std.Lawful) (s : Str) (o o' : Options) (hu : o.upcase_katakana = false)
    (hime : o'.imemode = true → o'.use_obsolete_kana = true)
    (hs : ∀ c ∈ s, ¬ Spec.AsciiLetter c ∧ c ≠ '\'' ∧ toHira c ≠ 'ゔ') :
    (∃ r, to_romaji_with_opt std s o = .ok r ∧ to_kana_with_opt std r o' = .ok s) ↔
    ∃ ws : List Str, s = ws.flatten ∧ ∀ w ∈ ws, Spec.RegularPiece false o'.use_obsolete_kana w := by
  constructor
  · rintro ⟨r, h1, h2⟩
    have hm := modeOf_ne_ime hime
    have hz : ∀ x ∈ flagged std s, plainChar x.1 = true ∧ ¬ Spec.AsciiLetter x.1 ∧ x.1 ≠ '\'' := by
      intro x hx
      have hm2 := k2hP_hiraFromV hstd true s []
      rw [show k2hPrev none [] = none from rfl] at hm2
      have hx1 : x.1 ∈ k2hP std true none s := by
        rw [← flagged_fst hstd]; exact List.mem_map_of_mem hx
      have hout := k2hP_out hstd true s prevOk_none _ hx1
      have hpl : x.1 ≠ 'ゔ' → plainChar x.1 = true := by
        intro h
        simp only [plainChar, Bool.and_eq_true, bne_iff_ne, Bool.or_eq_true, Bool.not_eq_true']
        exact ⟨h, or_assoc.2 hout⟩
      rw [hm2] at hx1
      rcases hiraFromV_mem _ _ _ _ _ hx1 with ⟨c, hc, e⟩ | h
      · obtain ⟨h1, h2, h3⟩ := hs c hc
        rw [e]
        refine ⟨by rw [← e]; exact hpl (by rw [e]; exact h3), ?_, ?_⟩
        · unfold Spec.AsciiLetter Spec.In at *
          rw [toHira_toNat]
          repeat' split
          all_goals omega
        · intro h
          apply h2
          rw [char_eq_iff, toHira_toNat] at h
          apply char_ext
          simp only [Char.reduceToNat] at *
          repeat' split at h
          all_goals omega
      · have : ∀ y ∈ ['あ', 'い', 'う', 'え', 'お', 'ー'], y ≠ 'ゔ' ∧ ¬ Spec.AsciiLetter y ∧ y ≠ '\'' := by decide
        obtain ⟨h1, h2, h3⟩ := this _ h
        exact ⟨hpl h1, h2, h3⟩
    obtain ⟨ps, e0, e1, hps⟩ := rom_pieces hstd (flagged std s) hz
    rw [to_romaji_eq hstd, hu, e1] at h1
    cases h1
    obtain ⟨r', hr', hk⟩ := C14_lower hstd _ o' fun c hc => (pieces_chars hps c hc).1
    rw [h2] at hr'
    cases hr'
    have hfix : ∀ c ∈ s, toHira c = c := by
      intro c hc
      by_cases hK : Spec.Katakana c
      · rcases hk c hc hK with h | h
        · exact (pieces_chars hps c h).2 hK
        · have : ∀ c ∈ ['ヵ', 'ヶ', '・', 'ー'], toHira c = c := by decide
          exact this c h
      · apply toHira_other
        right; right
        cases ha : is_char_katakana c with
        | false => rfl
        | true => exact absurd (specKatakana_iff.2 (is_char_katakana_iff.1 ha)) hK
    have hid : k2hP std true none s = s := by
      apply k2hP_id
      intro d hd
      exact fixed_other (hfix d hd)
    rw [flagged_fst hstd, hid] at e0
    rw [to_kana_eq hstd] at h2
    have h2 : kana (modeOf o') (ps.map Prod.snd).flatten = s := by injection h2
    have := (trip_pieces hm ps hps 0 (by simpa [← e0] using h2)).2
    obtain ⟨ws, e, hw⟩ := regular_all ps this
    rw [obsOf_modeOf] at hw
    exact ⟨ws, by rw [e0, e], hw⟩
  · rintro ⟨ws, rfl, hw⟩
    exact C36_roundtrip hstd o o' hime ws hw

/-- texts the theorem speaks about: one that survives, and four that do not (ぢ; っ before あ; small ぁ; katakana) -/
example : (∀ c ∈ "がっこう、ん家ヵちぢみっあぁカナ".toList, ¬ Spec.AsciiLetter c ∧ c ≠ '\'' ∧ toHira c ≠ 'ゔ') ∧
    to_romaji modernStd "がっこう、ん家ヵ".toList = .ok "gakkou,n家ヵ".toList ∧
    to_kana modernStd "gakkou,n家ヵ".toList = .ok "がっこう、ん家ヵ".toList ∧
    (∀ s ∈ ["ちぢみ".toList, "っあ".toList, "ぁ".toList, "カナ".toList],
      ∀ r, to_romaji modernStd s = .ok r → to_kana modernStd r ≠ .ok s) := by
  refine ⟨by decide +kernel, by decide +kernel, by decide +kernel, ?_⟩
  have h : ∀ s ∈ ["ちぢみ".toList, "っあ".toList, "ぁ".toList, "カナ".toList],
      (to_romaji modernStd s >>= fun r => to_kana modernStd r) ≠ .ok s := by decide +kernel
  intro s hs r hr hk
  apply h s hs
  rw [hr]
  exact hk

end WanaKana
