import Verif.Proofs.CanonicalUp
/-! # C132: exactly which romaji are canonical with `upcase_katakana` -/

namespace WanaKana
open KNode RNode
open Spec (toHira kanaTable)

theorem marks_up (m : Mode) (hm : m ≠ .ime) : (['-', '/', 'ヵ', 'ヶ'].all fun c => uCheck m [c] &&
    [true, false].all fun k => (kana m [c]).foldl dashNext k == k && (dashOk k (kana m [c]) || (c == '-' && k))) = true := by
  cases m with
  | normal => decide +kernel
  | obsolete => decide +kernel
  | ime => exact absurd rfl hm

/-- a copied character is not a katakana letter, apart from ヵ and ヶ -/
theorem copied_hira {c : Char} (h : Copied c) : toHira c = c ∧ (c ∈ ['ヵ', 'ヶ'] ∨ c ∉ Spec.chain ∧ ¬ Spec.KatakanaLetter c) := by
  obtain ⟨-, -, h3, h4⟩ := h
  have n1 : c ≠ '・' := by rintro rfl; revert h3; decide
  have n2 : c ≠ 'ー' := by rintro rfl; revert h3; decide
  simp only [plainChar, Bool.and_eq_true, bne_iff_ne, Bool.or_eq_true, Bool.not_eq_true', keeps_iff, isDash_iff] at h4
  have h5 : (c.toNat = 0x30FB ∨ c.toNat = 0x30F5 ∨ c.toNat = 0x30F6) ∨ c.toNat = 0x30FC ∨ ¬ (0x30A1 ≤ c.toNat ∧ c.toNat ≤ 0x30FC) := by
    rcases h4.2 with (h | h) | h
    · exact Or.inl h
    · exact Or.inr (Or.inl h)
    · right; right
      intro hk
      rw [is_char_katakana_iff.2 hk] at h
      cases h
  simp only [ne_eq, char_eq_iff, Char.reduceToNat] at n1 n2
  constructor
  · rw [char_eq_iff, toHira_toNat]
    repeat' split
    all_goals omega
  · unfold Spec.KatakanaLetter Spec.In Spec.chain
    simp only [List.mem_cons, List.not_mem_nil, or_false, char_eq_iff, Char.reduceToNat]
    omega

theorem ublock_copied {std : Std} (hstd : std.Lawful) {m : Mode} {c : Char} (h : Copied c) : UBlock std m [c] := by
  have hb := block_copied (std := std) (m := m) hstd h
  have hk : kana m [c] = [c] := by
    have := kana_of_not_head (m := m) (s := [c]) (by simpa using h.1) []
    simpa [kana_nil] using this
  have ht := (copied_hira h).1
  refine ⟨?_, hb.last, ?_, ?_⟩
  · rw [hk, shifted_cons, ht, rom_miss (root_none hstd h.2.2.1)]
    show [c] ++ rom std true [] = [c]
    rw [rom_nil]; rfl
  · obtain ⟨x, hx, h1⟩ := hb.lastKana
    rw [hk] at hx ⊢
    cases hx
    rw [← ht] at h1
    exact ⟨c, rfl, h1⟩
  · obtain ⟨x, d, hx, hd, h1, h2⟩ := hb.head
    rw [hk] at hx ⊢
    cases hx
    cases hd
    refine ⟨c, c, rfl, rfl, by rw [ht]; exact h1, ?_⟩
    rw [ht]
    intro hc
    have : ∀ x ∈ ['a', 'i', 'u', 'e', 'o', 'y'], toAsciiLowercase x ∈ ['a', 'i', 'u', 'e', 'o', 'y'] := by decide
    exact this c (h2 hc)

/-- the invariant -/
structure UNormal (std : Std) (m : Mode) (k : Bool) (r : Str) : Prop where
  rom : rom std true (shifted (kana m r)) = r
  dash : dashOk k (kana m r) = true
  head : ∀ x, (kana m r).head? = some x → toHira x ∉ Spec.smallKana ∧
    (toHira x ∈ Spec.afterN → ∃ c, r.head? = some c ∧ toAsciiLowercase c ∈ ['a', 'i', 'u', 'e', 'o', 'y'])

theorem rom_shifted_append {std : Std} (hstd : std.Lawful) (up : Bool) (a b : Str)
    (h : ∀ x y, a.getLast? = some x → b.head? = some y → pairOk (toHira x) (toHira y) = false) :
    rom std up (shifted (a ++ b)) = rom std up (shifted a) ++ rom std up (shifted b) := by
  rw [shifted_append]
  apply rom_append_pair hstd
  intro x y hx hy
  unfold shifted at hx hy
  rw [List.getLast?_map] at hx
  rw [List.head?_map] at hy
  obtain ⟨x', hx', rfl⟩ := Option.map_eq_some_iff.1 hx
  obtain ⟨y', hy', rfl⟩ := Option.map_eq_some_iff.1 hy
  exact h _ _ hx' hy'

theorem unormal_append {std : Std} (hstd : std.Lawful) {m : Mode} {k k' : Bool} {u r : Str} (hu : UBlock std m u)
    (h1 : dashOk k (kana m u) = true) (h2 : (kana m u).foldl dashNext k = k') (hr : UNormal std m k' r) :
    UNormal std m k (u ++ r) := by
  obtain ⟨c, hc, hc2⟩ := hu.last
  have hk : kana m (u ++ r) = kana m u ++ kana m r := kana_append u r (cut_of_last hc hc2)
  refine ⟨?_, ?_, ?_⟩
  · rw [hk, rom_shifted_append hstd, hu.rom, hr.rom]
    intro x y hx hy
    obtain ⟨x', hx', n1, n2⟩ := hu.lastKana
    rw [hx'] at hx; cases hx
    have := (hr.head y hy).1
    simp [pairOk, n1, n2, this]
  · rw [hk, dashOk_append, h1, h2, hr.dash]; rfl
  · obtain ⟨x, c', hx, hc', n1, n2⟩ := hu.head
    intro y hy
    rw [hk, List.head?_append, hx] at hy
    cases hy
    refine ⟨n1, fun h => ⟨c', ?_, n2 h⟩⟩
    rw [List.head?_append, hc']; rfl

theorem unormal_ascii {std : Std} (hstd : std.Lawful) {m : Mode} {k : Bool} {c : Char} (hc : c.toNat < 128) {r : Str}
    (hk : kana m (c :: r) = c :: kana m r) (hr : UNormal std m false r) : UNormal std m k (c :: r) := by
  have h1 : ∀ d ∈ Spec.afterN, 128 ≤ d.toNat := by decide +kernel
  have h2 : ∀ d ∈ Spec.smallKana, 128 ≤ d.toNat := by decide +kernel
  have h3 : ∀ d ∈ Spec.chain, 128 ≤ d.toNat := by decide +kernel
  have h4 : c ∉ Spec.chain := fun h => by have := h3 c h; omega
  have h5 : dashNext k c = false := by
    unfold dashNext
    rw [if_neg h4, decide_eq_false_iff_not]
    unfold Spec.KatakanaLetter Spec.In
    omega
  refine ⟨?_, ?_, ?_⟩
  · rw [hk]
    have := rom_letter hstd true hc [] (kana m r)
    rw [List.nil_append] at this
    rw [this, hr.rom]
    show rom std true [] ++ _ = _
    rw [rom_nil]; rfl
  · rw [hk]
    have : c ≠ 'ー' := fun e => h4 (by rw [e]; decide)
    simp [dashOk, this, h5, hr.dash]
  · rw [hk]
    intro x hx
    cases hx
    rw [ascii_toHira hc]
    refine ⟨fun h => ?_, fun h => ?_⟩
    · have := h2 _ h; omega
    · have := h1 _ h; omega

theorem n_up : ∀ c ∈ ['n', 'N'], rom modernStd true (shifted (styled [c] ['ん'])) = [c] ∧
    styled [c] ['ん'] = [if c = 'N' then 'ン' else 'ん'] := by decide +kernel

theorem unormal_canonical {std : Std} (hstd : std.Lawful) {m : Mode} (hm : m ≠ .ime) {k : Bool} {r : Str}
    (h : Spec.CanonicalUp (tableOf m) (obsOf m) k r) : UNormal std m k r := by
  induction h with
  | nil =>
    refine ⟨?_, ?_, ?_⟩
    · rw [kana_nil]; exact rom_nil _ _
    · rw [kana_nil]; rfl
    · rw [kana_nil]; simp
  | @hira k u r hu hn _ ih =>
    simp only [List.mem_cons, List.not_mem_nil, or_false, not_or] at hn
    rcases runit_iff.2 hu with h | ⟨c, hc, rfl⟩
    · have hch := List.all_eq_true.1 (outs_up m hm) _ h
      simp only [Bool.or_eq_true, beq_iff_eq] at hch
      rcases hch with (rfl | rfl) | hb
      · exact absurd rfl hn.1
      · exact absurd rfl hn.2.1
      · simp only [Bool.and_eq_true] at hb
        have := List.all_eq_true.1 hb.2 k (by cases k <;> simp)
        simp only [Bool.and_eq_true, Bool.or_eq_true, List.contains_eq_mem, decide_eq_true_iff, beq_iff_eq, List.mem_cons,
          List.not_mem_nil, or_false] at this
        have := this.1.resolve_left (by
          rintro (h | h | h | h)
          · exact hn.2.2.1 h
          · exact hn.2.2.2.1 h
          · exact hn.2.2.2.2.1 h
          · exact hn.2.2.2.2.2 h)
        exact unormal_append hstd (ublock_of_check hstd hb.1.1) this.1 this.2 ih
    · have hk : kana m [c] = [c] := by
        have := kana_of_not_head (m := m) (s := [c]) (by simpa using hc.1) []
        simpa [kana_nil] using this
      have hc2 : c ∉ Spec.chain ∧ ¬ Spec.KatakanaLetter c := by
        refine (copied_hira hc).2.resolve_left fun h => ?_
        simp only [List.mem_cons, List.not_mem_nil, or_false] at h
        rcases h with rfl | rfl
        · exact hn.2.2.2.2.1 rfl
        · exact hn.2.2.2.2.2 rfl
      have hd : dashNext k c = false := by unfold dashNext; rw [if_neg hc2.1]; simp [hc2.2]
      have hne : c ≠ 'ー' := fun e => hc2.1 (by rw [e]; decide)
      refine unormal_append hstd (ublock_copied hstd hc) ?_ ?_ ih
      · rw [hk]; simp [dashOk, hne]
      · rw [hk]; exact hd
  | @kata k u r hu hl hn _ ih =>
    simp only [List.mem_cons, List.not_mem_nil, or_false, not_or] at hn
    rcases runit_iff.2 hu with h | ⟨c, hc, rfl⟩
    · have hch := List.all_eq_true.1 (outs_up m hm) _ h
      simp only [Bool.or_eq_true, beq_iff_eq] at hch
      rcases hch with (rfl | rfl) | hb
      · exact absurd rfl hn.1
      · exact absurd rfl hn.2
      · simp only [Bool.and_eq_true] at hb
        have hl' : (u.all fun c => decide (Spec.AsciiLetter c)) = true := by simpa using hl
        have := List.all_eq_true.1 hb.2 k (by cases k <;> simp)
        simp only [Bool.and_eq_true, Bool.or_eq_true, hl', Bool.not_true, Bool.false_eq_true, false_or, beq_iff_eq] at this hb
        rw [asciiUpper_eq]
        exact unormal_append hstd (ublock_of_check hstd hb.1.2) this.2.1 this.2.2 ih
    · exfalso
      have := hl c (by simp)
      have h1 := hc.1
      rw [headChar_low_iff.2 (Or.inl this)] at h1
      cases h1
  | @mark k c r hc hk _ ih =>
    have := List.all_eq_true.1 (marks_up m hm) c hc
    rw [Bool.and_eq_true] at this
    have h2 := List.all_eq_true.1 this.2 k (by cases k <;> simp)
    simp only [Bool.and_eq_true, Bool.or_eq_true, beq_iff_eq] at h2
    refine unormal_append (u := [c]) hstd (ublock_of_check hstd this.1) (h2.2.resolve_right ?_) h2.1 ih
    rintro ⟨e, ek⟩
    rw [hk e] at ek
    cases ek
  | @n k c r hc hd _ ih =>
    obtain ⟨h1, h2⟩ := n_up c hc
    have hlow : toAsciiLowercase c = 'n' := by
      have : ∀ c ∈ ['n', 'N'], toAsciiLowercase c = 'n' := by decide
      exact this c hc
    have hk := kana_n (m := m) hm hlow (t := r) fun d h h' => hd d h (low_open.1 h')
    have hx : toHira (if c = 'N' then 'ン' else 'ん') = 'ん' := by split <;> decide
    refine ⟨?_, ?_, ?_⟩
    · rw [hk, rom_shifted_append hstd, ih.rom, rom_std hstd modernStd_lawful, h1]
      · rfl
      · rw [h2]
        intro x hx'
        simp only [shifted, List.map_cons, List.map_nil, List.mem_singleton] at hx'
        rw [hx']
        show toHira _ ≠ _
        rw [hx]
        decide
      · rw [h2]
        intro x y hx' hy
        cases hx'
        obtain ⟨a1, a2⟩ := ih.head y hy
        have a3 : toHira y ∉ Spec.afterN := fun hy' => by
          obtain ⟨d, h3, h4⟩ := a2 hy'
          refine hd d h3 (low_open.1 ?_)
          have : ∀ x ∈ ['a', 'i', 'u', 'e', 'o', 'y'], x ∈ ['a', 'i', 'u', 'e', 'o', 'y', '\''] := by decide
          exact this _ h4
        simp [pairOk, hx, a1, a3]
    · rw [hk, h2, List.singleton_append]
      have e : dashNext k (if c = 'N' then 'ン' else 'ん') = (c == 'N') := by
        have : ∀ c ∈ ['n', 'N'], ∀ k, dashNext k (if c = 'N' then 'ン' else 'ん') = (c == 'N') := by decide
        exact this c hc k
      have ne : (if c = 'N' then 'ン' else 'ん') ≠ 'ー' := by split <;> decide
      simp only [dashOk, e, ih.dash, Bool.and_true, Bool.or_eq_true, bne_iff_ne]
      exact Or.inl ne
    · rw [hk, h2]
      intro x hx'
      cases hx'
      rw [hx]
      exact ⟨by decide, fun h => absurd h (by decide)⟩
  | quote _ ih => exact unormal_ascii hstd (by decide) (kana_quote_cons _ _) ih
  | letter hc hs _ ih =>
    have ha := lpiece_ascii (Or.inl hc)
    exact unormal_ascii hstd ha ((stays_iff hm ha _).1 hs) ih

/-! ## what comes back is canonical -/

theorem table_walk : (kanaTable.all fun p => !p.1.contains 'ゔ' && !p.1.isEmpty &&
    (match TO_ROMAJI_NODE_TREE.mwalk p.1 with
      | some n => n.output == p.2
      | none => false)) = true := by decide +kernel

/-- a row of the table is one hit -/
theorem rom_row {std : Std} (hstd : std.Lawful) {p : Str × Str} (hp : p ∈ kanaTable) {w : Str} (hw : w.map toHira = p.1) :
    rom std true (shifted w) = if (∀ c ∈ w, Spec.Katakana c) then p.2.map aUp else p.2 := by
  have h := List.all_eq_true.1 table_walk p hp
  simp only [Bool.and_eq_true, Bool.not_eq_true', List.contains_eq_mem, decide_eq_false_iff_not, List.isEmpty_eq_false_iff] at h
  obtain ⟨⟨h1, h2⟩, h3⟩ := h
  cases hn : TO_ROMAJI_NODE_TREE.mwalk p.1 with
  | none => rw [hn] at h3; cases h3
  | some n =>
    rw [hn] at h3
    have h3 : n.output = p.2 := by simpa using h3
    have hlen : w.length = p.1.length := by rw [← hw, List.length_map]
    have hst : RStops std TO_ROMAJI_NODE_TREE ((shifted w).map Prod.fst) n p.1.length := by
      rw [shifted_fst, hw]
      refine ⟨Nat.le_refl _, ?_, ?_⟩
      · rw [List.take_length, rwalk_eq_mwalk hstd _ h1, hn]
      · rw [List.drop_length]; simp
    rw [rom_hit hst (by intro e; exact h2 (List.length_eq_zero_iff.1 e)), h3]
    have hsl : (shifted w).length = p.1.length := by unfold shifted; rw [List.length_map, hlen]
    rw [← hsl, List.take_length, List.drop_length, rom_nil, List.append_nil, Bool.and_true]
    have : ((shifted w).all Prod.snd = true) ↔ ∀ c ∈ w, Spec.Katakana c := by
      rw [List.all_eq_true]; exact shifted_flags w
    by_cases hc : ∀ c ∈ w, Spec.Katakana c
    · rw [if_pos (this.2 hc), if_pos hc]
    · rw [if_neg (fun h => hc (this.1 h)), if_neg hc]

theorem table_heads : (kanaTable.all fun p => match p.1, p.2 with
    | y :: _, c :: _ => (!Spec.smallKana.contains y || p.1.length == 1) &&
      (!Spec.afterN.contains y || ['a', 'i', 'u', 'e', 'o', 'y'].contains c)
    | _, _ => true) = true := by decide +kernel

theorem small_not_reg (m : Mode) (hm : m ≠ .ime) : (Spec.smallKana.all fun c => !regKey m [c]) = true := by
  cases m with
  | normal => decide +kernel
  | obsolete => decide +kernel
  | ime => exact absurd rfl hm

theorem special_key {y : Char} (h : romajiKey y = false) : y ∉ Spec.smallKana ∧ y ∉ Spec.afterN := by
  have h1 : ∀ x ∈ Spec.smallKana, romajiKey x = true := by decide
  have h2 : ∀ x ∈ Spec.afterN, romajiKey x = true := by decide
  constructor
  · intro hy; rw [h1 y hy] at h; cases h
  · intro hy; rw [h2 y hy] at h; cases h

/-- how the kana and the romaji of pieces begin -/
theorem good_head {m : Mode} (hm : m ≠ .ime) {ps : List (Str × Str)} (h : Good m ps) :
    ∀ y, ((ps.map Prod.fst).flatten).head? = some y → y ∉ Spec.smallKana ∧ (y ∈ Spec.afterN →
      ∃ c, ((ps.map Prod.snd).flatten).head? = some c ∧ c ∈ ['a', 'i', 'u', 'e', 'o', 'y']) := by
  intro y hy
  cases h with
  | nil => cases hy
  | @trip p ps hr ht hb hreg hg =>
    rw [List.map_cons, List.flatten_cons] at hy
    have hne := RPiece.ne_nil (x := 'a') (y := 'a') (Or.inl hr)
    have hy' : p.1.head? = some y := by
      cases hp : p.1 with
      | nil => exact absurd hp hne
      | cons c t => rw [hp] at hy; exact hy
    obtain ⟨c, hc, -⟩ := ht.head
    have hc' : (((p :: ps).map Prod.snd).flatten).head? = some c := by
      rw [List.map_cons, List.flatten_cons, List.head?_append, hc]; rfl
    have plain : romajiKey y = false → y ∉ Spec.smallKana ∧ (y ∈ Spec.afterN →
        ∃ c, (((p :: ps).map Prod.snd).flatten).head? = some c ∧ c ∈ ['a', 'i', 'u', 'e', 'o', 'y']) := fun hk =>
      ⟨(special_key hk).1, fun h => absurd h (special_key hk).2⟩
    rcases hreg with hreg | ⟨d, e, hd⟩
    · rcases hr with h | ⟨d, e, h | h⟩
      · have := List.all_eq_true.1 table_heads p h
        cases h1 : p.1 with
        | nil => exact absurd h1 hne
        | cons y' t =>
          rw [h1] at hy'
          cases hy'
          cases h2 : p.2 with
          | nil => rw [h2] at hc; cases hc
          | cons c' t' =>
            rw [h2] at hc
            cases hc
            rw [h1, h2] at this
            simp only [Bool.and_eq_true, Bool.not_eq_true', Bool.or_eq_true, List.contains_eq_mem, decide_eq_true_iff,
              decide_eq_false_iff_not, beq_iff_eq] at this
            refine ⟨fun hy => ?_, fun h => ⟨_, hc', this.2.resolve_left fun h' => h' h⟩⟩
            have ht : t = [] := by simpa using this.1.resolve_left fun h => h hy
            have := List.all_eq_true.1 (small_not_reg m hm) y hy
            rw [h1, ht] at hreg
            rw [hreg] at this
            cases this
      · rw [e] at hy'
        cases hy'
        exact plain h.1.2.2.1
      · rw [e] at hy'
        cases hy'
        have : ∀ c ∈ latinMarks, romajiKey c = false := by decide
        exact plain (this _ h)
    · rw [e] at hy'
      cases hy'
      exact plain (neutral_copied hd).2.2.1
  | nasal _ _ => cases hy; exact ⟨by decide, fun h => absurd h (by decide)⟩
  | quote _ => cases hy; exact ⟨by decide, fun h => absurd h (by decide)⟩
  | letter hc _ _ =>
    cases hy
    have := special_key (key_ascii (lpiece_ascii (Or.inl hc)))
    exact ⟨this.1, fun h => absurd h this.2⟩

theorem ascii_of_toHira {c d : Char} (hd : d.toNat < 128) (h : toHira c = d) : c = d := by
  rw [char_eq_iff, toHira_toNat] at h
  rw [char_eq_iff]
  repeat' split at h
  all_goals omega

theorem low_upper (l : Str) : low (l.map aUp) = low l := by
  unfold low
  rw [List.map_map]
  apply List.map_congr_left
  intro c _
  apply char_ext
  simp only [Function.comp, toAsciiLowercase_toNat, aUp_toNat]
  repeat' split
  all_goals omega

theorem trip_not_sokuon {m : Mode} {p : Str × Str} (h : RPiece p) (ht : Trip m p) : p.1.getLast? ≠ some 'っ' := by
  intro e
  rcases h with h | ⟨c, rfl, h | h⟩
  · have hc : (kanaTable.all fun p => p.1.getLast? != some 'っ' || p.2 == []) = true := by decide +kernel
    have := List.all_eq_true.1 hc p h
    simp only [Bool.or_eq_true, bne_iff_ne, beq_iff_eq] at this
    obtain ⟨d, hd, hd2⟩ := ht.last
    rw [this.resolve_left (fun h => h e)] at hd
    cases hd
  · cases e
    exact absurd h.1.2.2.1 (by decide)
  · cases e
    exact absurd h (by decide)

/-- rows that are not made of letters: with an apostrophe they do not come back in capitals -/
theorem outs_marks (m : Mode) (hm : m ≠ .ime) : ((outs m).all fun u => (u.all fun c => decide (Spec.AsciiLetter c)) ||
    u.map aUp == u || !((kana m (u.map aUp)).all fun c => decide (Spec.Katakana c))) = true := by
  cases m with
  | normal => decide +kernel
  | obsolete => decide +kernel
  | ime => exact absurd rfl hm

/-- what `good_canonicalUp` needs of the pieces: their kana, in one script or the other, and their romaji -/
theorem good_canonicalUp {std : Std} (hstd : std.Lawful) {m : Mode} (hm : m ≠ .ime) {ps : List (Str × Str)} (h : Good m ps) :
    ∀ (k : Bool) (s : Str), s.map toHira = (ps.map Prod.fst).flatten →
    (∀ l r, ps = l ++ r → romH std (r.map Prod.fst).flatten = (r.map Prod.snd).flatten) →
    kana m (rom std true (shifted s)) = s → dashOk k s = true →
    Spec.CanonicalUp (tableOf m) (obsOf m) k (rom std true (shifted s)) := by
  induction h with
  | nil =>
    intro k s hs _ _ _
    have : s = [] := by simpa using hs
    subst this
    show Spec.CanonicalUp _ _ k (rom std true [])
    rw [rom_nil]
    exact .nil
  | @trip p ps hr ht hb hreg hg ih =>
    intro k s hs hsuf hk hd
    rw [List.map_cons, List.flatten_cons] at hs
    obtain ⟨w, s', rfl, hw, hs'⟩ := List.map_eq_append_iff.1 hs
    have hsuf' : ∀ l r, ps = l ++ r → romH std (r.map Prod.fst).flatten = (r.map Prod.snd).flatten :=
      fun l r e => hsuf (p :: l) r (by rw [e]; rfl)
    have hcut : rom std true (shifted (w ++ s')) = rom std true (shifted w) ++ rom std true (shifted s') := by
      apply rom_shifted_append hstd
      intro x y hx hy
      have h1 : p.1.getLast? = some (toHira x) := by rw [← hw, List.getLast?_map, hx]; rfl
      have h2 : ((ps.map Prod.fst).flatten).head? = some (toHira y) := by rw [← hs', List.head?_map, hy]; rfl
      have n1 : toHira x ≠ 'っ' := fun e => trip_not_sokuon hr ht (by rw [h1, e])
      have n2 : toHira x ≠ 'ん' := fun e => trip_not_nasal hr ht (by rw [h1, e])
      have n3 := (good_head hm hg _ h2).1
      simp [pairOk, n1, n2, n3]
    rw [hcut] at hk ⊢
    -- the romaji of the first piece
    have hU : ∃ U, rom std true (shifted w) = U ∧ low U = low p.2 := by
      refine ⟨_, rfl, ?_⟩
      rcases hr with h | ⟨c, rfl, h | h⟩
      · rw [rom_row hstd h hw]
        split
        · exact low_upper p.2
        · rfl
      · rw [low_rom, shifted_fst, hw]
        unfold romH
        rw [List.map_cons, rom_miss (root_none hstd h.1.2.2.1), List.map_nil, rom_nil]
      · rw [low_rom, shifted_fst, hw]
        have : ∀ c ∈ latinMarks, romajiKey c = false := by decide
        unfold romH
        rw [List.map_cons, rom_miss (root_none hstd (this c h)), List.map_nil, rom_nil]
    obtain ⟨U, hU1, hU2⟩ := hU
    have hcut2 : kana m (U ++ rom std true (shifted s')) = kana m U ++ kana m (rom std true (shifted s')) := by
      obtain ⟨c, hc, hc2⟩ := ht.last
      have h1 : (low U).getLast? = some (toAsciiLowercase c) := by
        rw [hU2, low, List.getLast?_map, hc]; rfl
      obtain ⟨c', hc', e⟩ := low_last_some h1
      exact kana_append _ _ (cut_of_last hc' (by rw [e]; exact hc2))
    rw [hU1, hcut2] at hk
    have hlen : (kana m U).length = w.length := by
      have h1 := congrArg List.length (hlow_kana m U p.2 hU2)
      rw [List.length_map, List.length_map, hb, ← hw, List.length_map] at h1
      exact h1
    obtain ⟨hkU, hks⟩ := List.append_inj hk hlen
    rw [dashOk_append, Bool.and_eq_true] at hd
    rw [hU1]
    have rest : ∀ k', w.foldl dashNext k = k' → Spec.CanonicalUp (tableOf m) (obsOf m) k' (rom std true (shifted s')) := by
      intro k' e
      exact ih k' s' hs' hsuf' hks (by rw [← e]; exact hd.2)
    -- a character that is not converted
    have copied : ∀ c, Copied c → ¬ Spec.AsciiLetter c → p = ([c], [c]) →
        Spec.CanonicalUp (tableOf m) (obsOf m) k (U ++ rom std true (shifted s')) := by
      rintro c hc hl rfl
      have hkc : kana m [c] = [c] := hb
      have hUc : U = [c] := by
        obtain ⟨x, rfl⟩ : ∃ x, w = [x] := by
          cases w with
          | nil => cases hw
          | cons x w =>
            cases w with
            | nil => exact ⟨x, rfl⟩
            | cons _ _ => cases hw
        have hx : toHira x = c := by simpa using hw
        rw [← hU1, shifted_cons, hx, rom_miss (root_none hstd hc.2.2.1)]
        show [c] ++ rom std true [] = [c]
        rw [rom_nil]; rfl
      rw [hUc] at hkU ⊢
      rw [hkc] at hkU
      subst hkU
      rcases (copied_hira hc).2 with h | ⟨h1, h2⟩
      · refine .mark (c := c) ?_ ?_ ?_
        · have : ∀ c ∈ ['ヵ', 'ヶ'], c ∈ ['-', '/', 'ヵ', 'ヶ'] := by decide
          exact this c h
        · rintro rfl; exact absurd h (by decide)
        · apply rest
          have : ∀ c ∈ ['ヵ', 'ヶ'], dashNext k c = k := by cases k <;> decide
          exact this c h
      · refine .hira (u := [c]) (Or.inr ⟨c, copied_neutral hc hl, rfl⟩) ?_ ?_
        · simp only [List.mem_cons, List.not_mem_nil, or_false, not_or, List.cons.injEq, and_true, reduceCtorEq, not_false_iff, true_and]
          refine ⟨?_, ?_, ?_, ?_, ?_⟩
          · rintro rfl; exact hl (by decide)
          · rintro rfl; exact absurd hc.1 (by decide)
          · rintro rfl; exact absurd hc.1 (by decide)
          · rintro rfl; exact h1 (by decide)
          · rintro rfl; exact h1 (by decide)
        · apply rest
          show dashNext k c = false
          unfold dashNext
          rw [if_neg h1]; simp [h2]
    rcases hr with h | ⟨c, e, h | h⟩
    · -- a row of the table
      have hrow : ('ゐ' ∉ p.1 ∧ 'ゑ' ∉ p.1) ∨ (obsOf m = true ∧ 'っ' ∉ p.1) := by
        rcases hreg with hreg | ⟨c, e, hc⟩
        · have := List.all_eq_true.1 (reg_table m hm) p h
          simpa [hreg, List.contains_eq_mem] using this
        · left
          rw [e]
          simp only [List.mem_singleton]
          constructor
          · rintro rfl; exact hc.1 (by decide)
          · rintro rfl; exact hc.1 (by decide)
      have hpiece : Spec.CanonicalPiece (obsOf m) p.2 := Or.inl ⟨p.1, h, hrow⟩
      have hout : p.2 ∈ outs m :=
        List.mem_map.2 ⟨p, List.mem_filter.2 ⟨h, by simpa [List.contains_eq_mem] using hrow⟩, rfl⟩
      have n1 : p.2 ≠ [] := by
        intro e
        obtain ⟨c, hc, -⟩ := ht.head
        rw [e] at hc; cases hc
      have n2 : p.2 ≠ ['n'] := by
        intro e
        obtain ⟨d, hd, hd2⟩ := ht.last
        rw [e] at hd
        cases hd
        exact hd2 (by decide)
      have n3 : p.2 ≠ ['ヵ'] ∧ p.2 ≠ ['ヶ'] := by
        have : (kanaTable.all fun p => p.2 != ['ヵ'] && p.2 != ['ヶ']) = true := by decide +kernel
        have := List.all_eq_true.1 this p h
        simpa using this
      have hch := List.all_eq_true.1 (outs_up m hm) _ hout
      simp only [Bool.or_eq_true, beq_iff_eq, n1, n2, false_or, Bool.and_eq_true] at hch
      have hch2 := List.all_eq_true.1 hch.2 k (by cases k <;> simp)
      simp only [Bool.and_eq_true, Bool.or_eq_true, List.contains_eq_mem, decide_eq_true_iff, beq_iff_eq] at hch2
      -- in lower case
      have lower : U = p.2 → Spec.CanonicalUp (tableOf m) (obsOf m) k (U ++ rom std true (shifted s')) := by
        intro e
        rw [e] at hkU ⊢
        by_cases hmark : p.2 ∈ [['-'], ['/']]
        · obtain ⟨c, hc, e⟩ : ∃ c ∈ ['-', '/'], p.2 = [c] := by
            simp only [List.mem_cons, List.not_mem_nil, or_false] at hmark
            rcases hmark with e | e
            · exact ⟨'-', by decide, e⟩
            · exact ⟨'/', by decide, e⟩
          rw [e] at hkU ⊢
          have hmem : ∀ c ∈ ['-', '/'], c ∈ ['-', '/', 'ヵ', 'ヶ'] := by decide
          have hcm := List.all_eq_true.1 (marks_up m hm) c (hmem c hc)
          rw [Bool.and_eq_true] at hcm
          have h2 := List.all_eq_true.1 hcm.2 k (by cases k <;> simp)
          simp only [Bool.and_eq_true, beq_iff_eq, hkU] at h2
          refine .mark (hmem c hc) ?_ (rest _ h2.1)
          rintro rfl
          have : kana m ['-'] = ['ー'] := by cases m <;> decide +kernel
          rw [this] at hkU
          rw [← hkU] at hd
          simpa [dashOk] using hd.1
        · refine .hira hpiece ?_ (rest _ ?_)
          · simp only [List.mem_cons, List.not_mem_nil, or_false] at hmark ⊢
            rintro (h | h | h | h | h | h)
            · exact n1 h
            · exact n2 h
            · exact hmark (Or.inl h)
            · exact hmark (Or.inr h)
            · exact n3.1 h
            · exact n3.2 h
          · rw [← hkU]
            refine (hch2.1.resolve_left ?_).2
            simp only [List.mem_cons, List.not_mem_nil, or_false] at hmark ⊢
            rintro (h | h | h | h)
            · exact hmark (Or.inl h)
            · exact hmark (Or.inr h)
            · exact n3.1 h
            · exact n3.2 h
      rw [rom_row hstd h hw] at hU1
      by_cases hall : ∀ c ∈ w, Spec.Katakana c
      · rw [if_pos hall] at hU1
        have hmk := List.all_eq_true.1 (outs_marks m hm) _ hout
        simp only [Bool.or_eq_true, beq_iff_eq, Bool.not_eq_true'] at hmk
        rcases hmk with (hl | he) | hno
        · rw [← hU1] at hkU ⊢
          rw [← asciiUpper_eq]
          refine .kata hpiece (by simpa using hl) (by simp [n1, n2]) (rest _ ?_)
          rw [← hkU]
          have := hch2.2
          rw [hl] at this
          simpa using (this.resolve_left (by simp)).2
        · exact lower (by rw [← hU1, he])
        · exfalso
          rw [hU1, hkU] at hno
          have : (w.all fun c => decide (Spec.Katakana c)) = true := by simpa using hall
          rw [this] at hno
          cases hno
      · rw [if_neg hall] at hU1
        exact lower hU1.symm
    · exact copied c h.1 h.2 e
    · exfalso
      subst e
      rcases hreg with hreg | ⟨d, e, hd⟩
      · have := List.all_eq_true.1 (reg_marks m hm) c h
        rw [hreg] at this; cases this
      · cases e
        have : ∀ c ∈ latinMarks, c ∈ ['!', '(', ')', ',', '-', '.', '/', ':', '?', '[', ']', '{', '}', '~', '‘', '’', '“', '”', '\''] := by decide
        exact hd.2.2 (this c h)
  | @nasal ps hdd hg ih =>
    intro k s hs hsuf hk hd
    rw [List.map_cons, List.flatten_cons, List.singleton_append] at hs
    cases s with
    | nil => cases hs
    | cons x s' =>
      injection hs with hx hs'
      have hsuf' : ∀ l r, ps = l ++ r → romH std (r.map Prod.fst).flatten = (r.map Prod.snd).flatten :=
        fun l r e => hsuf ((['ん'], ['n']) :: l) r (by rw [e]; rfl)
      have hlow : low (rom std true (shifted s')) = low ((ps.map Prod.snd).flatten) := by
        rw [low_rom, shifted_fst, hs', hsuf' [] ps rfl]
      have hcut : rom std true (shifted (x :: s')) = rom std true (shifted [x]) ++ rom std true (shifted s') := by
        apply rom_shifted_append hstd true [x] s'
        intro x' y hx' hy
        cases hx'
        have h2 : ((ps.map Prod.fst).flatten).head? = some (toHira y) := by rw [← hs', List.head?_map, hy]; rfl
        obtain ⟨a1, a2⟩ := good_head hm hg _ h2
        have a3 : toHira y ∉ Spec.afterN := fun h => by
          obtain ⟨c, hc, hc2⟩ := a2 h
          have : ∀ c ∈ ['a', 'i', 'u', 'e', 'o', 'y'], toAsciiLowercase c ∈ ['a', 'i', 'u', 'e', 'o', 'y', '\''] := by decide
          exact hdd c hc (this c hc2)
        simp [pairOk, hx, a1, a3]
      have hxx : x = 'ん' ∨ x = 'ン' := by
        rw [char_eq_iff, toHira_toNat] at hx
        simp only [char_eq_iff, Char.reduceToNat] at hx ⊢
        repeat' split at hx
        all_goals omega
      have hc : ∃ c ∈ ['n', 'N'], rom std true (shifted [x]) = [c] := by
        rw [rom_std hstd modernStd_lawful true (shifted [x]) (by
          intro y hy
          simp only [shifted, List.map_cons, List.map_nil, List.mem_singleton] at hy
          rw [hy]
          show toHira x ≠ _
          rw [hx]; decide)]
        rcases hxx with rfl | rfl
        · exact ⟨'n', by decide, by decide +kernel⟩
        · exact ⟨'N', by decide, by decide +kernel⟩
      obtain ⟨c, hc, hc1⟩ := hc
      obtain ⟨-, h2⟩ := n_up c hc
      have hlow2 : toAsciiLowercase c = 'n' := by
        have : ∀ c ∈ ['n', 'N'], toAsciiLowercase c = 'n' := by decide
        exact this c hc
      have hnext : ∀ d, (rom std true (shifted s')).head? = some d → toAsciiLowercase d ∉ ['a', 'i', 'u', 'e', 'o', 'y', '\''] := by
        intro d hd'
        have h1 : (low ((ps.map Prod.snd).flatten)).head? = some (toAsciiLowercase d) := by
          rw [← hlow, low, List.head?_map, hd']; rfl
        rw [low, List.head?_map] at h1
        obtain ⟨d', h3, h4⟩ := Option.map_eq_some_iff.1 h1
        rw [← h4]
        exact hdd d' h3
      rw [hcut, hc1, List.singleton_append] at hk ⊢
      rw [kana_n hm hlow2 hnext, h2, List.singleton_append] at hk
      injection hk with e1 e2
      refine .n hc (fun d h h' => hnext d h (low_open.2 h')) (ih _ s' hs' hsuf' e2 ?_)
      rw [dashOk, Bool.and_eq_true, ← e1] at hd
      have : ∀ c ∈ ['n', 'N'], ∀ k, dashNext k (if c = 'N' then 'ン' else 'ん') = (c == 'N') := by decide
      rw [this c hc k] at hd
      exact hd.2
  | @quote ps hg ih =>
    intro k s hs hsuf hk hd
    rw [List.map_cons, List.flatten_cons, List.singleton_append] at hs
    cases s with
    | nil => cases hs
    | cons x s' =>
      injection hs with hx hs'
      have hx := ascii_of_toHira (by decide) hx
      subst hx
      have e := rom_letter hstd true (c := '\'') (by decide) [] s'
      rw [List.nil_append, show rom std true (shifted []) = [] from rom_nil _ _, List.nil_append] at e
      rw [e] at hk ⊢
      rw [kana_quote_cons] at hk
      injection hk with _ hk
      refine .quote (ih _ s' hs' (fun l r e => hsuf ((['\''], ['\'']) :: l) r (by rw [e]; rfl)) hk ?_)
      rw [dashOk, Bool.and_eq_true] at hd
      exact hd.2
  | @letter c ps hc hkc hg ih =>
    intro k s hs hsuf hk hd
    rw [List.map_cons, List.flatten_cons, List.singleton_append] at hs
    cases s with
    | nil => cases hs
    | cons x s' =>
      injection hs with hx hs'
      have ha := lpiece_ascii (Or.inl hc)
      have hx := ascii_of_toHira ha hx
      subst hx
      have hsuf' : ∀ l r, ps = l ++ r → romH std (r.map Prod.fst).flatten = (r.map Prod.snd).flatten :=
        fun l r e => hsuf (([x], [x]) :: l) r (by rw [e]; rfl)
      have e := rom_letter hstd true ha [] s'
      rw [List.nil_append, show rom std true (shifted []) = [] from rom_nil _ _, List.nil_append] at e
      rw [e] at hk ⊢
      have hst : kana m (x :: rom std true (shifted s')) = x :: kana m (rom std true (shifted s')) := by
        apply letter_low hm ha ha _ hkc
        rw [low_cons, low_cons, low_rom, shifted_fst, hs', hsuf' [] ps rfl]
      rw [hst] at hk
      injection hk with _ hk
      refine .letter hc ((stays_iff hm ha _).2 hst) (ih _ s' hs' hsuf' hk ?_)
      rw [dashOk, Bool.and_eq_true] at hd
      have : dashNext k x = false := by
        unfold dashNext
        have h3 : ∀ d ∈ Spec.chain, 128 ≤ d.toNat := by decide +kernel
        rw [if_neg (fun h => by have := h3 x h; omega), decide_eq_false_iff_not]
        unfold Spec.KatakanaLetter Spec.In
        omega
      rw [← this]
      exact hd.2

/-- **C132** With `upcase_katakana`, what is canonical by the rules comes back from its kana, with every conforming standard
library. -/
theorem C132_canonical {std : Std} (hstd : std.Lawful) (r : Str) (o o' : Options) (hup : o.upcase_katakana = true)
    (hime : o'.imemode = true → o'.use_obsolete_kana = true)
    (h : Spec.CanonicalUp (Spec.tableFor o'.use_obsolete_kana o'.imemode) o'.use_obsolete_kana false r) :
    ∃ k, to_kana_with_opt std r o' = .ok k ∧ to_romaji_with_opt std k o = .ok r := by
  have hm := modeOf_ne_ime hime
  rw [tableFor_eq, ← obsOf_modeOf] at h
  have hn := unormal_canonical hstd hm h
  refine ⟨_, to_kana_eq hstd _ _, ?_⟩
  rw [to_romaji_eq hstd, hup, flagged_shifted, hn.rom]
  intro a b e g hg
  exact dashOk_spec _ [] false hn.dash (by intro g hg; cases hg) a b e g hg

/-- **C132** Exactly which romaji are canonical with `upcase_katakana`, if the standard library makes `to_romaji` write ゔ and
っゔ with a vowel other than u. -/
theorem C132_exact {std : Std} (hstd : std.Lawful) (r : Str) (o o' : Options) (hup : o.upcase_katakana = true)
    (hime : o'.imemode = true → o'.use_obsolete_kana = true) {x y : Char}
    (hx : to_romaji_with_opt std "ゔ".toList o = .ok ['v', x]) (hxu : x ≠ 'u')
    (hy : to_romaji_with_opt std "っゔ".toList o = .ok ['v', 'v', y]) (hyu : y ≠ 'u') :
    (∃ k, to_kana_with_opt std r o' = .ok k ∧ to_romaji_with_opt std k o = .ok r) ↔
    Spec.CanonicalUp (Spec.tableFor o'.use_obsolete_kana o'.imemode) o'.use_obsolete_kana false r := by
  refine ⟨?_, C132_canonical hstd r o o' hup hime⟩
  have hm := modeOf_ne_ime hime
  rintro ⟨s, h2, h1⟩
  have hd := survives_dash hstd h1 h2
  rw [to_romaji_eq hstd, hup, flagged_shifted hd, Except.ok.injEq] at h1
  subst h1
  rw [to_kana_eq hstd, Except.ok.injEq] at h2
  obtain ⟨ps, e0, hg, hsuf⟩ := good_up hstd hm o hx hxu hy hyu hd h2
  have := good_canonicalUp hstd hm hg false s e0.symm hsuf h2
    (dashOk_of s [] false (fun a b e g hg => hd a b e g hg) (by intro h; cases h))
  rwa [obsOf_modeOf, ← tableFor_eq] at this

/-- **C132** the standard libraries of Rust 1.52 and later are such libraries -/
theorem C132_rust (r : Str) (o o' : Options) (hup : o.upcase_katakana = true)
    (hime : o'.imemode = true → o'.use_obsolete_kana = true) :
    ∀ std ∈ [rustStd, legacyStd],
    ((∃ k, to_kana_with_opt std r o' = .ok k ∧ to_romaji_with_opt std k o = .ok r) ↔
    Spec.CanonicalUp (Spec.tableFor o'.use_obsolete_kana o'.imemode) o'.use_obsolete_kana false r) := by
  obtain ⟨h1, h2, h3, h4, -⟩ := C101_search { o with upcase_katakana := false } rfl
  have hf : ∀ (std : Std), std.Lawful → ∀ (s r : Str), (∀ c ∈ s, ¬ Spec.Katakana c) →
      to_romaji_with_opt std s { o with upcase_katakana := false } = .ok r → to_romaji_with_opt std s o = .ok r := by
    intro std hstd s r hs h
    rw [← C31_no_katakana hstd _ o _ hs] at h
    exact h
  intro std h
  simp only [List.mem_cons, List.not_mem_nil, or_false] at h
  rcases h with rfl | rfl
  · exact C132_exact rustStd_lawful r o o' hup hime (hf _ rustStd_lawful _ _ (by decide) h1) (by decide)
      (hf _ rustStd_lawful _ _ (by decide) h2) (by decide)
  · exact C132_exact legacyStd_lawful r o o' hup hime (hf _ legacyStd_lawful _ _ (by decide) h3) (by decide)
      (hf _ legacyStd_lawful _ _ (by decide) h4) (by decide)

/-- texts in both cases that are canonical and texts that are not: a mixed syllable, an apostrophe after N, a dash after
capitals -/
example : (∀ r ∈ ["KAna".toList, "T-shatsu".toList, "NIHONgo".toList, "n'ya-, KKYA".toList, "KA'-".toList],
      (to_kana rustStd r >>= fun k => to_romaji_with_opt rustStd k { upcase_katakana := true }) = .ok r) ∧
    (∀ r ∈ ["Ka".toList, "N'A".toList, "RA-MEN".toList, "KAヵ-".toList, "TI".toList],
      (to_kana rustStd r >>= fun k => to_romaji_with_opt rustStd k { upcase_katakana := true }) ≠ .ok r) := by
  decide +kernel

/-- the rules for one of them -/
example : Spec.CanonicalUp (Spec.tableFor false false) false false "KAN-".toList ↔ False := by
  refine ⟨fun h => ?_, False.elim⟩
  have := (C132_rust "KAN-".toList { upcase_katakana := true } {} rfl (by simp) rustStd (by simp)).2 h
  revert this
  rw [to_kana_eq rustStd_lawful]
  rintro ⟨k, h1, h2⟩
  cases h1
  revert h2
  decide +kernel

example : Spec.CanonicalUp (Spec.tableFor false false) false false "KANka-".toList :=
  .kata (u := "ka".toList) (Or.inl ⟨"か".toList, by decide +kernel, Or.inl (by decide)⟩) (by decide) (by decide)
    (.n (by decide) (by decide) (.hira (u := "ka".toList) (Or.inl ⟨"か".toList, by decide +kernel, Or.inl (by decide)⟩)
      (by decide) (.mark (by decide) (by simp) .nil)))

end WanaKana
