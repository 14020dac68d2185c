import Verif.Props.RoundTripVu
import Verif.Props.KanaResult
import Verif.Props.RoundTrip4
/-! # C111: reading romaji back with to_hiragana and to_katakana -/

namespace WanaKana
open KNode RNode
open Spec (toHira kanaTable)

theorem unconverted_fixed {c : Char} (h : ¬ Spec.Convertible c) : toHira c = c := by
  apply toHira_other
  cases ha : is_char_katakana c with
  | false => exact Or.inr (Or.inr rfl)
  | true =>
    have hK := specKatakana_iff.2 (is_char_katakana_iff.1 ha)
    by_cases hm : c ∈ ['ヵ', 'ヶ', 'ゕ', 'ゖ']
    · have : ∀ c ∈ ['ヵ', 'ヶ', 'ゕ', 'ゖ'], keeps c = true ∨ isDash c = true ∨ is_char_katakana c = false := by decide
      have := this c hm
      rw [ha] at this
      exact this
    · exact absurd (Or.inl ⟨Or.inr hK, hm⟩) h

theorem unconverted_k2h {std : Std} {dest : Bool} {r : Str} (h : ∀ c ∈ r, ¬ Spec.Convertible c) : k2hP std dest none r = r :=
  k2hP_id std dest r fun d hd => fixed_other (unconverted_fixed (h d hd))

theorem head_punct (r : Str) : ((r.head?).map is_char_english_punctuation).getD false = true ↔
    ∃ c, r.head? = some c ∧ Spec.EnglishPunct c := by
  cases r.head? with
  | none => simp
  | some c => simp [is_char_english_punctuation_iff]

/-- **C111** `to_hiragana` on the result of `to_romaji` -/
theorem C111_hiragana {std : Std} (hstd : std.Lawful) (s r : Str) (o o' : Options)
    (h : to_romaji_with_opt std s o = .ok r) :
    ((o'.pass_romaji = false ∧ (is_romaji r = true ∨ is_mixed r = true ∨ ∃ c, r.head? = some c ∧ Spec.EnglishPunct c)) →
      to_hiragana_with_opt std r o' = to_kana_with_opt std (std.toLowercase r) o') ∧
    (¬ (o'.pass_romaji = false ∧ (is_romaji r = true ∨ is_mixed r = true ∨ ∃ c, r.head? = some c ∧ Spec.EnglishPunct c)) →
      to_hiragana_with_opt std r o' = .ok r) := by
  have hr := C35_all_converted hstd s r o h
  rw [to_hiragana_eq hstd, to_kana_eq hstd, ← head_punct]
  unfold hiraP
  rw [unconverted_k2h hr]
  cases hp : o'.pass_romaji <;> cases hm : is_mixed r <;> cases hi : is_romaji r <;>
    cases hh : ((r.head?).map is_char_english_punctuation).getD false <;> simp

/-- the two ways of `to_katakana` -/
theorem katakana_ways {std : Std} (hstd : std.Lawful) (r : Str) (o' : Options) :
    ((o'.pass_romaji = false ∧ (is_romaji r = true ∨ is_mixed r = true)) →
      to_katakana_with_opt std r o' = (to_kana_with_opt std (std.toLowercase r) o' >>= hiragana_to_katakana)) ∧
    (¬ (o'.pass_romaji = false ∧ (is_romaji r = true ∨ is_mixed r = true)) →
      to_katakana_with_opt std r o' = hiragana_to_katakana r) := by
  rw [to_katakana_eq hstd, to_kana_eq hstd, ok_bind, hiragana_to_katakana_eq, hiragana_to_katakana_eq]
  unfold kataP
  cases hp : o'.pass_romaji <;> cases hm : is_mixed r <;> cases hi : is_romaji r <;> simp

/-! ## the text comes back -/

theorem settled_toHira {std : Std} (hstd : std.Lawful) {c : Char} (h : Settled std c) : Settled std (toHira c) := by
  by_cases e : toHira c = c
  · rw [e]; exact h
  · apply settled_uncased hstd
    unfold Uncased
    rw [char_eq_iff, toHira_toNat] at e
    rw [toHira_toNat]
    repeat' split at e
    all_goals repeat' split
    all_goals omega

theorem settled_lower {std : Std} (hstd : std.Lawful) {c : Char} (h : c.toNat < 128) (h2 : ¬ Spec.AsciiUpper c) :
    Settled std c := by
  refine ⟨?_, fun e => ?_⟩
  · rw [hstd.lowerChar_ascii c h]
    congr 1
    apply char_ext
    rw [toAsciiLowercase_toNat]
    unfold Spec.AsciiUpper Spec.In at h2
    rw [if_neg (by omega)]
  · rw [e] at h
    exact absurd h (by decide)

theorem pieces_settled {std : Std} (hstd : std.Lawful) {x y : Char} (hx : x ∈ "aiueo".toList) (hy : y ∈ "aiueo".toList)
    {ps : List (Str × Str)} (h : ∀ p ∈ ps, RPiece p ∨ VPiece x y p)
    (hk : ∀ c ∈ (ps.map Prod.fst).flatten, Settled std c) : ∀ c ∈ (ps.map Prod.snd).flatten, Settled std c := by
  intro c hc
  have hup := (pieces_charsV hx hy h c hc).1
  obtain ⟨u, hu, hcu⟩ := List.mem_flatten.1 hc
  obtain ⟨p, hp, rfl⟩ := List.mem_map.1 hu
  rcases h p hp with (h | ⟨d, rfl, _⟩) | h
  · have ht : (kanaTable.all fun x => x.2.all fun c => decide (c.toNat < 128 ∨ (0x2010 ≤ c.toNat ∧ c.toNat ≤ 0x2027) ∨
        (0x3000 ≤ c.toNat ∧ c.toNat ≤ 0x9FFF) ∨ (0xFF01 ≤ c.toNat ∧ c.toNat ≤ 0xFF20) ∨
        (0xFF3B ≤ c.toNat ∧ c.toNat ≤ 0xFF40) ∨ (0xFF5B ≤ c.toNat ∧ c.toNat ≤ 0xFFDF))) = true := by decide +kernel
    rcases of_decide_eq_true (List.all_eq_true.1 (List.all_eq_true.1 ht p h) c hcu) with h | h
    · exact settled_lower hstd h hup
    · exact settled_uncased hstd h
  · exact hk c (List.mem_flatten.2 ⟨_, List.mem_map_of_mem hp, hcu⟩)
  · apply settled_lower hstd _ hup
    have ha : ∀ x ∈ "aiueo".toList, x.toNat < 128 := by decide
    rcases h with rfl | rfl <;> simp only [List.mem_cons, List.not_mem_nil, or_false] at hcu
    · rcases hcu with rfl | rfl
      · decide
      · exact ha _ hx
    · rcases hcu with rfl | rfl | rfl
      · decide
      · decide
      · exact ha _ hy

theorem k2hP_settled {std : Std} (hstd : std.Lawful) {s : Str} (h : ∀ c ∈ s, Settled std c) :
    ∀ c ∈ k2hP std true none s, Settled std c := by
  intro d hd
  have hm2 := k2hP_hiraFromV hstd true s []
  rw [show k2hPrev none [] = none from rfl] at hm2
  rw [hm2] at hd
  rcases hiraFromV_mem _ _ _ _ _ hd with ⟨c, hc, rfl⟩ | hd
  · exact settled_toHira hstd (h c hc)
  · apply settled_uncased hstd
    have : ∀ d ∈ ['あ', 'い', 'う', 'え', 'お', 'ー'], Uncased d := by unfold Uncased; decide
    exact this d hd

/-- the romaji of a text in lower case are in lower case -/
theorem romaji_lower {std : Std} (hstd : std.Lawful) {s r : Str} {o : Options} (hu : o.upcase_katakana = false) {x y : Char}
    (hx : to_romaji_with_opt std "ゔ".toList o = .ok ['v', x]) (hxu : x ≠ 'u')
    (hy : to_romaji_with_opt std "っゔ".toList o = .ok ['v', 'v', y]) (hyu : y ≠ 'u')
    (hs : ∀ c ∈ s, ¬ Spec.AsciiLetter c ∧ c ≠ '\'' ∧ std.lowerChar c = [c]) (hr : to_romaji_with_opt std s o = .ok r) :
    std.toLowercase r = r := by
  obtain ⟨hxv, hyv, ps, e0, e1, hps⟩ := romaji_pieces hstd s o hu hx hxu hy hyu fun c hc => ⟨(hs c hc).1, (hs c hc).2.1⟩
  rw [e1] at hr
  cases hr
  apply toLowercase_id
  apply pieces_settled hstd hxv hyv hps
  rw [← e0]
  apply k2hP_settled hstd
  intro c hc
  have h := (hs c hc).2.2
  exact ⟨h, (hstd.lowerChar_idem c c (by rw [h]; exact List.mem_singleton_self c)).2⟩

/-- **C111** Exactly which texts `to_hiragana` brings back from their romaji. -/
theorem C111_hiragana_exact {std : Std} (hstd : std.Lawful) (s r : Str) (o o' : Options) (hu : o.upcase_katakana = false)
    (hime : o'.imemode = true → o'.use_obsolete_kana = true) {x y : Char}
    (hx : to_romaji_with_opt std "ゔ".toList o = .ok ['v', x]) (hxu : x ≠ 'u')
    (hy : to_romaji_with_opt std "っゔ".toList o = .ok ['v', 'v', y]) (hyu : y ≠ 'u')
    (hs : ∀ c ∈ s, ¬ Spec.AsciiLetter c ∧ c ≠ '\'' ∧ std.lowerChar c = [c]) (hr : to_romaji_with_opt std s o = .ok r) :
    to_hiragana_with_opt std r o' = .ok s ↔
      ((o'.pass_romaji = false ∧ (is_romaji r = true ∨ is_mixed r = true ∨ ∃ c, r.head? = some c ∧ Spec.EnglishPunct c)) ∧
        ∃ ws : List Str, s = ws.flatten ∧ ∀ w ∈ ws, Spec.RegularPiece false o'.use_obsolete_kana w) ∨
      (¬ (o'.pass_romaji = false ∧ (is_romaji r = true ∨ is_mixed r = true ∨ ∃ c, r.head? = some c ∧ Spec.EnglishPunct c)) ∧
        ∀ c ∈ s, ¬ Spec.Convertible c) := by
  obtain ⟨h1, h2⟩ := C111_hiragana hstd s r o o' hr
  by_cases hc : o'.pass_romaji = false ∧ (is_romaji r = true ∨ is_mixed r = true ∨ ∃ c, r.head? = some c ∧ Spec.EnglishPunct c)
  · rw [h1 hc, romaji_lower hstd hu hx hxu hy hyu hs hr]
    have := C110_exact hstd s o o' hu hime hx hxu hy hyu fun c hc => ⟨(hs c hc).1, (hs c hc).2.1⟩
    constructor
    · intro h
      exact Or.inl ⟨hc, this.1 ⟨r, hr, h⟩⟩
    · rintro (⟨_, h⟩ | ⟨h, _⟩)
      · obtain ⟨r', h3, h4⟩ := this.2 h
        rw [hr] at h3
        cases h3
        exact h4
      · exact absurd hc h
  · rw [h2 hc]
    constructor
    · intro h
      cases h
      exact Or.inr ⟨hc, C35_all_converted hstd _ _ o hr⟩
    · rintro (⟨h, _⟩ | ⟨_, h⟩)
      · exact absurd h hc
      · rw [C28_unchanged hstd s o h] at hr
        exact hr.symm

/-! ## to_katakana -/

theorem k2hP_single (std : Std) (c : Char) : k2hP std true none [c] = [toHira c] := by
  have h := k2hP_head_hira std [c]
  have hl : (k2hP std true none [c]).length = 1 := by
    rw [k2hP_cons]
    split
    · simp [k2hP]
    · split
      · simp [k2hP]
      · split <;> simp [k2hP]
  obtain ⟨d, e⟩ := List.length_eq_one_iff.1 hl
  rw [e] at h ⊢
  simpa using h

/-- without a long vowel mark after a katakana letter the hiragana form is the shift of every character -/
theorem k2hP_unprolonged {std : Std} {s : Str}
    (h : ∀ a b g, s = a ++ 'ー' :: b → Spec.governing a = some g → ¬ Spec.KatakanaLetter g) :
    k2hP std true none s = s.map toHira := by
  have hp := k2hP_parts std (s.map fun c => [c]) [] (fun m p r' e => by
    rintro ⟨g, hg, hk, hm⟩
    obtain ⟨a, q, rfl, rfl, e2⟩ := List.map_eq_append_iff.1 e
    obtain ⟨c, b, rfl, rfl, rfl⟩ := List.map_eq_cons_iff.1 e2
    have hc : c = 'ー' := by
      have := (List.takeWhile_sublist _).subset hm
      exact (List.mem_singleton.1 this).symm
    subst hc
    have hf : ∀ l : Str, (l.map fun c => [c]).flatten = l := by
      intro l; induction l with
      | nil => rfl
      | cons c l ih => simp [ih]
    rw [List.flatten_nil, List.nil_append, hf] at hg
    exact h a b g rfl hg hk)
  have hf : ∀ l : Str, (l.map fun c => [c]).flatten = l := by
    intro l; induction l with
    | nil => rfl
    | cons c l ih => simp [ih]
  rw [List.flatten_nil, List.nil_append, hf, show k2hP std true none [] = [] from rfl, List.nil_append, List.map_map] at hp
  rw [hp]
  clear hp h hf
  induction s with
  | nil => rfl
  | cons c s ih => rw [List.map_cons, List.flatten_cons, ih]; simp [k2hP_single]

theorem marks_le {std : Std} (hstd : std.Lawful) (s : Str) : (k2hP std true none s).countP isMark ≤ s.countP isMark := by
  have h := marks_pieces hstd (s.map fun c => [c]) prevOk_none
  have hf : ∀ l : Str, (l.map fun c => [c]).flatten = l := by
    intro l; induction l with
    | nil => rfl
    | cons c l ih => simp [ih]
  have hg : ∀ l : Str, ((l.map fun c => [c]).flatMap (k2hP std true none)).countP isMark = l.countP isMark := by
    intro l
    induction l with
    | nil => rfl
    | cons c l ih =>
      rw [List.map_cons, List.flatMap_cons, List.countP_append, ih, k2hP_single, List.countP_cons, List.countP_nil, List.countP_cons]
      have : isMark (toHira c) = isMark c := by
        unfold isMark
        rw [Bool.eq_iff_iff]
        simp only [Bool.or_eq_true, beq_iff_eq, char_eq_iff, toHira_toNat, Char.reduceToNat]
        repeat' split
        all_goals omega
      rw [this]; omega
  rw [hf, hg] at h
  exact h

/-- `to_kana` makes a long vowel mark only of a dash -/
theorem kana_marks (m : Mode) (s : Str) : (kana m s).countP isMark ≤ s.countP isMark := by
  induction s using list_strong with
  | _ s ih =>
    cases s with
    | nil => rw [kana_nil]; exact Nat.le_refl _
    | cons c s =>
      obtain ⟨n, k, hst⟩ := KNode.exists_stops (tree m) (c :: s)
      cases ho : n.output with
      | none =>
        rw [kana_miss hst ho, List.countP_cons, List.countP_cons]
        have := ih s (by simp)
        omega
      | some out =>
        have hk := stops_pos hst ho
        have hc : (allModes fun _ x => x.2.output.all fun o => decide (o.countP isMark ≤ x.1.countP isMark)) = true := by
          decide +kernel
        have h1 := allModes_walk hc hst.walk
        rw [ho] at h1
        simp only [Option.all_some, decide_eq_true_iff] at h1
        have h2 : (low ((c :: s).take k)).countP isMark = ((c :: s).take k).countP isMark := by
          unfold low
          rw [List.countP_map]
          apply List.countP_congr
          intro d _
          unfold isMark
          simp only [Function.comp, Bool.or_eq_true, beq_iff_eq, char_eq_iff, toAsciiLowercase_toNat, Char.reduceToNat]
          split <;> omega
        have h3 : (styled ((c :: s).take k) out).countP isMark = out.countP isMark := by
          unfold styled
          split
          · rw [List.countP_map]
            apply List.countP_congr
            intro d _
            unfold isMark
            simp only [Function.comp, Bool.or_eq_true, beq_iff_eq, char_eq_iff, h2kP_toNat, Char.reduceToNat]
            split <;> omega
          · rfl
        have h4 := ih ((c :: s).drop k) (by simp [List.length_drop]; omega)
        rw [kana_hit hst ho, List.countP_append, h3]
        have h5 : (c :: s).countP isMark = ((c :: s).take k).countP isMark + ((c :: s).drop k).countP isMark := by
          rw [← List.countP_append, List.take_append_drop]
        omega

/-- ゕ and ゖ come from the text only -/
theorem kana_small_ka {m : Mode} {r : Str} {d : Char} (hd : d ∈ ['ゕ', 'ゖ']) (h : d ∈ kana m r) : d ∈ r := by
  rcases mem_kana_cases _ _ _ h with h | ⟨s1, x, s2, n, out, _, _, hw, ho, hm⟩
  · exact h
  · exfalso
    have hc : (allModes fun _ x => x.2.output.all fun o => o.all fun c => decide (c ≠ 'ゕ' ∧ c ≠ 'ゖ')) = true := by
      decide +kernel
    have h1 := allModes_walk hc hw
    rw [ho] at h1
    simp only [Option.all_some, List.all_eq_true, decide_eq_true_iff] at h1
    unfold styled at hm
    simp only [List.mem_cons, List.not_mem_nil, or_false] at hd
    split at hm
    · obtain ⟨e, _, he⟩ := List.mem_map.1 hm
      have := congrArg Char.toNat he
      rw [h2kP_toNat] at this
      rcases hd with rfl | rfl <;> simp only [Char.reduceToNat] at this <;> split at this <;> omega
    · rcases hd with rfl | rfl
      · exact (h1 _ hm).1 rfl
      · exact (h1 _ hm).2 rfl

/-- the texts whose shift to hiragana can be undone -/
theorem h2kP_toHira {c : Char} : h2kP (toHira c) = c ↔ ¬ Spec.HiraganaLetter c ∧ c ∉ ['ヷ', 'ヸ', 'ヹ', 'ヺ'] := by
  simp only [char_eq_iff, h2kP_toNat, toHira_toNat, List.mem_cons, List.not_mem_nil, or_false, Char.reduceToNat,
    Spec.HiraganaLetter, Spec.In]
  repeat' split
  all_goals omega

/-- **C111** Exactly which texts `to_katakana` brings back from their romaji. -/
theorem C111_katakana_exact {std : Std} (hstd : std.Lawful) (s r : Str) (o o' : Options) (hu : o.upcase_katakana = false)
    (hime : o'.imemode = true → o'.use_obsolete_kana = true) {x y : Char}
    (hx : to_romaji_with_opt std "ゔ".toList o = .ok ['v', x]) (hxu : x ≠ 'u')
    (hy : to_romaji_with_opt std "っゔ".toList o = .ok ['v', 'v', y]) (hyu : y ≠ 'u')
    (hs : ∀ c ∈ s, ¬ Spec.AsciiLetter c ∧ c ≠ '\'' ∧ std.lowerChar c = [c]) (hr : to_romaji_with_opt std s o = .ok r) :
    to_katakana_with_opt std r o' = .ok s ↔
      (∀ c ∈ s, ¬ Spec.HiraganaLetter c) ∧
      (((o'.pass_romaji = false ∧ (is_romaji r = true ∨ is_mixed r = true)) ∧
        (∀ c ∈ s, c ∉ ['ヷ', 'ヸ', 'ヹ', 'ヺ']) ∧
        (∀ a b g, s = a ++ 'ー' :: b → Spec.governing a = some g → ¬ Spec.KatakanaLetter g) ∧
        ∃ ws : List Str, s.map toHira = ws.flatten ∧ ∀ w ∈ ws, Spec.RegularPiece false o'.use_obsolete_kana w) ∨
      (¬ (o'.pass_romaji = false ∧ (is_romaji r = true ∨ is_mixed r = true)) ∧ ∀ c ∈ s, ¬ Spec.Convertible c)) := by
  have hunc := C35_all_converted hstd _ _ o hr
  have hrom : ∀ t, to_romaji_with_opt std t o = .ok (romH std (k2hP std true none t)) := by
    intro t
    rw [to_romaji_eq hstd, hu, rom_romH, flagged_fst hstd]
  have hnohira : ∀ t : Str, ∀ c ∈ t.map h2kP, ¬ Spec.HiraganaLetter c := by
    intro t c hc
    obtain ⟨d, _, rfl⟩ := List.mem_map.1 hc
    unfold Spec.HiraganaLetter Spec.In
    rw [h2kP_toNat]
    split <;> omega
  obtain ⟨h1, h2⟩ := katakana_ways hstd r o'
  by_cases hc : o'.pass_romaji = false ∧ (is_romaji r = true ∨ is_mixed r = true)
  · rw [h1 hc, romaji_lower hstd hu hx hxu hy hyu hs hr, to_kana_eq hstd, ok_bind, hiragana_to_katakana_eq]
    -- the trip of the hiragana form
    have htrip : ∀ h : Str, h = s.map toHira → k2hP std true none s = h →
        (kana (modeOf o') r = h ↔ ∃ ws : List Str, h = ws.flatten ∧ ∀ w ∈ ws, Spec.RegularPiece false o'.use_obsolete_kana w) := by
      intro h hh hk
      have hself : k2hP std true none h = h := by
        rw [hh]
        apply k2hP_id
        intro d hd
        obtain ⟨c, _, rfl⟩ := List.mem_map.1 hd
        exact fixed_other (toHira_idem c)
      have hrh : to_romaji_with_opt std h o = .ok r := by
        rw [hrom, hself, ← hk, ← hrom, hr]
      have hsh : ∀ c ∈ h, ¬ Spec.AsciiLetter c ∧ c ≠ '\'' := by
        intro d hd
        rw [hh] at hd
        obtain ⟨c, hc, rfl⟩ := List.mem_map.1 hd
        obtain ⟨p1, p2, _⟩ := hs c hc
        constructor
        · unfold Spec.AsciiLetter Spec.In at *
          rw [toHira_toNat]
          repeat' split
          all_goals omega
        · intro h
          apply p2
          rw [char_eq_iff, toHira_toNat] at h
          apply char_ext
          simp only [Char.reduceToNat] at *
          repeat' split at h
          all_goals omega
      have := C110_exact hstd h o o' hu hime hx hxu hy hyu hsh
      rw [← this]
      constructor
      · intro h; exact ⟨r, hrh, by rw [to_kana_eq hstd, h]⟩
      · rintro ⟨r', e1, e2⟩
        rw [hrh] at e1; cases e1
        rw [to_kana_eq hstd] at e2
        injection e2
    constructor
    · intro h
      have h : (kana (modeOf o') r).map h2kP = s := by injection h
      have hlet : ∀ c ∈ s, ¬ Spec.HiraganaLetter c := by rw [← h]; exact hnohira _
      -- no katakana letter in the kana
      obtain ⟨hxv, hyv, ps, e0, e1, hps⟩ := romaji_pieces hstd s o hu hx hxu hy hyu fun c hc => ⟨(hs c hc).1, (hs c hc).2.1⟩
      rw [hr] at e1
      cases e1
      obtain ⟨r', hr', hk⟩ := C14_lower hstd _ o' fun c hc => (pieces_charsV hxv hyv hps c hc).1
      rw [to_kana_eq hstd] at hr'
      cases hr'
      have hback : ∀ d ∈ kana (modeOf o') (ps.map Prod.snd).flatten, toHira (h2kP d) = d := by
        intro d hd
        by_cases hK : Spec.Katakana d
        · have hf : toHira d = d := by
            rcases hk d hd hK with h | h
            · exact unconverted_fixed (hunc d h)
            · have : ∀ c ∈ ['ヵ', 'ヶ', '・', 'ー'], toHira c = c := by decide
              exact this d h
          have : h2kP d = d := by
            apply char_ext
            rw [h2kP_toNat, if_neg]
            rcases hK with hK | hK | hK
            · unfold Spec.KatakanaLetter Spec.In at hK
              omega
            · rw [show d = '・' from hK]; decide
            · rw [show d = 'ー' from hK]; decide
          rw [this, hf]
        · by_cases hka : d ∈ ['ゕ', 'ゖ']
          · exfalso
            have hdr := kana_small_ka hka hd
            -- in the text
            have hds : d ∈ s := by
              obtain ⟨u, hu', hdu⟩ := List.mem_flatten.1 hdr
              obtain ⟨p, hp, rfl⟩ := List.mem_map.1 hu'
              have hz : d ∈ k2hP std true none s := by
                rw [e0]
                rcases hps p hp with (h | ⟨c, rfl, _⟩) | h
                · exfalso
                  have ht : (kanaTable.all fun x => x.2.all fun c => decide (c ∉ ['ゕ', 'ゖ'])) = true := by decide +kernel
                  exact of_decide_eq_true (List.all_eq_true.1 (List.all_eq_true.1 ht p h) d hdu) hka
                · exact List.mem_flatten.2 ⟨_, List.mem_map_of_mem hp, hdu⟩
                · exfalso
                  have ha : ∀ x ∈ "aiueo".toList, x ∉ ['ゕ', 'ゖ'] := by decide
                  rcases h with rfl | rfl
                  · simp only [List.mem_cons, List.not_mem_nil, or_false] at hdu
                    rcases hdu with rfl | rfl
                    · exact absurd hka (by decide)
                    · exact ha _ hxv hka
                  · simp only [List.mem_cons, List.not_mem_nil, or_false] at hdu
                    rcases hdu with rfl | rfl | rfl
                    · exact absurd hka (by decide)
                    · exact absurd hka (by decide)
                    · exact ha _ hyv hka
              have hm2 := k2hP_hiraFromV hstd true s []
              rw [show k2hPrev none [] = none from rfl] at hm2
              rw [hm2] at hz
              rcases hiraFromV_mem _ _ _ _ _ hz with ⟨c, hc, e⟩ | hv
              · have : c = d := by
                  rw [char_eq_iff, toHira_toNat] at e
                  apply char_ext
                  simp only [List.mem_cons, List.not_mem_nil, or_false, char_eq_iff, Char.reduceToNat] at hka
                  repeat' split at e
                  all_goals omega
                rw [← this]; exact hc
              · exfalso
                have : ∀ v ∈ ['あ', 'い', 'う', 'え', 'お', 'ー'], v ∉ ['ゕ', 'ゖ'] := by decide
                exact this d hv hka
            apply hlet d hds
            have : ∀ v ∈ ['ゕ', 'ゖ'], Spec.HiraganaLetter v := by decide
            exact this d hka
          · apply char_ext
            rw [toHira_toNat, h2kP_toNat]
            simp only [List.mem_cons, List.not_mem_nil, or_false, char_eq_iff, Char.reduceToNat] at hka
            have hK : ¬ Spec.KatakanaLetter d := fun h => hK (Or.inl h)
            unfold Spec.KatakanaLetter Spec.In at hK
            repeat' split
            all_goals omega
      have hms : s.map toHira = kana (modeOf o') (ps.map Prod.snd).flatten := by
        rw [← h, List.map_map]
        conv => rhs; rw [← List.map_id (kana (modeOf o') (ps.map Prod.snd).flatten)]
        exact List.map_congr_left hback
      have hgov : ∀ a b g, s = a ++ 'ー' :: b → Spec.governing a = some g → ¬ Spec.KatakanaLetter g := by
        intro a b g e hg hgk
        have hlt := marks_pieces_lt hstd [a] [] ('ー' :: b)
          ⟨g, by simpa using hg, hgk, by
            rw [List.takeWhile_cons_of_pos (by decide)]
            exact List.mem_cons_self⟩
        rw [show ([a] ++ ['ー' :: b]).flatten = s by rw [e]; simp] at hlt
        simp only [List.singleton_append, List.flatMap_cons, List.flatMap_nil, List.append_nil, List.countP_append] at hlt
        have l1 := marks_le hstd a
        have l2 := marks_le hstd ('ー' :: b)
        have l3 : s.countP isMark = a.countP isMark + ('ー' :: b).countP isMark := by rw [e, List.countP_append]
        have l4 := kana_marks (modeOf o') (ps.map Prod.snd).flatten
        have l5 : s.countP isMark = (kana (modeOf o') (ps.map Prod.snd).flatten).countP isMark := by
          rw [← h, List.countP_map]
          apply List.countP_congr
          intro d _
          unfold isMark
          simp only [Function.comp, Bool.or_eq_true, beq_iff_eq, char_eq_iff, h2kP_toNat, Char.reduceToNat]
          split <;> omega
        have l6 : ((ps.map Prod.snd).flatten).countP isMark = ((ps.map Prod.snd).flatten).countP (· == '-') := by
          apply List.countP_congr
          intro d hd
          unfold isMark
          simp only [Bool.or_eq_true, beq_iff_eq]
          constructor
          · rintro (rfl | h)
            · exact absurd (by decide) (hunc 'ー' hd)
            · exact h
          · exact Or.inr
        have l7 := romH_dashes hstd (k2hP std true none s)
        have l8 : (ps.map Prod.snd).flatten = romH std (k2hP std true none s) := by
          have := hrom s
          rw [hr] at this
          injection this
        rw [← l8] at l7
        omega
      refine ⟨hlet, Or.inl ⟨hc, ?_, hgov, ?_⟩⟩
      · intro c hc hm
        rw [← h] at hc
        obtain ⟨d, hd, rfl⟩ := List.mem_map.1 hc
        have := hback d hd
        have hd2 : toHira d = d ∨ Spec.HiraganaLetter d ∨ d ∈ ['ヷ', 'ヸ', 'ヹ', 'ヺ'] := by
          by_cases hx : Spec.HiraganaLetter d
          · exact Or.inr (Or.inl hx)
          · by_cases hy : d ∈ ['ヷ', 'ヸ', 'ヹ', 'ヺ']
            · exact Or.inr (Or.inr hy)
            · left
              have h3 := (h2kP_toHira (c := d)).2 ⟨hx, hy⟩
              have h4 : h2kP d = d := by
                apply char_ext
                unfold Spec.HiraganaLetter Spec.In at hx
                rw [h2kP_toNat, if_neg (by omega)]
              rw [h4] at this; exact this
        simp only [List.mem_cons, List.not_mem_nil, or_false, char_eq_iff, h2kP_toNat, toHira_toNat, Char.reduceToNat] at hm this
        repeat' split at hm
        all_goals repeat' split at this
        all_goals omega
      · exact (htrip _ rfl (k2hP_unprolonged hgov)).1 hms.symm
    · rintro ⟨hlet, ⟨_, hva, hgov, hws⟩ | ⟨h, _⟩⟩
      · have := (htrip _ rfl (k2hP_unprolonged hgov)).2 hws
        rw [this, List.map_map]
        congr 1
        conv => rhs; rw [← List.map_id s]
        apply List.map_congr_left
        intro c hc
        exact h2kP_toHira.2 ⟨hlet c hc, hva c hc⟩
      · exact absurd hc h
  · rw [h2 hc, hiragana_to_katakana_eq]
    constructor
    · intro h
      have h : r.map h2kP = s := by injection h
      refine ⟨by rw [← h]; exact hnohira r, Or.inr ⟨hc, ?_⟩⟩
      intro c hc
      rw [← h] at hc
      obtain ⟨d, hd, rfl⟩ := List.mem_map.1 hc
      by_cases hl : Spec.HiraganaLetter d
      · have hm : d ∈ ['ヵ', 'ヶ', 'ゕ', 'ゖ'] := by
          by_cases hm : d ∈ ['ヵ', 'ヶ', 'ゕ', 'ゖ']
          · exact hm
          · refine absurd (Or.inl ⟨Or.inl ?_, hm⟩) (hunc d hd)
            exact hl
        have : ∀ d ∈ ['ヵ', 'ヶ', 'ゕ', 'ゖ'], ¬ Spec.Convertible (h2kP d) := by decide
        exact this d hm
      · have : h2kP d = d := by
          apply char_ext
          unfold Spec.HiraganaLetter Spec.In at hl
          rw [h2kP_toNat, if_neg (by omega)]
        rw [this]; exact hunc d hd
    · rintro ⟨hlet, ⟨h, _⟩ | ⟨_, h⟩⟩
      · exact absurd h hc
      · rw [C28_unchanged hstd s o h] at hr
        cases hr
        congr 1
        conv => rhs; rw [← List.map_id s]
        apply List.map_congr_left
        intro c hc
        apply char_ext
        have := hlet c hc
        unfold Spec.HiraganaLetter Spec.In at this
        rw [h2kP_toNat, if_neg (by omega)]
        rfl


/-- **C111** both for the standard library of Rust 1.52 and later -/
theorem C111_rust (s r : Str) (o o' : Options) (hu : o.upcase_katakana = false)
    (hime : o'.imemode = true → o'.use_obsolete_kana = true)
    (hs : ∀ c ∈ s, ¬ Spec.AsciiLetter c ∧ c ≠ '\'' ∧ rustStd.lowerChar c = [c]) (hr : to_romaji_with_opt rustStd s o = .ok r) :
    (to_hiragana_with_opt rustStd r o' = .ok s ↔
      ((o'.pass_romaji = false ∧ (is_romaji r = true ∨ is_mixed r = true ∨ ∃ c, r.head? = some c ∧ Spec.EnglishPunct c)) ∧
        ∃ ws : List Str, s = ws.flatten ∧ ∀ w ∈ ws, Spec.RegularPiece false o'.use_obsolete_kana w) ∨
      (¬ (o'.pass_romaji = false ∧ (is_romaji r = true ∨ is_mixed r = true ∨ ∃ c, r.head? = some c ∧ Spec.EnglishPunct c)) ∧
        ∀ c ∈ s, ¬ Spec.Convertible c)) ∧
    (to_katakana_with_opt rustStd r o' = .ok s ↔
      (∀ c ∈ s, ¬ Spec.HiraganaLetter c) ∧
      (((o'.pass_romaji = false ∧ (is_romaji r = true ∨ is_mixed r = true)) ∧
        (∀ c ∈ s, c ∉ ['ヷ', 'ヸ', 'ヹ', 'ヺ']) ∧
        (∀ a b g, s = a ++ 'ー' :: b → Spec.governing a = some g → ¬ Spec.KatakanaLetter g) ∧
        ∃ ws : List Str, s.map toHira = ws.flatten ∧ ∀ w ∈ ws, Spec.RegularPiece false o'.use_obsolete_kana w) ∨
      (¬ (o'.pass_romaji = false ∧ (is_romaji r = true ∨ is_mixed r = true)) ∧ ∀ c ∈ s, ¬ Spec.Convertible c))) := by
  obtain ⟨h1, h2, -⟩ := C101_search o hu
  exact ⟨C111_hiragana_exact rustStd_lawful s r o o' hu hime h1 (by decide) h2 (by decide) hs hr,
    C111_katakana_exact rustStd_lawful s r o o' hu hime h1 (by decide) h2 (by decide) hs hr⟩

/-- a text that comes back, and two that do not: kanji keep `to_hiragana` from converting, and a long vowel mark after
katakana becomes a vowel -/
example : (∀ c ∈ "かな".toList, ¬ Spec.AsciiLetter c ∧ c ≠ '\'' ∧ rustStd.lowerChar c = [c]) ∧
    to_romaji rustStd "かな".toList = .ok "kana".toList ∧ to_hiragana rustStd "kana".toList = .ok "かな".toList ∧
    to_romaji rustStd "カナ".toList = .ok "kana".toList ∧ to_katakana rustStd "kana".toList = .ok "カナ".toList ∧
    to_romaji rustStd "漢字かな".toList = .ok "漢字kana".toList ∧
    to_hiragana rustStd "漢字kana".toList = .ok "漢字kana".toList ∧
    to_romaji rustStd "ラーメン".toList = .ok "raamen".toList ∧ to_katakana rustStd "raamen".toList = .ok "ラアメン".toList := by
  decide +kernel

end WanaKana
