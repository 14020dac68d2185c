import Verif.Spec.LeftAlone
import Verif.Props.Complete
import Verif.Props.Convert4
/-! # C95: exactly which texts are left alone -/

namespace WanaKana
open KNode

/-! ## facts about the trees -/

/-- a path with an output has a character that is always converted, or ends in one of the readings of ん; the characters
of keys are no kana -/
theorem alone_facts {m : Mode} {p : Str} {n : KNode} (hw : (tree m).walk p = some n) :
    (n.output.isSome = true → (∃ c ∈ p, c ∈ Spec.alwaysConverted) ∨ (m ≠ .ime ∧ (p = ['n'] ∨ p = ['n', '\''])) ∨
      p = ['x', 'n'] ∨ (m = .ime ∧ ∃ d ∈ ['n', '\'', ' '], p = ['n', d])) ∧
    (n.output.isSome = true → ∀ c ∈ p, c.toNat < 0x2100) ∧
    (m ≠ .ime → p = ['n'] → n.output.isSome = true ∧
      ∀ t ∈ n.transitions, t.1 ∈ ['a', 'i', 'u', 'e', 'o', 'y', '\'']) := by
  have h : ([Mode.normal, .obsolete, .ime].all fun m => (tree m).paths.all fun x =>
      (x.2.output.isNone || (x.1.any fun c => decide (c ∈ Spec.alwaysConverted)) ||
        (decide (m ≠ .ime) && (decide (x.1 = ['n']) || decide (x.1 = ['n', '\'']))) || decide (x.1 = ['x', 'n']) ||
        (decide (m = .ime) && (['n', '\'', ' '].any fun d => decide (x.1 = ['n', d])))) &&
      (x.2.output.isNone || x.1.all fun c => decide (c.toNat < 0x2100)) &&
      (decide (m = .ime) || !decide (x.1 = ['n']) || (x.2.output.isSome &&
        x.2.transitions.all fun t => decide (t.1 ∈ ['a', 'i', 'u', 'e', 'o', 'y', '\''])))) = true := by
    decide +kernel
  have := walk_check (List.all_eq_true.1 h m (by cases m <;> simp)) hw
  simp only [Bool.and_eq_true] at this
  obtain ⟨⟨h1, h2⟩, h3⟩ := this
  refine ⟨?_, ?_, ?_⟩
  · intro ho
    simp only [Bool.or_eq_true, Bool.and_eq_true, List.any_eq_true, decide_eq_true_iff] at h1
    rcases h1 with (((h1 | h1) | h1) | h1) | h1
    · rw [Option.isNone_iff_eq_none] at h1
      simp [h1] at ho
    · exact Or.inl h1
    · exact Or.inr (Or.inl h1)
    · exact Or.inr (Or.inr (Or.inl h1))
    · exact Or.inr (Or.inr (Or.inr h1))
  · intro ho c hc
    rw [Option.isSome_iff_ne_none] at ho
    simp only [Bool.or_eq_true, Option.isNone_iff_eq_none, ho, false_or, List.all_eq_true, decide_eq_true_iff] at h2
    exact h2 c hc
  · rintro hm rfl
    simp only [hm, decide_false, decide_true, Bool.not_true, Bool.false_or, Bool.and_eq_true, List.all_eq_true,
      decide_eq_true_iff] at h3
    exact h3

/-- the keys that are converted wherever they stand -/
def soleKeys (m : Mode) : List Str :=
  (Spec.alwaysConverted.map fun c => [c]) ++ [['x', 'n'], ['n', '\'']] ++
    if m = .ime then [['n', 'n'], ['n', ' ']] else []

theorem sole_leaf {m : Mode} {p : Str} (hp : p ∈ soleKeys m) :
    ∃ n, (tree m).walk p = some n ∧ n.output.isSome = true ∧ n.transitions = [] := by
  have h : ([Mode.normal, .obsolete, .ime].all fun m => (soleKeys m).all fun p =>
      match (tree m).walk p with | none => false | some n => n.output.isSome && n.transitions.isEmpty) = true := by
    decide +kernel
  have := List.all_eq_true.1 (List.all_eq_true.1 h m (by cases m <;> simp)) p hp
  cases hw : (tree m).walk p with
  | none => rw [hw] at this; cases this
  | some n =>
    rw [hw] at this
    simp only [Bool.and_eq_true, List.isEmpty_iff] at this
    exact ⟨n, rfl, this⟩

/-! ## `to_kana` -/

/-- nothing is converted at the start of `s` -/
def Misses (m : Mode) (s : Str) : Prop := ∀ n k, Stops (tree m) s n k → n.output = none

/-- where the result is the text itself, possibly after a change of script, nothing was converted -/
theorem misses_of_fixed {m : Mode} (f : Char → Char) (hf : ∀ c, 0x2100 ≤ c.toNat → 0x2100 ≤ (f c).toNat) (s : Str)
    (h : (kana m s).map f = s) : ∀ a b, s = a ++ b → Misses m b := by
  induction s with
  | nil =>
    intro a b e n k hst
    have hb : b = [] := (List.append_eq_nil_iff.1 e.symm).2
    cases ho : n.output with
    | none => rfl
    | some out =>
      have := stops_pos hst ho
      have := hst.le
      simp [hb] at this
      omega
  | cons c s ih =>
    obtain ⟨n, k, hst⟩ := exists_stops (tree m) (c :: s)
    have hn : n.output = none := by
      cases ho : n.output with
      | none => rfl
      | some out =>
        exfalso
        have hk := stops_pos hst ho
        rw [kana_hit hst ho] at h
        have hge := styled_ge hst.walk ho ((c :: s).take k)
        have hne := (walk_output hst.walk ho).1
        have hlow := (alone_facts hst.walk).2.1 (by rw [ho]; rfl)
        cases hs : styled ((c :: s).take k) out with
        | nil =>
          unfold styled at hs
          split at hs
          · exact hne (List.map_eq_nil_iff.1 hs)
          · exact hne hs
        | cons d t =>
          rw [hs] at h hge
          have h1 := hf d (hge d List.mem_cons_self)
          have hd : f d = c := (List.cons.inj h).1
          obtain ⟨j, rfl⟩ : ∃ j, k = j + 1 := ⟨k - 1, by omega⟩
          have := hlow (toAsciiLowercase c) (by simp [low])
          rw [toAsciiLowercase_toNat] at this
          rw [hd] at h1
          split at this <;> omega
    rw [kana_miss hst hn] at h
    have hs := ih (List.cons.inj h).2
    intro a b e
    cases a with
    | nil =>
      intro n' k' hst'
      rw [List.nil_append] at e
      rw [← e] at hst'
      have := (stops_unique _ hst).symm.trans (stops_unique _ hst')
      rw [← (Prod.mk.inj this).1]; exact hn
    | cons x a => exact hs a b (List.cons.inj e).2

theorem kana_of_misses {m : Mode} (s : Str) (h : ∀ a b, s = a ++ b → Misses m b) : kana m s = s := by
  induction s with
  | nil => exact kana_nil m
  | cons c s ih =>
    obtain ⟨n, k, hst⟩ := exists_stops (tree m) (c :: s)
    rw [kana_miss hst (h [] (c :: s) rfl n k hst)]
    rw [ih fun a b e => h (c :: a) b (by rw [e]; rfl)]

theorem kana_fixed_iff (m : Mode) (s : Str) : kana m s = s ↔ ∀ a b, s = a ++ b → Misses m b :=
  ⟨fun h => misses_of_fixed id (fun _ h => h) s (by rwa [List.map_id]), kana_of_misses s⟩

theorem not_misses_sole {m : Mode} {p : Str} (hp : p ∈ soleKeys m) {b t : Str} (e : low b = p ++ t) :
    ¬ Misses m b := by
  intro hm
  obtain ⟨n, hw, ho, hl⟩ := sole_leaf hp
  have hlen : p.length ≤ b.length := by
    have := congrArg List.length e
    simp [low] at this
    omega
  have hst : Stops (tree m) b n p.length := by
    refine ⟨hlen, ?_, ?_⟩
    · have : low (b.take p.length) = p := by
        unfold low at e ⊢
        rw [List.map_take, e, List.take_left]
      rw [this]; exact hw
    · intro c _
      unfold find_transition_node
      rw [hl]; rfl
  rw [hm n _ hst] at ho
  cases ho

/-- split a text as its lower-cased form is split -/
theorem low_split {s x y : Str} (h : low s = x ++ y) : ∃ a b, s = a ++ b ∧ low a = x ∧ low b = y := by
  unfold low at *
  obtain ⟨a, b, h1, h2, h3⟩ := List.map_eq_append_iff.1 h
  exact ⟨a, b, h1, h2, h3⟩

theorem leftAlone_iff (m : Mode) (s : Str) : kana m s = s ↔ Spec.LeftAlone (decide (m = .ime)) s := by
  rw [kana_fixed_iff]
  unfold Spec.LeftAlone Spec.Occurs
  rw [asciiLower_eq]
  show _ ↔ (∀ c ∈ low s, _) ∧ (¬ ∃ a b, low s = a ++ ['x', 'n'] ++ b) ∧ if _ then ∀ d ∈ _, ¬ ∃ a b, low s = _ else ∀ a b, low s = _ → _
  constructor
  · intro h
    have hsole : ∀ p ∈ soleKeys m, ¬ ∃ a b, low s = a ++ p ++ b := by
      rintro p hp ⟨a, b, e⟩
      rw [List.append_assoc] at e
      obtain ⟨a', b', e1, _, e3⟩ := low_split e
      exact not_misses_sole hp e3 (h a' b' e1)
    have h1 : ∀ c ∈ low s, c ∉ Spec.alwaysConverted := by
      intro c hc hc'
      obtain ⟨a, b, e⟩ := List.append_of_mem hc
      refine hsole [c] ?_ ⟨a, b, by rw [e]; simp⟩
      unfold soleKeys
      exact List.mem_append_left _ (List.mem_append_left _ (List.mem_map_of_mem hc'))
    refine ⟨h1, hsole _ (by simp [soleKeys]), ?_⟩
    by_cases hm : m = .ime
    · rw [if_pos (by simpa using hm)]
      intro d hd
      exact hsole _ (by simp at hd; rcases hd with rfl | rfl | rfl <;> simp [soleKeys, hm])
    · rw [if_neg (by simpa using hm)]
      intro a b e
      obtain ⟨a', b', e1, _, e3⟩ := low_split e
      have hmiss := h a' b' e1
      obtain ⟨c, t, rfl⟩ : ∃ c t, b' = c :: t := by
        cases b' with
        | nil => cases e3
        | cons c t => exact ⟨c, t, rfl⟩
      have ec : toAsciiLowercase c = 'n' := (List.cons.inj e3).1
      have et : low t = b := (List.cons.inj e3).2
      obtain ⟨n, hn⟩ : ∃ n, (tree m).walk ['n'] = some n := by
        have : ((tree m).walk ['n']).isSome = true := by cases m <;> decide +kernel
        exact Option.isSome_iff_exists.1 this
      obtain ⟨ho, htr⟩ := (alone_facts hn).2.2 hm rfl
      cases hf : (t.head?.bind fun d => n.find_transition_node (toAsciiLowercase d)) with
      | none =>
        exfalso
        have hst : Stops (tree m) (c :: t) n 1 := by
          refine ⟨by simp, ?_, ?_⟩
          · simp only [List.take_succ_cons, List.take_zero, low, List.map_cons, List.map_nil, ec]; exact hn
          · intro d hd
            simp only [List.drop_succ_cons, List.drop_zero] at hd
            rw [hd] at hf
            exact hf
        rw [hmiss n 1 hst] at ho
        cases ho
      | some n' =>
        cases t with
        | nil => cases hf
        | cons d t =>
          have hf' : n.find_transition_node (toAsciiLowercase d) = some n' := hf
          unfold find_transition_node at hf'
          obtain ⟨x, hx, _⟩ := Option.map_eq_some_iff.1 hf'
          have hx1 := List.find?_some hx
          have hx2 := htr x (List.mem_of_find?_eq_some hx)
          rw [eq_of_beq hx1] at hx2
          have hd : toAsciiLowercase d ∈ low s := by
            rw [e, ← et]; simp [low]
          have hnot := h1 _ hd
          rw [← et]
          simp only [low, List.map_cons, List.head?_cons]
          have hcases : toAsciiLowercase d ∈ Spec.alwaysConverted ∨ toAsciiLowercase d = 'y' ∨
              toAsciiLowercase d = '\'' := by
            simp only [List.mem_cons, List.not_mem_nil, or_false] at hx2
            rcases hx2 with h | h | h | h | h | h | h <;> rw [h] <;> decide
          rcases hcases with h' | h' | h'
          · exact absurd h' hnot
          · rw [h']
          · exfalso
            refine hsole ['n', '\''] (by simp [soleKeys]) ⟨a, low t, ?_⟩
            rw [e, ← et]
            simp [low, h']
  · rintro ⟨h1, h2, h3⟩ a b e n k hst
    cases ho : n.output with
    | none => rfl
    | some out =>
      exfalso
      have es : low s = low a ++ (low (b.take k) ++ low (b.drop k)) := by
        rw [e]
        unfold low
        rw [List.map_append, ← List.map_append (l₁ := b.take k), List.take_append_drop]
      rcases (alone_facts hst.walk).1 (by rw [ho]; rfl) with ⟨c, hc, hc'⟩ | ⟨hm, hp⟩ | hp | ⟨hm, d, hd, hp⟩
      · exact h1 c (by rw [es]; exact List.mem_append_right _ (List.mem_append_left _ hc)) hc'
      · rw [if_neg (by simpa using hm)] at h3
        rcases hp with hp | hp
        · rw [hp] at es
          have hy := h3 (low a) (low (b.drop k)) (by rw [es]; rfl)
          unfold low at hy
          rw [List.head?_map] at hy
          obtain ⟨c, hc, hcy⟩ := Option.map_eq_some_iff.1 hy
          have hs := hst.stop c hc
          rw [hcy] at hs
          have hw := hst.walk
          rw [hp] at hw
          have := (complete_facts hw).2.2.1 rfl
          rw [hs] at this
          cases this
        · rw [hp] at es
          have hy := h3 (low a) ('\'' :: low (b.drop k)) (by rw [es]; rfl)
          simp at hy
      · rw [hp] at es
        exact h2 ⟨low a, low (b.drop k), by rw [es]; simp⟩
      · rw [if_pos (by simpa using hm)] at h3
        rw [hp] at es
        exact h3 d hd ⟨low a, low (b.drop k), by rw [es]; simp⟩

theorem ime_of_mode (o : Options) : decide (modeOf o = .ime) = (o.imemode && !o.use_obsolete_kana) := by
  unfold modeOf
  cases o.use_obsolete_kana <;> cases o.imemode <;> rfl

/-- **C95** Exactly which texts `to_kana` leaves alone: those without a vowel, a mark, `xn` or an `n` that can be read as
ん (with obsolete kana switched on, the IME option has no effect). -/
theorem C95_to_kana {std : Std} (hstd : std.Lawful) (s : Str) (o : Options) :
    to_kana_with_opt std s o = .ok s ↔ Spec.LeftAlone (o.imemode && !o.use_obsolete_kana) s := by
  rw [to_kana_eq hstd, ← ime_of_mode, ← leftAlone_iff]
  constructor
  · intro h; exact Except.ok.inj h
  · intro h; rw [h]

/-- `ny` without a vowel stays, a final `n` only in IME mode; `xn` and `N'` are converted -/
example : to_kana modernStd "ny漢 kカ".toList = .ok "ny漢 kカ".toList ∧
    to_kana modernStd "kn".toList = .ok "kん".toList ∧
    to_kana_with_opt modernStd "kn".toList { imemode := true } = .ok "kn".toList ∧
    to_kana_with_opt modernStd "kn'".toList { imemode := true } = .ok "kん".toList ∧
    to_kana_with_opt modernStd "kn".toList { imemode := true, use_obsolete_kana := true } = .ok "kん".toList := by
  decide +kernel

/-! ## the other conversions -/

/-- **C95** Exactly which texts `katakana_to_hiragana` leaves alone. -/
theorem C95_katakana_to_hiragana {std : Std} (hstd : std.Lawful) (s : Str) (dest : Bool) :
    katakana_to_hiragana_with_opt std s dest = .ok s ↔ ∀ c ∈ s, Spec.Katakana c → c ∈ ['ー', '・', 'ヵ', 'ヶ'] :=
  ⟨C23_no_katakana hstd s s dest, C23_unchanged hstd s dest⟩

/-- **C95** Exactly which texts `hiragana_to_katakana` leaves alone. -/
theorem C95_hiragana_to_katakana (s : Str) :
    hiragana_to_katakana s = .ok s ↔ ∀ c ∈ s, ¬ Spec.HiraganaLetter c := by
  refine ⟨C22_no_hiragana s s, fun h => ?_⟩
  rw [C22_charwise]
  congr 1
  conv => rhs; rw [← List.map_id s]
  apply List.map_congr_left
  intro c hc
  unfold Spec.toKata
  rw [if_neg (h c hc)]; rfl

theorem map_h2kP_fixed (s : Str) : s.map h2kP = s ↔ ∀ c ∈ s, ¬ Spec.HiraganaLetter c := by
  rw [← C95_hiragana_to_katakana, hiragana_to_katakana_eq]
  constructor
  · intro h; rw [h]
  · intro h; exact Except.ok.inj h

theorem k2hP_fixed {std : Std} (hstd : std.Lawful) (s : Str) : k2hP std false none s = s ↔ FewKatakana s := by
  have := C95_katakana_to_hiragana hstd s false
  rw [k2h_eq hstd] at this
  unfold FewKatakana
  rw [← this]
  constructor
  · intro h; rw [h]
  · intro h; exact Except.ok.inj h

theorem kana_lower_fixed {std : Std} (hstd : std.Lawful) {m : Mode} {s : Str} :
    kana m (std.toLowercase s) = s ↔ std.toLowercase s = s ∧ kana m s = s := by
  constructor
  · intro h
    have : std.toLowercase s = s := by
      apply toLowercase_id
      intro c hc
      rw [← h] at hc
      exact kana_settled hstd m _ (fun d hd => lower_settled hstd hd) c hc
    rw [this] at h
    exact ⟨this, h⟩
  · rintro ⟨h1, h2⟩
    rw [h1, h2]

/-- **C95** Exactly which texts `to_katakana` leaves alone: those without hiragana letters in which, if romaji is
converted at all, everything is in lower case and `to_kana` finds nothing. -/
theorem C95_to_katakana {std : Std} (hstd : std.Lawful) (s : Str) (o : Options) :
    to_katakana_with_opt std s o = .ok s ↔
      (∀ c ∈ s, ¬ Spec.HiraganaLetter c) ∧
      (o.pass_romaji = false → ((∀ c ∈ s, Spec.Romaji c) ∨ ((∃ c ∈ s, Spec.Kana c) ∧ ∃ c ∈ s, Spec.Romaji c)) →
        std.toLowercase s = s ∧ Spec.LeftAlone (o.imemode && !o.use_obsolete_kana) s) := by
  rw [to_katakana_eq hstd, ← C04_is_mixed]
  have e : (Except.ok (kataP std s o) : Res Str) = .ok s ↔ kataP std s o = s :=
    ⟨fun h => Except.ok.inj h, fun h => by rw [h]⟩
  rw [e, ← ime_of_mode, ← leftAlone_iff]
  unfold kataP
  cases hp : o.pass_romaji with
  | true => simp [map_h2kP_fixed]
  | false =>
    rw [if_neg (by simp)]
    by_cases hs : s = []
    · subst hs
      simp [is_romaji, is_mixed, is_mixed_pass_kanji, toLowercase_id, kana_nil]
    · have hr : (∀ c ∈ s, Spec.Romaji c) ↔ is_romaji s = true := by
        rw [C01_is_romaji]
        exact ⟨fun h => ⟨hs, h⟩, fun h => h.2⟩
      rw [hr, ← Bool.or_eq_true]
      split
      · next hc =>
        rw [hc]
        constructor
        · intro h
          have hno : ∀ c ∈ s, ¬ Spec.HiraganaLetter c := by
            apply C22_no_hiragana (kana (modeOf o) (std.toLowercase s))
            rw [hiragana_to_katakana_eq, h]
          have hl : std.toLowercase s = s := by
            apply toLowercase_id
            intro c hc
            rw [← h] at hc
            obtain ⟨d, hd, rfl⟩ := List.mem_map.1 hc
            exact h2kP_settled hstd (kana_settled hstd _ _ (fun d hd => lower_settled hstd hd) d hd)
          rw [hl] at h
          exact ⟨hno, fun _ _ => ⟨hl, kana_of_misses s (misses_of_fixed h2kP (fun _ => h2kP_ge) s h)⟩⟩
        · rintro ⟨h1, h2⟩
          obtain ⟨h2, h3⟩ := h2 rfl rfl
          rw [h2, h3, map_h2kP_fixed]
          exact h1
      · next hc =>
        rw [map_h2kP_fixed]
        exact ⟨fun h => ⟨h, fun _ h' => absurd h' hc⟩, fun h => h.1⟩

theorem smart_quote_no_fix {m : Mode} {c : Char} {s : Str} (hc : Spec.EnglishPunct c) (hr : ¬ Spec.Romaji c) :
    kana m (c :: s) ≠ c :: s := by
  intro h
  have hl := ((leftAlone_iff m _).1 h).1 (toAsciiLowercase c) (by rw [asciiLower_eq]; simp)
  have hc : c ∈ ['‘', '’', '“', '”'] := by
    rcases hc with h | h | h | h | h
    all_goals first
      | exact h
      | exact absurd (Or.inl (by unfold Spec.Ascii; have := h.2; omega)) hr
  simp only [List.mem_cons, List.not_mem_nil, or_false] at hc
  rcases hc with rfl | rfl | rfl | rfl <;> exact hl (by decide)

/-- **C95** Exactly which texts `to_hiragana` leaves alone: those whose only katakana are ー ・ ヵ ヶ and in which, if
romaji is converted at all, everything is in lower case and `to_kana` finds nothing. -/
theorem C95_to_hiragana {std : Std} (hstd : std.Lawful) (s : Str) (o : Options) :
    to_hiragana_with_opt std s o = .ok s ↔
      (∀ c ∈ s, Spec.Katakana c → c ∈ ['ー', '・', 'ヵ', 'ヶ']) ∧
      (o.pass_romaji = false → ((∀ c ∈ s, Spec.Romaji c) ∨ ((∃ c ∈ s, Spec.Kana c) ∧ ∃ c ∈ s, Spec.Romaji c) ∨
          ∃ c, s.head? = some c ∧ Spec.EnglishPunct c) →
        std.toLowercase s = s ∧ Spec.LeftAlone (o.imemode && !o.use_obsolete_kana) s) := by
  rw [to_hiragana_eq hstd, ← C04_is_mixed]
  have e : (Except.ok (hiraP std s o) : Res Str) = .ok s ↔ hiraP std s o = s :=
    ⟨fun h => Except.ok.inj h, fun h => by rw [h]⟩
  rw [e, ← ime_of_mode, ← leftAlone_iff]
  show _ ↔ FewKatakana s ∧ _
  unfold hiraP
  cases hp : o.pass_romaji with
  | true => simp [k2hP_fixed hstd]
  | false =>
    rw [if_neg (by simp)]
    by_cases hm : is_mixed s = true
    · rw [if_pos hm]
      constructor
      · intro h
        have hfew : FewKatakana s := by
          rw [← h]
          exact few_lower hstd _ (few_k2h hstd s)
        rw [(k2hP_fixed hstd s).2 hfew, kana_lower_fixed hstd] at h
        exact ⟨hfew, fun _ _ => h⟩
      · rintro ⟨h1, h2⟩
        rw [(k2hP_fixed hstd s).2 h1, kana_lower_fixed hstd]
        exact h2 rfl (Or.inr (Or.inl hm))
    · rw [if_neg hm]
      cases s with
      | nil =>
        have : std.toLowercase [] = [] := rfl
        simp [is_romaji, this, kana_nil, k2hP_fixed hstd]
      | cons c s =>
        have hr : (∀ d ∈ c :: s, Spec.Romaji d) ↔ is_romaji (c :: s) = true := by
          rw [C01_is_romaji]
          exact ⟨fun h => ⟨List.cons_ne_nil _ _, h⟩, fun h => h.2⟩
        have hh : (∃ d, (c :: s).head? = some d ∧ Spec.EnglishPunct d) ↔ is_char_english_punctuation c = true := by
          rw [is_char_english_punctuation_iff]
          simp
        rw [hr, hh]
        have hb : (is_romaji (c :: s) || (((c :: s).head?).map is_char_english_punctuation).getD false) = true ↔
            (is_romaji (c :: s) = true ∨ is_char_english_punctuation c = true) := by simp
        by_cases hc : is_romaji (c :: s) = true ∨ is_char_english_punctuation c = true
        · rw [if_pos (hb.2 hc), kana_lower_fixed hstd]
          constructor
          · intro h
            refine ⟨?_, fun _ _ => h⟩
            rcases hc with hc | hc
            · exact few_romaji hc
            · intro d hd hk
              exfalso
              rw [is_char_english_punctuation_iff] at hc
              refine smart_quote_no_fix hc ?_ h.2
              intro hcr
              exact hm ((C04_is_mixed _).2 ⟨⟨d, hd, katakana_is_kana hk⟩, ⟨c, List.mem_cons_self, hcr⟩⟩)
          · rintro ⟨_, h⟩
            exact h rfl (hc.imp id Or.inr)
        · rw [if_neg (mt hb.1 hc), k2hP_fixed hstd]
          refine ⟨fun h => ⟨h, fun _ h' => absurd ?_ hc⟩, fun h => h.1⟩
          rcases h' with h' | h' | h'
          · exact Or.inl h'
          · exact absurd h' hm
          · exact Or.inr h'

/-- texts that are left alone and texts that are not, next to the conditions -/
example : to_hiragana modernStd "ひらー kヶ".toList = .ok "ひらー kヶ".toList ∧
    to_hiragana modernStd "‘漢".toList = .ok "「漢".toList ∧
    to_hiragana modernStd "K ひ".toList = .ok "k ひ".toList ∧
    to_hiragana modernStd "K漢".toList = .ok "K漢".toList ∧
    to_katakana modernStd "‘漢".toList = .ok "‘漢".toList ∧
    to_katakana modernStd "カタ ny".toList = .ok "カタ ny".toList := by decide +kernel

end WanaKana
