import Verif.Props.Trim
/-! # C61, C62: trim_okurigana with a matcher, and what a second trimming does -/

namespace WanaKana
open Spec

/-! ## C61 — exactly what a matcher removes -/

theorem suitable_end {input m : Str} (hj : ∀ c ∈ input, Japanese c)
    (hk : ∃ c, input.getLast? = some c ∧ Kana c) (hm : ∃ c ∈ m, ¬ Kanji c) :
    ¬ Unsuitable input false (some m) := by
  obtain ⟨c, hc, hc'⟩ := hk
  obtain ⟨d, hd, hd'⟩ := hm
  rintro (h | ⟨x, hx, h⟩ | ⟨h, -⟩ | ⟨-, x, hx, h⟩ | ⟨h, -⟩ | ⟨x, h, h'⟩)
  · subst h; simp at hc
  · exact h (hj x hx)
  · cases h
  · rw [hc] at hx; cases hx; exact h hc'
  · cases h
  · cases h; exact hd' (h' d hd)

theorem suitable_start {input m : Str} (hj : ∀ c ∈ input, Japanese c)
    (hk : ∃ c, input.head? = some c ∧ Kana c) (hm : ∃ c ∈ m, ¬ Kanji c) :
    ¬ Unsuitable input true (some m) := by
  obtain ⟨c, hc, hc'⟩ := hk
  obtain ⟨d, hd, hd'⟩ := hm
  rintro (h | ⟨x, hx, h⟩ | ⟨-, x, hx, h⟩ | ⟨h, -⟩ | ⟨h, -⟩ | ⟨x, h, h'⟩)
  · subst h; simp at hc
  · exact h (hj x hx)
  · rw [hc] at hx; cases hx; exact h hc'
  · cases h
  · cases h
  · cases h; exact hd' (h' d hd)

/-- Trimming the end with a matcher: the matcher's last token is removed from the end as often
as it occurs there, and nothing else. -/
theorem C61_end (input m : Str) (hj : ∀ c ∈ input, Japanese c)
    (hk : ∃ c, input.getLast? = some c ∧ Kana c) (hm : ∃ c ∈ m, ¬ Kanji c) :
    ∃ t r n, (tokenize m).getLast? = some t ∧ t ≠ [] ∧
      trim_okurigana_with_opt input false (some m) = .ok r ∧
      input = r ++ (List.replicate n t).flatten ∧ ¬ t <:+ r := by
  obtain ⟨x, xs, h1, h2⟩ := trim_suitable (suitable_end hj hk hm)
  have h1' : tokenize m = x :: xs := h1
  have hne : (x :: xs).getLast (by simp) ≠ [] :=
    (C45_nonempty m false).1 _ (by rw [tokenize] at h1'; rw [h1']; exact List.getLast_mem _)
  obtain ⟨n, hn⟩ := trimEndLoop_spec ((x :: xs).getLast (by simp)) input.length input
  refine ⟨(x :: xs).getLast (by simp), _, n, ?_, hne, h2, hn, ?_⟩
  · rw [h1', List.getLast?_eq_some_getLast]
  · exact trimEndLoop_not_suffix _ hne _ _ (Nat.le_refl _)

/-- Trimming the start with a matcher: the matcher's first token is removed from the start as
often as it occurs there, and nothing else. -/
theorem C61_start (input m : Str) (hj : ∀ c ∈ input, Japanese c)
    (hk : ∃ c, input.head? = some c ∧ Kana c) (hm : ∃ c ∈ m, ¬ Kanji c) :
    ∃ t r n, (tokenize m).head? = some t ∧ t ≠ [] ∧
      trim_okurigana_with_opt input true (some m) = .ok r ∧
      input = (List.replicate n t).flatten ++ r ∧ ¬ t <+: r := by
  obtain ⟨x, xs, h1, h2⟩ := trim_suitable (suitable_start hj hk hm)
  have h1' : tokenize m = x :: xs := h1
  have hne : x ≠ [] :=
    (C45_nonempty m false).1 _ (by rw [tokenize] at h1'; rw [h1']; exact List.mem_cons_self)
  obtain ⟨n, hn⟩ := trimStartLoop_spec x input.length input
  refine ⟨x, _, n, by rw [h1']; rfl, hne, h2, hn, ?_⟩
  exact trimStartLoop_not_prefix _ hne _ _ (Nat.le_refl _)

/-- the removal count of `C61_end` is determined: only one way of taking `t` off completely -/
theorem strip_end_unique {t : Str} : ∀ (n k : Nat) (r q : Str),
    r ++ (List.replicate n t).flatten = q ++ (List.replicate k t).flatten →
    ¬ t <:+ r → ¬ t <:+ q → r = q := by
  intro n
  induction n with
  | zero =>
    intro k r q e hr hq
    cases k with
    | zero => simpa using e
    | succ k =>
      rw [List.replicate_succ', List.flatten_append, ← List.append_assoc] at e
      simp only [List.replicate_zero, List.flatten_nil, List.append_nil, List.flatten_cons] at e
      exact absurd ⟨_, e.symm⟩ hr
  | succ n ih =>
    intro k r q e hr hq
    cases k with
    | zero =>
      rw [List.replicate_succ', List.flatten_append, ← List.append_assoc] at e
      simp only [List.replicate_zero, List.flatten_nil, List.append_nil, List.flatten_cons] at e
      exact absurd ⟨_, e⟩ hq
    | succ k =>
      simp only [List.replicate_succ', List.flatten_append, ← List.append_assoc] at e
      exact ih k r q (List.append_cancel_right e) hr hq

/-- … so the text left over is the only one from which nothing more can be taken. -/
theorem C61_end_unique (input m r t : Str) (n : Nat) (hj : ∀ c ∈ input, Japanese c)
    (hk : ∃ c, input.getLast? = some c ∧ Kana c) (hm : ∃ c ∈ m, ¬ Kanji c)
    (ht : (tokenize m).getLast? = some t) (he : input = r ++ (List.replicate n t).flatten)
    (hr : ¬ t <:+ r) : trim_okurigana_with_opt input false (some m) = .ok r := by
  obtain ⟨t', r', n', h1, -, h3, h4, h5⟩ := C61_end input m hj hk hm
  rw [ht] at h1
  cases h1
  rw [h3, strip_end_unique n' n r' r (h4.symm.trans he) h5 hr]

theorem C61_start_unique (input m r t : Str) (n : Nat) (hj : ∀ c ∈ input, Japanese c)
    (hk : ∃ c, input.head? = some c ∧ Kana c) (hm : ∃ c ∈ m, ¬ Kanji c)
    (ht : (tokenize m).head? = some t) (he : input = (List.replicate n t).flatten ++ r)
    (hr : ¬ t <+: r) : trim_okurigana_with_opt input true (some m) = .ok r := by
  obtain ⟨t', r', n', h1, -, h3, h4, h5⟩ := C61_start input m hj hk hm
  rw [ht] at h1
  cases h1
  have key : ∀ (n k : Nat), (List.replicate n t).flatten ++ r' = (List.replicate k t).flatten ++ r →
      r' = r := by
    intro n
    induction n with
    | zero =>
      intro k e
      cases k with
      | zero => simpa using e
      | succ k =>
        simp only [List.replicate_succ, List.flatten_cons, List.append_assoc, List.replicate_zero,
          List.flatten_nil, List.nil_append] at e
        exact absurd ⟨_, e.symm⟩ h5
    | succ n ih =>
      intro k e
      cases k with
      | zero =>
        simp only [List.replicate_succ, List.flatten_cons, List.append_assoc, List.replicate_zero,
          List.flatten_nil, List.nil_append] at e
        exact absurd ⟨_, e⟩ hr
      | succ k =>
        simp only [List.replicate_succ, List.flatten_cons, List.append_assoc] at e
        exact ih k (List.append_cancel_left e)
  rw [h3, key n' n (h4.symm.trans he)]

/-- Without a matcher `trim_okurigana` trims the end of the text by its own last token. -/
theorem C61_default (input : Str) (hne : input ≠ []) (hj : ∀ c ∈ input, Japanese c)
    (hk : ∃ c, input.getLast? = some c ∧ Kana c) (hn : ∃ c ∈ input, ¬ Kana c) :
    trim_okurigana input = .ok (tokenize input).dropLast.flatten :=
  C52_end input hne hj hk hn

example : trim_okurigana_with_opt ['ふ', 'み', 'こ', 'む', 'む'] false (some ['踏', 'み', '込', 'む'])
      = .ok ['ふ', 'み', 'こ'] ∧
    trim_okurigana_with_opt ['お', 'み', 'ま', 'い'] true (some ['お', '祝', 'い'])
      = .ok ['み', 'ま', 'い'] ∧
    tokenize ['踏', 'み', '込', 'む'] = [['踏'], ['み'], ['込'], ['む']] := by decide

/-! ## C62 — when trimming twice differs from trimming once, and when nothing is left -/

/-- The texts on which trimming the end (no matcher) does something: Japanese, ending in kana,
not kana throughout. -/
def TrimsEnd (s : Str) : Prop :=
  (∀ c ∈ s, Japanese c) ∧ (∃ c, s.getLast? = some c ∧ Kana c) ∧ ∃ c ∈ s, ¬ Kana c

/-- The texts on which trimming the start (no matcher) does something. -/
def TrimsStart (s : Str) : Prop :=
  (∀ c ∈ s, Japanese c) ∧ (∃ c, s.head? = some c ∧ Kana c) ∧ ∃ c ∈ s, ¬ Kana c

theorem unsuitable_end_iff (s : Str) : Unsuitable s false none ↔ ¬ TrimsEnd s := by
  constructor
  · rintro (h | ⟨x, hx, h⟩ | ⟨h, -⟩ | ⟨-, x, hx, h⟩ | ⟨-, h⟩ | ⟨x, h, -⟩) ⟨h1, ⟨c, hc, hc'⟩, d, hd, hd'⟩
    · subst h; simp at hc
    · exact h (h1 x hx)
    · cases h
    · rw [hc] at hx; cases hx; exact h hc'
    · exact hd' (h d hd)
    · cases h
  · intro h
    apply Classical.byContradiction
    intro hu
    simp only [Unsuitable, not_or, not_exists, not_and, Classical.not_not,
      Classical.not_forall] at hu
    obtain ⟨hne, hj, -, he, hn, -⟩ := hu
    obtain ⟨d, hd, hd'⟩ := hn trivial
    exact h ⟨hj, ⟨_, List.getLast?_eq_some_getLast hne,
      he trivial _ (List.getLast?_eq_some_getLast hne)⟩, d, hd, hd'⟩

theorem unsuitable_start_iff (s : Str) : Unsuitable s true none ↔ ¬ TrimsStart s := by
  constructor
  · rintro (h | ⟨x, hx, h⟩ | ⟨-, x, hx, h⟩ | ⟨h, -⟩ | ⟨-, h⟩ | ⟨x, h, -⟩) ⟨h1, ⟨c, hc, hc'⟩, d, hd, hd'⟩
    · subst h; simp at hc
    · exact h (h1 x hx)
    · rw [hc] at hx; cases hx; exact h hc'
    · cases h
    · exact hd' (h d hd)
    · cases h
  · intro h
    apply Classical.byContradiction
    intro hu
    simp only [Unsuitable, not_or, not_exists, not_and, Classical.not_not,
      Classical.not_forall] at hu
    obtain ⟨hne, hj, hs, -, hn, -⟩ := hu
    obtain ⟨d, hd, hd'⟩ := hn trivial
    obtain ⟨y, ys, rfl⟩ := List.exists_cons_of_ne_nil hne
    exact h ⟨hj, ⟨y, rfl, hs trivial y rfl⟩, d, hd, hd'⟩

/-- Trimming the end changes a text exactly if it is Japanese, ends in kana and is not kana
throughout. -/
theorem C62_changes_end (s : Str) : trim_okurigana_with_opt s false none ≠ .ok s ↔ TrimsEnd s := by
  constructor
  · intro h
    apply Classical.byContradiction
    intro hn
    exact h (trim_unsuitable ((unsuitable_end_iff s).2 hn))
  · intro h e
    have hne : s ≠ [] := by
      obtain ⟨-, ⟨c, hc, -⟩, -⟩ := h
      rintro rfl; simp at hc
    rw [C52_end s hne h.1 h.2.1 h.2.2] at e
    have e' := Except.ok.inj e
    have hcat := (C45_concat s false).2.1
    have htn : tokenize s ≠ [] := by rw [tokenize, ne_eq, C45_empty]; exact hne
    have := congrArg List.length hcat
    rw [← List.dropLast_concat_getLast htn] at this
    have hl : (tokenize s).getLast htn ≠ [] := (C45_nonempty s false).1 _ (List.getLast_mem _)
    have hp := List.length_pos_iff.2 hl
    simp only [List.flatten_append, List.flatten_cons, List.flatten_nil, List.append_nil,
      List.length_append] at this
    rw [e'] at this
    omega

theorem C62_changes_start (s : Str) :
    trim_okurigana_with_opt s true none ≠ .ok s ↔ TrimsStart s := by
  constructor
  · intro h
    apply Classical.byContradiction
    intro hn
    exact h (trim_unsuitable ((unsuitable_start_iff s).2 hn))
  · intro h e
    have hne : s ≠ [] := by
      obtain ⟨-, ⟨c, hc, -⟩, -⟩ := h
      rintro rfl; simp at hc
    rw [C52_start s hne h.1 h.2.1 h.2.2] at e
    have e' := Except.ok.inj e
    have hcat := (C45_concat s false).2.1
    have htn : tokenize s ≠ [] := by rw [tokenize, ne_eq, C45_empty]; exact hne
    obtain ⟨x, xs, hx⟩ := List.exists_cons_of_ne_nil htn
    have hl : x ≠ [] := (C45_nonempty s false).1 _ (by
      show x ∈ tokenize s; rw [hx]; exact List.mem_cons_self)
    have hp := List.length_pos_iff.2 hl
    have hcat' : (tokenize s).flatten = s := hcat
    rw [hx] at e' hcat'
    have := congrArg List.length hcat'
    simp only [List.tail_cons] at e'
    simp only [List.flatten_cons, List.length_append, e'] at this
    omega

/-- Trimming twice differs from trimming once exactly if the text before the last token again
ends in kana without being kana throughout. -/
theorem C62_twice_end (s r : Str) (h : TrimsEnd s)
    (hr : trim_okurigana_with_opt s false none = .ok r) :
    r = (tokenize s).dropLast.flatten ∧
    (trim_okurigana_with_opt r false none ≠ .ok r ↔
      (∃ c, r.getLast? = some c ∧ Kana c) ∧ ∃ c ∈ r, ¬ Kana c) := by
  have hne : s ≠ [] := by
    obtain ⟨-, ⟨c, hc, -⟩, -⟩ := h
    rintro rfl; simp at hc
  rw [C52_end s hne h.1 h.2.1 h.2.2] at hr
  cases hr
  refine ⟨rfl, ?_⟩
  rw [C62_changes_end]
  refine ⟨fun e => e.2, fun e => ⟨fun c hc => h.1 c ?_, e⟩⟩
  have hcat : (tokenize s).flatten = s := (C45_concat s false).2.1
  rw [← hcat]
  obtain ⟨t, ht, hct⟩ := List.mem_flatten.1 hc
  exact List.mem_flatten.2 ⟨t, (List.dropLast_sublist _).subset ht, hct⟩

theorem C62_twice_start (s r : Str) (h : TrimsStart s)
    (hr : trim_okurigana_with_opt s true none = .ok r) :
    r = (tokenize s).tail.flatten ∧
    (trim_okurigana_with_opt r true none ≠ .ok r ↔
      (∃ c, r.head? = some c ∧ Kana c) ∧ ∃ c ∈ r, ¬ Kana c) := by
  have hne : s ≠ [] := by
    obtain ⟨-, ⟨c, hc, -⟩, -⟩ := h
    rintro rfl; simp at hc
  rw [C52_start s hne h.1 h.2.1 h.2.2] at hr
  cases hr
  refine ⟨rfl, ?_⟩
  rw [C62_changes_start]
  refine ⟨fun e => e.2, fun e => ⟨fun c hc => h.1 c ?_, e⟩⟩
  have hcat : (tokenize s).flatten = s := (C45_concat s false).2.1
  rw [← hcat]
  obtain ⟨t, ht, hct⟩ := List.mem_flatten.1 hc
  exact List.mem_flatten.2 ⟨t, (List.tail_sublist _).subset ht, hct⟩

/-- a text of Japanese punctuation without the full width space is one token -/
theorem punct_one_token {s : Str} (hne : s ≠ []) (h : ∀ c ∈ s, JapanesePunct c ∧ c ≠ '　') :
    tokenize s = [s] := by
  have h1 : IsTokenization (fun c => get_type c false) s [(.JaPunc, s)] := by
    refine ⟨by simp, by simpa using hne, ?_, trivial⟩
    intro t ht c hc
    rw [List.mem_singleton] at ht
    subst ht
    exact (C47_detailed c .JaPunc).2 (h c hc)
  rw [(C45_same s false).1, ← C46_unique s false _ h1]
  rfl

/-- one token ending or starting in kana, but not all kana, is punctuation -/
theorem one_token_punct {s : Str} {k : TokenType} (ht : ∀ c ∈ s, get_type c false = k)
    (hk : ∃ c ∈ s, Kana c) (hn : ∃ c ∈ s, ¬ Kana c) : ∀ c ∈ s, JapanesePunct c ∧ c ≠ '　' := by
  obtain ⟨e, he, hek⟩ := hk
  obtain ⟨d, hd, hd'⟩ := hn
  have t2 := (C47_detailed d k).1 (ht d hd)
  rcases kana_type hek ((C47_detailed e k).1 (ht e he)) with rfl | rfl | rfl
  · exact absurd (hiragana_kana t2) hd'
  · exact absurd (katakana_kana t2) hd'
  · exact fun c hc => (C47_detailed c .JaPunc).1 (ht c hc)

theorem japanesePunct_japanese {c : Char} (h : JapanesePunct c) : Japanese c := by
  unfold_scripts at *; omega

/-- Trimming the end leaves nothing exactly of punctuation ending in ー or ・ (with other
punctuation before it, and no full width space). -/
theorem C62_empty_end (s : Str) : trim_okurigana_with_opt s false none = .ok [] ↔
    s = [] ∨ ((∀ c ∈ s, JapanesePunct c ∧ c ≠ '　') ∧ (∃ c, s.getLast? = some c ∧ Kana c)
      ∧ ∃ c ∈ s, ¬ Kana c) := by
  constructor
  · intro h
    by_cases hu : Unsuitable s false none
    · rw [trim_unsuitable hu] at h; exact Or.inl (Except.ok.inj h)
    · obtain ⟨hj, hk, hn⟩ := Classical.not_not.1 fun e => hu ((unsuitable_end_iff s).2 e)
      have hne : s ≠ [] := by
        obtain ⟨c, hc, -⟩ := hk
        rintro rfl; simp at hc
      rw [C52_end s hne hj hk hn] at h
      have h' := Except.ok.inj h
      have tok := C46_maximal_runs s false
      have hdn : tokenize_detailed s false ≠ [] := by
        intro e
        have := tok.concat
        rw [e] at this
        exact hne this.symm
      have hcat := tok.concat
      rw [← List.dropLast_concat_getLast hdn] at hcat
      rw [(C45_same s false).1, ← List.map_dropLast] at h'
      simp only [List.map_append, List.flatten_append, List.map_cons, List.map_nil,
        List.flatten_cons, List.flatten_nil, List.append_nil, h', List.nil_append] at hcat
      refine Or.inr ⟨one_token_punct (k := ((tokenize_detailed s false).getLast hdn).1) ?_ ?_ hn,
        hk, hn⟩
      · intro c hc
        exact tok.typed _ (List.getLast_mem hdn) c (by rw [hcat]; exact hc)
      · obtain ⟨c, hc, hc'⟩ := hk
        exact ⟨c, List.mem_of_getLast? hc, hc'⟩
  · rintro (rfl | ⟨hp, hk, hn⟩)
    · decide
    · have hne : s ≠ [] := by
        obtain ⟨c, hc, -⟩ := hk
        rintro rfl; simp at hc
      rw [C52_end s hne (fun c hc => japanesePunct_japanese (hp c hc).1) hk hn,
        punct_one_token hne hp]
      rfl

/-- Trimming the start leaves nothing exactly of punctuation starting with ー or ・. -/
theorem C62_empty_start (s : Str) : trim_okurigana_with_opt s true none = .ok [] ↔
    s = [] ∨ ((∀ c ∈ s, JapanesePunct c ∧ c ≠ '　') ∧ (∃ c, s.head? = some c ∧ Kana c)
      ∧ ∃ c ∈ s, ¬ Kana c) := by
  constructor
  · intro h
    by_cases hu : Unsuitable s true none
    · rw [trim_unsuitable hu] at h; exact Or.inl (Except.ok.inj h)
    · obtain ⟨hj, hk, hn⟩ := Classical.not_not.1 fun e => hu ((unsuitable_start_iff s).2 e)
      have hne : s ≠ [] := by
        obtain ⟨c, hc, -⟩ := hk
        rintro rfl; simp at hc
      rw [C52_start s hne hj hk hn] at h
      have h' := Except.ok.inj h
      have tok := C46_maximal_runs s false
      rw [(C45_same s false).1] at h'
      cases hD : tokenize_detailed s false with
      | nil =>
        have := tok.concat
        rw [hD] at this
        exact absurd this.symm hne
      | cons a L =>
        have hcat := tok.concat
        rw [hD] at hcat h'
        simp only [List.map_cons, List.tail_cons] at h'
        simp only [List.map_cons, List.flatten_cons, h', List.append_nil] at hcat
        refine Or.inr ⟨one_token_punct (k := a.1) ?_ ?_ hn, hk, hn⟩
        · intro c hc
          exact tok.typed a (by rw [hD]; simp) c (by rw [hcat]; exact hc)
        · obtain ⟨c, hc, hc'⟩ := hk
          exact ⟨c, List.mem_of_head? hc, hc'⟩
  · rintro (rfl | ⟨hp, hk, hn⟩)
    · decide
    · have hne : s ≠ [] := by
        obtain ⟨c, hc, -⟩ := hk
        rintro rfl; simp at hc
      rw [C52_start s hne (fun c hc => japanesePunct_japanese (hp c hc).1) hk hn,
        punct_one_token hne hp]
      rfl

/-- With a matcher, nothing is left exactly if the text is a repetition of the token taken off. -/
theorem C62_empty_matcher (input m t : Str) (hj : ∀ c ∈ input, Japanese c)
    (hk : ∃ c, input.getLast? = some c ∧ Kana c) (hm : ∃ c ∈ m, ¬ Kanji c)
    (ht : (tokenize m).getLast? = some t) :
    trim_okurigana_with_opt input false (some m) = .ok [] ↔
      ∃ n, input = (List.replicate n t).flatten := by
  obtain ⟨t', r, n, h1, h2, h3, h4, h5⟩ := C61_end input m hj hk hm
  rw [ht] at h1
  cases h1
  constructor
  · intro h
    rw [h3] at h
    cases h
    exact ⟨n, h4⟩
  · rintro ⟨k, hk'⟩
    exact C61_end_unique input m [] t k hj hk hm ht hk' (by simpa using h2)

theorem C62_empty_matcher_start (input m t : Str) (hj : ∀ c ∈ input, Japanese c)
    (hk : ∃ c, input.head? = some c ∧ Kana c) (hm : ∃ c ∈ m, ¬ Kanji c)
    (ht : (tokenize m).head? = some t) :
    trim_okurigana_with_opt input true (some m) = .ok [] ↔
      ∃ n, input = (List.replicate n t).flatten := by
  obtain ⟨t', r, n, h1, h2, h3, h4, h5⟩ := C61_start input m hj hk hm
  rw [ht] at h1
  cases h1
  constructor
  · intro h
    rw [h3] at h
    cases h
    exact ⟨n, by simpa using h4⟩
  · rintro ⟨k, hk'⟩
    exact C61_start_unique input m [] t k hj hk hm ht (by simpa using hk') (by simpa using h2)

example : TrimsEnd ['食', 'べ', 'タ'] ∧
    trim_okurigana_with_opt ['食', 'べ', 'タ'] false none = .ok ['食', 'べ'] ∧
    trim_okurigana_with_opt ['食', 'べ'] false none = .ok ['食'] ∧
    trim_okurigana_with_opt ['。', 'ー'] false none = .ok [] ∧
    trim_okurigana_with_opt ['　', 'ー'] false none = .ok ['　'] := by
  refine ⟨⟨by decide, ⟨'タ', rfl, by decide⟩, '食', by decide, by decide⟩, ?_⟩
  decide

end WanaKana
