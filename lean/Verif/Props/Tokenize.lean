import Verif.Proofs.Tokens
import Verif.Proofs.Chars
/-! # C45–C49: tokenize -/

namespace WanaKana
open Spec

/-! ## C45 -/

theorem C45_concat (s : Str) (compact : Bool) :
    (tokenize_with_opt s compact).flatten = s ∧ (tokenize s).flatten = s ∧
    ((tokenize_detailed s compact).map fun t => t.2).flatten = s :=
  ⟨(group_by_isTokenization _ s).concat, (group_by_isTokenization _ s).concat,
    (group_by_isTokenization _ s).concat⟩

theorem C45_nonempty (s : Str) (compact : Bool) :
    (∀ t ∈ tokenize_with_opt s compact, t ≠ []) ∧
    (∀ t ∈ tokenize_detailed s compact, t.2 ≠ []) := by
  have h := (group_by_isTokenization (fun elt => get_type elt compact) s).nonempty
  refine ⟨fun t ht => ?_, h⟩
  simp only [tokenize_with_opt, List.mem_map] at ht
  obtain ⟨p, hp, rfl⟩ := ht
  exact h p hp

theorem C45_same (s : Str) (compact : Bool) :
    tokenize s = (tokenize_detailed s false).map (fun t => t.2) ∧
    tokenize_with_opt s compact = (tokenize_detailed s compact).map (fun t => t.2) :=
  ⟨rfl, rfl⟩

/-- the empty text, and only it, has no tokens -/
theorem C45_empty (s : Str) (compact : Bool) : tokenize_with_opt s compact = [] ↔ s = [] := by
  constructor
  · intro h
    have := (C45_concat s compact).1
    rw [h] at this
    exact this.symm
  · rintro rfl; rfl

example : tokenize ['感', 'じ', 'a', '1'] = [['感'], ['じ'], ['a'], ['1']] := by decide

/-! ## C46 -/

/-- `tokenize_detailed` is a list of typed non-empty maximal runs concatenating to the input … -/
theorem C46_maximal_runs (s : Str) (compact : Bool) :
    IsTokenization (fun c => get_type c compact) s (tokenize_detailed s compact) :=
  group_by_isTokenization _ s

/-- … and the only such list. -/
theorem C46_unique (s : Str) (compact : Bool) (L : List (TokenType × Str))
    (h : IsTokenization (fun c => get_type c compact) s L) : L = tokenize_detailed s compact :=
  isTokenization_unique _ h

example : IsTokenization (fun c => get_type c true) ['a', ' ', 'b', '1']
    [(.En, ['a', ' ', 'b']), (.Other, ['1'])] :=
  ⟨rfl, by decide, by decide, by simp [AdjacentDiffer]⟩

/-! ## C47 -/

/-- The meaning of the detailed types, from `TokenType`'s documentation. -/
def Means (c : Char) : TokenType → Prop
  | .Space => c = ' ' ∨ c = '　'
  | .JaNum => ZenkakuDigit c
  | .EnNum => LatinDigit c
  | .EnPunc => EnglishPunct c ∧ c ≠ ' '
  | .JaPunc => JapanesePunct c ∧ c ≠ '　'
  | .Kanji => Kanji c
  | .Hiragana => HiraganaLetter c
  | .Katakana => KatakanaLetter c
  | .Ja => Japanese c ∧ ¬ ZenkakuDigit c ∧ ¬ JapanesePunct c ∧ ¬ Kanji c ∧ ¬ HiraganaLetter c
      ∧ ¬ KatakanaLetter c
  | .En => Romaji c ∧ ¬ LatinDigit c ∧ ¬ EnglishPunct c
  | .Other => ¬ Japanese c ∧ ¬ Romaji c ∧ ¬ EnglishPunct c

/-- every definition of a script as linear constraints on the code point -/
macro "unfold_scripts" loc:(Lean.Parser.Tactic.location)? : tactic =>
  `(tactic| simp only [Means, Spec.ZenkakuDigit, Spec.LatinDigit, Spec.EnglishPunct,
      Spec.JapanesePunct, Spec.Kanji, Spec.HiraganaLetter, Spec.KatakanaLetter, Spec.Japanese,
      Spec.Romaji, Spec.Macron, Spec.Ascii, Spec.In, List.mem_cons, List.not_mem_nil, or_false,
      char_eq_iff, Char.reduceToNat, ne_eq] $[$loc]?)

theorem C47_detailed_holds (c : Char) : Means c (get_type c false) := by
  simp only [get_type, is_char_kanji_iff, is_char_hiragana_iff,
    is_char_katakana_iff, is_char_japanese_iff, is_char_romaji_iff, is_char_japanese_number_iff,
    is_char_latin_number_iff, is_char_english_punctuation_iff, is_char_japanese_punctuation_iff,
    Bool.false_eq_true, if_false]
  split; · exact Or.inl ‹_›
  split; · exact Or.inr ‹_›
  split; · assumption
  split; · assumption
  split; · exact ⟨‹_›, ‹_›⟩
  split; · exact ⟨‹_›, ‹_›⟩
  split; · assumption
  split
  · unfold_scripts at *; omega
  split
  · unfold_scripts at *; omega
  split
  · unfold_scripts at *; omega
  split
  · unfold_scripts at *; omega
  · exact ⟨‹_›, ‹_›, ‹_›⟩

/-- the types exclude each other … -/
theorem means_unique (c : Char) (t u : TokenType) (ht : Means c t) (hu : Means c u) : t = u := by
  cases t <;> cases u <;> first
    | rfl
    | (exfalso; unfold_scripts at ht hu; omega)

/-- … so each detailed type is assigned to exactly the characters described. -/
theorem C47_detailed (c : Char) (t : TokenType) : get_type c false = t ↔ Means c t :=
  ⟨fun h => h ▸ C47_detailed_holds c, fun h => means_unique c _ _ (C47_detailed_holds c) h⟩

/-- The meaning of the compact types. -/
theorem C47_compact (c : Char) :
    (get_type c true = .En ↔ c = ' ' ∨ (Romaji c ∧ ¬ LatinDigit c ∧ ¬ EnglishPunct c)) ∧
    (get_type c true = .Ja ↔ c = '　' ∨ (Japanese c ∧ ¬ ZenkakuDigit c ∧ ¬ JapanesePunct c)) ∧
    (get_type c true = .Other ↔ ¬ (c = ' ' ∨ (Romaji c ∧ ¬ LatinDigit c ∧ ¬ EnglishPunct c)) ∧
      ¬ (c = '　' ∨ (Japanese c ∧ ¬ ZenkakuDigit c ∧ ¬ JapanesePunct c))) := by
  simp only [get_type, is_char_japanese_iff, is_char_romaji_iff, is_char_japanese_number_iff,
    is_char_latin_number_iff, is_char_english_punctuation_iff, is_char_japanese_punctuation_iff,
    Bool.or_eq_true, if_true]
  split
  · simp only [true_iff, reduceCtorEq, false_iff]
    unfold_scripts at *; omega
  split
  · simp only [true_iff, reduceCtorEq, false_iff]
    unfold_scripts at *; omega
  split
  · simp only [true_iff, reduceCtorEq, false_iff]
    unfold_scripts at *; omega
  split
  · simp only [true_iff, reduceCtorEq, false_iff]
    unfold_scripts at *; omega
  split
  · simp only [true_iff, reduceCtorEq, false_iff]
    unfold_scripts at *; omega
  · simp only [true_iff, reduceCtorEq, false_iff]
    unfold_scripts at *; omega

/-- compact mode reports only `En`, `Ja` and `Other`, also on whole texts -/
theorem C47_compact_range (s : Str) : ∀ t ∈ tokenize_detailed s true,
    t.1 = .En ∨ t.1 = .Ja ∨ t.1 = .Other := by
  intro t ht
  have h := group_by_isTokenization (fun c => get_type c true) s
  obtain ⟨c, hc⟩ := List.exists_mem_of_ne_nil t.2 (h.nonempty t ht)
  rw [← h.typed t ht c hc]
  obtain ⟨h1, h2, h3⟩ := C47_compact c
  by_cases e1 : get_type c true = .En
  · exact Or.inl e1
  by_cases e2 : get_type c true = .Ja
  · exact Or.inr (Or.inl e2)
  · exact Or.inr (Or.inr (h3.2 ⟨fun h => e1 (h1.2 h), fun h => e2 (h2.2 h)⟩))

example : get_type 'ー' false = .JaPunc ∧ get_type 'ゟ' false = .Ja ∧ get_type 'Ж' false = .Other
    ∧ get_type 'ﾋ' true = .Ja := by decide

/-! ## C48 -/

theorem C48_split_iff (a b : Str) (compact : Bool) :
    tokenize_with_opt (a ++ b) compact = tokenize_with_opt a compact ++ tokenize_with_opt b compact
      ↔ ∀ c d, a.getLast? = some c → b.head? = some d → get_type c compact ≠ get_type d compact := by
  constructor
  · intro h c d hc hd heq
    -- the last token of `a` and the first token of `b` would be adjacent
    cases b with
    | nil => cases hd
    | cons e bs =>
      simp only [List.head?_cons, Option.some.injEq] at hd
      subst hd
      have hlen : (group_by (fun c => get_type c compact) (a ++ e :: bs)).length =
          (group_by (fun c => get_type c compact) a).length
            + (group_by (fun c => get_type c compact) (e :: bs)).length := by
        have := congrArg List.length h
        simpa [tokenize_with_opt] using this
      -- count tokens
      clear h
      have key : ∀ a : Str, a.getLast? = some c →
          (group_by (fun c => get_type c compact) (a ++ e :: bs)).length + 1 =
          (group_by (fun c => get_type c compact) a).length
            + (group_by (fun c => get_type c compact) (e :: bs)).length := by
        intro a
        induction a with
        | nil => intro h; cases h
        | cons x xs ih =>
          intro hx
          cases xs with
          | nil =>
            simp only [List.getLast?_singleton, Option.some.injEq] at hx
            subst hx
            obtain ⟨g, r, hg⟩ := group_by_head (fun c => get_type c compact) (c := e) (s := bs)
            rw [List.singleton_append, group_by_cons, hg]
            simp [consToken, heq, group_by, groupLoop]
            omega
          | cons y ys =>
            have ih' := ih (by simpa using hx)
            obtain ⟨g, r, hg⟩ := group_by_head (fun c => get_type c compact) (c := y) (s := ys)
            obtain ⟨g', r', hg'⟩ := group_by_head (fun c => get_type c compact) (c := y)
              (s := ys ++ e :: bs)
            rw [List.cons_append, hg, hg'] at ih'
            rw [List.cons_append, List.cons_append, group_by_cons, hg', group_by_cons _ x, hg]
            simp only [consToken]
            simp only [List.length_cons] at ih'
            split <;> simp only [List.length_cons] <;> omega
      have := key a hc
      omega
  · intro h
    cases b with
    | nil => simp [tokenize_with_opt, group_by_nil]
    | cons d ds =>
      have := group_by_append_cons (fun c => get_type c compact) a d ds
        (fun c hc => h c d hc rfl)
      simp [tokenize_with_opt, this]

example : tokenize (['感', 'じ'] ++ ['a']) = tokenize ['感', 'じ'] ++ tokenize ['a']
    ∧ tokenize (['a'] ++ ['a']) ≠ tokenize ['a'] ++ tokenize ['a'] := by decide

/-! ## C49 -/

/-- Full statement: every compact token is a concatenation of consecutive detailed tokens. -/
def C49_statement (s : Str) : Prop :=
  ∃ LL : List (List Str), LL.flatten = tokenize s ∧ (∀ L ∈ LL, L ≠ []) ∧
    LL.map List.flatten = tokenize_with_opt s true

/-- The compact type is a function of the detailed type, if `　` does not occur. -/
def coarseType : TokenType → TokenType
  | .Space | .En => .En
  | .Kanji | .Hiragana | .Katakana | .Ja => .Ja
  | _ => .Other

theorem coarse_eq (c : Char) (h : c ≠ '　') : get_type c true = coarseType (get_type c false) := by
  have hd := C47_detailed_holds c
  obtain ⟨h1, h2, h3⟩ := C47_compact c
  revert hd
  cases hg : get_type c false <;> intro hd <;> simp only [coarseType]
  · exact h1.2 (Or.inr hd)
  · exact h2.2 (Or.inr ⟨hd.1, hd.2.1, hd.2.2.1⟩)
  · refine h3.2 ?_; unfold_scripts at *; omega
  · refine h3.2 ?_; unfold_scripts at *; omega
  · refine h3.2 ?_; unfold_scripts at *; omega
  · refine h3.2 ?_; unfold_scripts at *; omega
  · refine h2.2 ?_; unfold_scripts at *; omega
  · refine h2.2 ?_; unfold_scripts at *; omega
  · refine h2.2 ?_; unfold_scripts at *; omega
  · refine h1.2 ?_; unfold_scripts at *; omega
  · refine h3.2 ?_; unfold_scripts at *; omega

/-- Proved for texts without the ideographic space U+3000; see `C49_false` for why that is
needed. -/
theorem C49_compact_combines_partial (s : Str) (h : '　' ∉ s) : C49_statement s := by
  obtain ⟨LL, h1, h2, _, h3⟩ := group_by_coarse (fun c => get_type c false)
    (fun c => get_type c true) coarseType s fun c hc => coarse_eq c fun e => h (e ▸ hc)
  refine ⟨LL.map fun L => L.map fun t => t.2, ?_, ?_, ?_⟩
  · rw [← List.map_flatten, h1]; rfl
  · intro L hL
    obtain ⟨L', hL', rfl⟩ := List.mem_map.1 hL
    simp [h2 L' hL']
  · rw [List.map_map]; exact h3

theorem C49_fewer_partial (s : Str) (h : '　' ∉ s) :
    (tokenize_with_opt s true).length ≤ (tokenize s).length := by
  obtain ⟨LL, h1, h2, h3⟩ := C49_compact_combines_partial s h
  rw [← h1, ← h3, List.length_map]
  clear h1 h3 h
  induction LL with
  | nil => simp
  | cons L LL ih =>
    have hL : 0 < L.length := List.length_pos_iff.2 (h2 L List.mem_cons_self)
    have := ih fun L hL => h2 L (List.mem_cons_of_mem _ hL)
    simp only [List.length_cons, List.flatten_cons, List.length_append]
    omega

/-- " 　" is one detailed token (`Space`) but two compact tokens (`En`, `Ja`). -/
theorem C49_false : ¬ ∀ s, C49_statement s := by
  intro h
  obtain ⟨LL, h1, h2, h3⟩ := h [' ', '　']
  have e1 : tokenize [' ', '　'] = [[' ', '　']] := by decide
  have e2 : tokenize_with_opt [' ', '　'] true = [[' '], ['　']] := by decide
  rw [e1] at h1
  rw [e2] at h3
  have hl := congrArg List.length h3
  simp only [List.length_map, List.length_cons, List.length_nil] at hl
  obtain ⟨A, B, rfl⟩ := List.length_eq_two.1 hl
  have ha : 0 < A.length := List.length_pos_iff.2 (h2 A (by simp))
  have hb : 0 < B.length := List.length_pos_iff.2 (h2 B (by simp))
  have := congrArg List.length h1
  simp at this
  omega

example : '　' ∉ ['漢', 'じ', ' ', 'a', '1', '。']
    ∧ tokenize_with_opt ['漢', 'じ', ' ', 'a', '1', '。'] true
        = [['漢', 'じ'], [' ', 'a'], ['1', '。']] := by decide

end WanaKana
