import Verif.Model.Trim
import Verif.Props.Tokenize
import Verif.Props.Predicates
/-! # C50–C53: trim_okurigana -/

namespace WanaKana
open Spec

/-! ### helper lemmas -/

/-- the guard of `trim_okurigana_with_opt`, in words -/
def Unsuitable (input : Str) (trim_from_start : Bool) (matcher : Option Str) : Prop :=
  input = [] ∨ (∃ c ∈ input, ¬ Japanese c)
  ∨ (trim_from_start = true ∧ ∃ c, input.head? = some c ∧ ¬ Kana c)
  ∨ (trim_from_start = false ∧ ∃ c, input.getLast? = some c ∧ ¬ Kana c)
  ∨ (matcher = none ∧ ∀ c ∈ input, Kana c)
  ∨ (∃ m, matcher = some m ∧ ∀ c ∈ m, Kanji c)

/-- the tokens looked at: those of the matcher if there is one, else those of the input -/
def tokenSource (input : Str) (matcher : Option Str) : Str := matcher.getD input

theorem kana_bool {c : Char} : is_char_kana c = true ↔ Kana c := by
  rw [is_char_kana_iff, specKana_iff]

theorem kanji_bool {c : Char} : is_char_kanji c = true ↔ Kanji c := is_char_kanji_iff

theorem is_kana_false {input : Str} (hk : ¬ ∀ c ∈ input, Kana c) :
    is_kana input = false := by
  rw [← Bool.not_eq_true, C01_is_kana]
  exact fun e => hk e.2

theorem trim_unsuitable {input : Str} {b : Bool} {m : Option Str} (h : Unsuitable input b m) :
    trim_okurigana_with_opt input b m = .ok input := by
  unfold trim_okurigana_with_opt trimGuard
  by_cases hj : is_japanese input = true
  swap
  · simp [Bool.eq_false_iff.2 hj]; rfl
  have hne : input ≠ [] := ((C01_is_japanese input).1 hj).1
  obtain ⟨x, xs, rfl⟩ := List.exists_cons_of_ne_nil hne
  obtain ⟨l, hl⟩ : ∃ l, (x :: xs).getLast? = some l := ⟨_, List.getLast?_eq_some_getLast hne⟩
  have hall : ∀ c ∈ x :: xs, Japanese c := ((C01_is_japanese _).1 hj).2
  simp only [hj, Bool.not_true, Bool.false_eq_true, if_false, is_leading_without_initial_kana,
    is_trailing_without_final_kana, List.isEmpty_cons, List.head?_cons, hl, unwrap]
  rcases h with h | h | h | h | h | h
  · exact absurd h hne
  · obtain ⟨c, hc, h⟩ := h; exact absurd (hall c hc) h
  · obtain ⟨rfl, c, hc, h⟩ := h
    simp only [List.head?_cons, Option.some.injEq] at hc
    subst hc
    have : is_char_kana x = false := by rw [← Bool.not_eq_true, kana_bool]; exact h
    simp [this, bind, Except.bind]
  · obtain ⟨rfl, c, hc, h⟩ := h
    rw [hl, Option.some.injEq] at hc
    subst hc
    have : is_char_kana l = false := by rw [← Bool.not_eq_true, kana_bool]; exact h
    simp [this, bind, Except.bind]
  · obtain ⟨rfl, h⟩ := h
    have hx : is_kana (x :: xs) = true := (C01_is_kana _).2 ⟨hne, h⟩
    have h1 : is_char_kana x = true := kana_bool.2 (h x List.mem_cons_self)
    have h2 : is_char_kana l = true := kana_bool.2 (h l (List.mem_of_getLast? hl))
    cases b <;> simp [h1, h2, hx, bind, Except.bind, is_invalid_matcher]
  · obtain ⟨m, rfl, h⟩ := h
    have hx : m.all is_char_kanji = true := by
      rw [List.all_eq_true]; exact fun c hc => kanji_bool.2 (h c hc)
    cases b
    · by_cases h2 : is_char_kana l = true
      · simp [h2, bind, Except.bind, is_invalid_matcher, hx]
      · simp [Bool.eq_false_iff.2 h2, bind, Except.bind]
    · by_cases h2 : is_char_kana x = true
      · simp [h2, bind, Except.bind, is_invalid_matcher, hx]
      · simp [Bool.eq_false_iff.2 h2, bind, Except.bind]

theorem trim_suitable {input : Str} {b : Bool} {m : Option Str} (h : ¬ Unsuitable input b m) :
    ∃ x xs, tokenize (tokenSource input m) = x :: xs ∧
      trim_okurigana_with_opt input b m =
        .ok (if b then trim_start_matches input x
          else trim_end_matches input ((x :: xs).getLast (by simp))) := by
  simp only [Unsuitable, not_or, not_exists, not_and, Classical.not_not, Classical.not_forall] at h
  obtain ⟨hne, hj, hs, he, hn, hm⟩ := h
  have hj' : is_japanese input = true := (C01_is_japanese _).2 ⟨hne, fun c hc => hj c hc⟩
  have hsrc : tokenSource input m ≠ [] := by
    cases m with
    | none => exact hne
    | some m =>
      rintro rfl
      obtain ⟨c, hc, -⟩ := hm [] rfl
      simp at hc
  have htok : tokenize (tokenSource input m) ≠ [] := by
    rw [tokenize, ne_eq, C45_empty]; exact hsrc
  obtain ⟨x, xs, hx⟩ := List.exists_cons_of_ne_nil htok
  refine ⟨x, xs, hx, ?_⟩
  have htok' : trimTokens input m = x :: xs := by
    rw [← hx]; cases m <;> rfl
  have hinv : is_invalid_matcher input m = false := by
    cases m with
    | none =>
      refine is_kana_false ?_
      intro h
      obtain ⟨c, hc, h'⟩ := hn rfl
      exact h' (h c hc)
    | some m =>
      obtain ⟨c, hc, h'⟩ := hm m rfl
      rw [is_invalid_matcher, ← Bool.not_eq_true, List.all_eq_true]
      exact fun e => h' (kanji_bool.1 (e c hc))
  unfold trim_okurigana_with_opt trimGuard
  obtain ⟨y, ys, rfl⟩ := List.exists_cons_of_ne_nil hne
  obtain ⟨l, hl⟩ : ∃ l, (y :: ys).getLast? = some l := ⟨_, List.getLast?_eq_some_getLast hne⟩
  simp only [hj', Bool.not_true, Bool.false_eq_true, if_false, is_leading_without_initial_kana,
    is_trailing_without_final_kana, List.isEmpty_cons, List.head?_cons, hl, unwrap]
  cases b
  · have h2 : is_char_kana l = true := kana_bool.2 (he rfl l hl)
    simp [h2, hinv, htok', bind, Except.bind, List.getLast?_eq_some_getLast]
  · have h2 : is_char_kana y = true := kana_bool.2 (hs rfl y rfl)
    simp [h2, hinv, htok', bind, Except.bind, index, unwrap]

theorem trimEndLoop_spec (t : Str) : ∀ (fuel : Nat) (s : Str),
    ∃ n, s = trimEndLoop t fuel s ++ (List.replicate n t).flatten := by
  intro fuel
  induction fuel with
  | zero => intro s; exact ⟨0, by simp [trimEndLoop]⟩
  | succ k ih =>
    intro s
    simp only [trimEndLoop]
    split
    · next h =>
      obtain ⟨-, p, rfl⟩ := h
      have e : (p ++ t).take ((p ++ t).length - t.length) = p := by simp
      rw [e]
      obtain ⟨n, hn⟩ := ih p
      refine ⟨n + 1, ?_⟩
      rw [List.replicate_succ', List.flatten_append, ← List.append_assoc, ← hn]
      simp
    · exact ⟨0, by simp⟩

theorem trimStartLoop_spec (t : Str) : ∀ (fuel : Nat) (s : Str),
    ∃ n, s = (List.replicate n t).flatten ++ trimStartLoop t fuel s := by
  intro fuel
  induction fuel with
  | zero => intro s; exact ⟨0, by simp [trimStartLoop]⟩
  | succ k ih =>
    intro s
    simp only [trimStartLoop]
    split
    · next h =>
      obtain ⟨-, p, rfl⟩ := h
      simp only [List.drop_left']
      obtain ⟨n, hn⟩ := ih p
      refine ⟨n + 1, ?_⟩
      rw [List.replicate_succ, List.flatten_cons, List.append_assoc, ← hn]
    · exact ⟨0, by simp⟩

/-! ## C50 -/

theorem C50_end (input : Str) (m : Option Str) :
    ∃ r n t, trim_okurigana_with_opt input false m = .ok r ∧
      input = r ++ (List.replicate n t).flatten ∧ (n = 0 ∨ t ∈ tokenize (tokenSource input m)) := by
  by_cases h : Unsuitable input false m
  · exact ⟨input, 0, [], trim_unsuitable h, by simp, Or.inl rfl⟩
  · obtain ⟨x, xs, h1, h2⟩ := trim_suitable h
    obtain ⟨n, hn⟩ := trimEndLoop_spec ((x :: xs).getLast (by simp)) input.length input
    exact ⟨_, n, _, h2, hn, Or.inr (by rw [h1]; exact List.getLast_mem _)⟩

theorem C50_start (input : Str) (m : Option Str) :
    ∃ r n t, trim_okurigana_with_opt input true m = .ok r ∧
      input = (List.replicate n t).flatten ++ r ∧ (n = 0 ∨ t ∈ tokenize (tokenSource input m)) := by
  by_cases h : Unsuitable input true m
  · exact ⟨input, 0, [], trim_unsuitable h, by simp, Or.inl rfl⟩
  · obtain ⟨x, xs, h1, h2⟩ := trim_suitable h
    obtain ⟨n, hn⟩ := trimStartLoop_spec x input.length input
    exact ⟨_, n, _, h2, hn, Or.inr (h1 ▸ List.mem_cons_self)⟩

/-- in particular: total, and a prefix / suffix -/
theorem C50_prefix_suffix (input : Str) (b : Bool) (m : Option Str) :
    ∃ r, trim_okurigana_with_opt input b m = .ok r ∧
      (b = false → r <+: input) ∧ (b = true → r <:+ input) := by
  cases b
  · obtain ⟨r, n, t, h, e, -⟩ := C50_end input m
    exact ⟨r, h, fun _ => ⟨_, e.symm⟩, by simp⟩
  · obtain ⟨r, n, t, h, e, -⟩ := C50_start input m
    exact ⟨r, h, by simp, fun _ => ⟨_, e.symm⟩⟩

example : trim_okurigana_with_opt ['ふ', 'む', 'む'] false (some ['踏', 'む']) = .ok ['ふ'] := by decide

/-! ## C51 -/

theorem C51_unchanged (input : Str) (b : Bool) (m : Option Str)
    (h : input = [] ∨ (∃ c ∈ input, ¬ Japanese c)
      ∨ (b = true ∧ ∃ c, input.head? = some c ∧ ¬ Kana c)
      ∨ (b = false ∧ ∃ c, input.getLast? = some c ∧ ¬ Kana c)
      ∨ (m = none ∧ ∀ c ∈ input, Kana c)
      ∨ m = some [] ∨ (∃ k, m = some k ∧ ∀ c ∈ k, Kanji c)) :
    trim_okurigana_with_opt input b m = .ok input := by
  refine trim_unsuitable ?_
  rcases h with h | h | h | h | h | h | h
  · exact Or.inl h
  · exact Or.inr (Or.inl h)
  · exact Or.inr (Or.inr (Or.inl h))
  · exact Or.inr (Or.inr (Or.inr (Or.inl h)))
  · exact Or.inr (Or.inr (Or.inr (Or.inr (Or.inl h))))
  · exact Or.inr (Or.inr (Or.inr (Or.inr (Or.inr ⟨[], h, by simp⟩))))
  · exact Or.inr (Or.inr (Or.inr (Or.inr (Or.inr h))))

example : trim_okurigana ['お', '腹'] = .ok ['お', '腹'] ∧ trim_okurigana ['お', 'な'] = .ok ['お', 'な']
    ∧ trim_okurigana ['踏', 'む', 'a'] = .ok ['踏', 'む', 'a'] := by decide

/-! ## C52 -/

/-- a list of tokens split before its last element -/
theorem tokens_dropLast {input : Str} {x : Str} {xs : List Str} (h : tokenize input = x :: xs) :
    input = (x :: xs).dropLast.flatten ++ (x :: xs).getLast (by simp) := by
  have e := (C45_concat input false).2.1
  rw [h] at e
  rw [← e]
  conv => lhs; rw [← List.dropLast_concat_getLast (l := x :: xs) (by simp)]
  simp

theorem adjacentDiffer_append {κ : Type} : ∀ (L : List (κ × Str)) (a b : κ × Str),
    AdjacentDiffer (L ++ [a, b]) → a.1 ≠ b.1 := by
  intro L
  induction L with
  | nil => intro a b h; exact h.1
  | cons y L ih =>
    intro a b h
    exact ih a b (adjacentDiffer_tail (a := y) (L := L ++ [a, b]) h)

/-- the tokens of `A ++ [t]` and the one before: no character of the last token is the last
character of the text before it -/
theorem last_differs {input p t : Str} (h : tokenize_detailed input false ≠ [])
    (hp : p = ((tokenize_detailed input false).dropLast.map fun t => t.2).flatten)
    (ht : t = ((tokenize_detailed input false).getLast h).2) : ¬ t <:+ p := by
  have tok := C46_maximal_runs input false
  have hL := List.dropLast_concat_getLast h
  rintro ⟨q, hq⟩
  have htm : (tokenize_detailed input false).getLast h ∈ tokenize_detailed input false :=
    List.getLast_mem h
  have htne : t ≠ [] := ht ▸ tok.nonempty _ htm
  rcases List.eq_nil_or_concat (tokenize_detailed input false).dropLast with hn | ⟨M, a, hM⟩
  · rw [hn] at hp
    rw [hp] at hq
    simp at hq
    exact htne hq.2
  · rw [List.concat_eq_append] at hM
    have hd : a.1 ≠ ((tokenize_detailed input false).getLast h).1 := by
      have := tok.maximal
      rw [← hL, hM, List.append_assoc] at this
      exact adjacentDiffer_append M a _ this
    have ham : a ∈ tokenize_detailed input false := by
      apply (List.dropLast_sublist _).subset
      rw [hM]; simp
    have hane := tok.nonempty a ham
    rw [hM] at hp
    simp only [List.map_append, List.map_cons, List.map_nil, List.flatten_append,
      List.flatten_cons, List.flatten_nil, List.append_nil] at hp
    have h1 : p.getLast? = some (a.2.getLast hane) := by
      rw [hp, List.getLast?_append_of_ne_nil _ hane, List.getLast?_eq_some_getLast hane]
    have h2 : p.getLast? = some (t.getLast htne) := by
      rw [← hq, List.getLast?_append_of_ne_nil _ htne, List.getLast?_eq_some_getLast htne]
    have h3 : a.2.getLast hane = t.getLast htne := by
      rw [h1] at h2; exact Option.some.inj h2
    have t1 := tok.typed a ham _ (List.getLast_mem hane)
    have t2 := tok.typed _ htm (t.getLast htne) (by rw [← ht]; exact List.getLast_mem htne)
    rw [h3] at t1
    exact hd (t1.symm.trans t2)

theorem first_differs {input t : Str} {k : TokenType} {L : List (TokenType × Str)}
    (h : tokenize_detailed input false = (k, t) :: L) :
    ¬ t <+: (L.map fun t => t.2).flatten := by
  have tok := C46_maximal_runs input false
  rw [h] at tok
  rintro ⟨q, hq⟩
  have htne : t ≠ [] := tok.nonempty (k, t) List.mem_cons_self
  cases L with
  | nil => simp at hq; exact htne hq.1
  | cons a L =>
    obtain ⟨k', u⟩ := a
    have hd : k ≠ k' := tok.maximal.1
    have hune : u ≠ [] := tok.nonempty (k', u) (by simp)
    obtain ⟨c, t', rfl⟩ := List.exists_cons_of_ne_nil htne
    obtain ⟨d, u', rfl⟩ := List.exists_cons_of_ne_nil hune
    simp only [List.cons_append, List.map_cons, List.flatten_cons, List.cons.injEq] at hq
    have t1 := tok.typed (k, c :: t') List.mem_cons_self c List.mem_cons_self
    have t2 := tok.typed (k', d :: u') (by simp) d List.mem_cons_self
    rw [hq.1] at t1
    exact hd (t1.symm.trans t2)

theorem trimEnd_once {p t : Str} (ht : t ≠ []) (h : ¬ t <:+ p) : trim_end_matches (p ++ t) t = p := by
  unfold trim_end_matches
  obtain ⟨n, hn⟩ : ∃ n, (p ++ t).length = n + 1 := by
    cases t with
    | nil => exact absurd rfl ht
    | cons c t => exact ⟨p.length + t.length, by simp; omega⟩
  rw [hn, trimEndLoop, if_pos ⟨ht, ⟨p, rfl⟩⟩]
  have e : (p ++ t).take ((p ++ t).length - t.length) = p := by simp
  rw [e]
  cases n with
  | zero => rfl
  | succ n => rw [trimEndLoop, if_neg (fun e => h e.2)]

theorem trimStart_once {p t : Str} (ht : t ≠ []) (h : ¬ t <+: p) :
    trim_start_matches (t ++ p) t = p := by
  unfold trim_start_matches
  obtain ⟨n, hn⟩ : ∃ n, (t ++ p).length = n + 1 := by
    cases t with
    | nil => exact absurd rfl ht
    | cons c t => exact ⟨p.length + t.length, by simp; omega⟩
  rw [hn, trimStartLoop, if_pos ⟨ht, ⟨p, rfl⟩⟩]
  simp only [List.drop_left']
  cases n with
  | zero => rfl
  | succ n => rw [trimStartLoop, if_neg (fun e => h e.2)]

/-- Japanese text ending in kana that is not all kana: everything but the last token. -/
theorem C52_end (input : Str) (hne : input ≠ []) (hj : ∀ c ∈ input, Japanese c)
    (hk : ∃ c, input.getLast? = some c ∧ Kana c) (hn : ∃ c ∈ input, ¬ Kana c) :
    trim_okurigana_with_opt input false none = .ok (tokenize input).dropLast.flatten := by
  have hs : ¬ Unsuitable input false none := by
    obtain ⟨c, hc, hc'⟩ := hk
    obtain ⟨d, hd, hd'⟩ := hn
    rintro (h | ⟨x, hx, h⟩ | ⟨h, -⟩ | ⟨-, x, hx, h⟩ | ⟨-, h⟩ | ⟨x, h, -⟩)
    · exact hne h
    · exact h (hj x hx)
    · cases h
    · rw [hc] at hx; cases hx; exact h hc'
    · exact hd' (h d hd)
    · cases h
  obtain ⟨x, xs, h1, h2⟩ := trim_suitable hs
  have h1' : tokenize input = x :: xs := h1
  rw [h2, h1']
  simp only [Bool.false_eq_true, if_false]
  have hd : tokenize_detailed input false ≠ [] := by
    intro e
    have : tokenize input = [] := by
      rw [(C45_same input false).1, e]; rfl
    rw [this] at h1'; cases h1'
  have hmap : (x :: xs) = (tokenize_detailed input false).map fun t => t.2 := by
    rw [← h1', (C45_same input false).1]
  have hlast : (x :: xs).getLast (by simp) = ((tokenize_detailed input false).getLast hd).2 := by
    simp only [hmap, List.getLast_map]
  have hdrop : (x :: xs).dropLast = (tokenize_detailed input false).dropLast.map fun t => t.2 := by
    rw [hmap, List.map_dropLast]
  have e := tokens_dropLast h1'
  congr 1
  conv => lhs; rw [e]
  refine trimEnd_once ?_ ?_
  · rw [hlast]
    exact (C46_maximal_runs input false).nonempty _ (List.getLast_mem hd)
  · exact last_differs hd (by rw [hdrop]) hlast

/-- Trimming the start: everything but the first token. -/
theorem C52_start (input : Str) (hne : input ≠ []) (hj : ∀ c ∈ input, Japanese c)
    (hk : ∃ c, input.head? = some c ∧ Kana c) (hn : ∃ c ∈ input, ¬ Kana c) :
    trim_okurigana_with_opt input true none = .ok (tokenize input).tail.flatten := by
  have hs : ¬ Unsuitable input true none := by
    obtain ⟨c, hc, hc'⟩ := hk
    obtain ⟨d, hd, hd'⟩ := hn
    rintro (h | ⟨x, hx, h⟩ | ⟨-, x, hx, h⟩ | ⟨h, -⟩ | ⟨-, h⟩ | ⟨x, h, -⟩)
    · exact hne h
    · exact h (hj x hx)
    · rw [hc] at hx; cases hx; exact h hc'
    · cases h
    · exact hd' (h d hd)
    · cases h
  obtain ⟨x, xs, h1, h2⟩ := trim_suitable hs
  have h1' : tokenize input = x :: xs := h1
  rw [h2, h1']
  simp only [if_true, List.tail_cons]
  have hmap := (C45_same input false).1
  rw [h1'] at hmap
  cases hd : tokenize_detailed input false with
  | nil => rw [hd] at hmap; cases hmap
  | cons a L =>
    obtain ⟨k, t⟩ := a
    rw [hd] at hmap
    simp only [List.map_cons, List.cons.injEq] at hmap
    obtain ⟨rfl, rfl⟩ := hmap
    have e := (C45_concat input false).2.1
    rw [h1'] at e
    congr 1
    conv => lhs; rw [← e, List.flatten_cons]
    refine trimStart_once ?_ (first_differs hd)
    have := (C46_maximal_runs input false).nonempty (k, x) (by rw [hd]; simp)
    exact this

example : trim_okurigana ['踏', 'み', '込', 'む'] = .ok ['踏', 'み', '込']
    ∧ trim_okurigana_with_opt ['お', '腹'] true none = .ok ['腹'] := by decide

/-! ## C53 — false in general -/

/-- Full statements. -/
def C53_idempotent : Prop := ∀ (input : Str) (b : Bool) (m : Option Str) (r : Str),
  trim_okurigana_with_opt input b m = .ok r → trim_okurigana_with_opt r b m = .ok r
def C53_nonempty : Prop := ∀ (input : Str) (b : Bool) (m : Option Str) (r : Str),
  input ≠ [] → trim_okurigana_with_opt input b m = .ok r → r ≠ []

/-- "食べタ" loses タ first and then べ … -/
theorem C53_idempotent_false : ¬ C53_idempotent := by
  intro h
  exact absurd (h ['食', 'べ', 'タ'] false none ['食', 'べ'] (by decide)) (by decide)

/-- … "。ー" is a single punctuation token ending in "kana" and vanishes … -/
theorem C53_nonempty_false : ¬ C53_nonempty := by
  intro h
  exact absurd rfl (h ['。', 'ー'] false none [] (by decide) (by decide))

/-- … and a matcher can remove a whole word. -/
theorem C53_nonempty_matcher_false :
    trim_okurigana_with_opt ['む'] false (some ['踏', 'む']) = .ok [] := by decide

theorem trimEndLoop_not_suffix (t : Str) (ht : t ≠ []) : ∀ (fuel : Nat) (s : Str),
    s.length ≤ fuel → ¬ t <:+ trimEndLoop t fuel s := by
  intro fuel
  induction fuel with
  | zero =>
    intro s hs
    have : s = [] := List.length_eq_zero_iff.1 (by omega)
    subst this
    simpa [trimEndLoop] using ht
  | succ k ih =>
    intro s hs
    simp only [trimEndLoop]
    split
    · next h =>
      apply ih
      have h1 : 0 < t.length := List.length_pos_iff.2 ht
      have h2 := h.2.length_le
      rw [List.length_take]
      omega
    · next h => exact fun e => h ⟨ht, e⟩

theorem trimStartLoop_not_prefix (t : Str) (ht : t ≠ []) : ∀ (fuel : Nat) (s : Str),
    s.length ≤ fuel → ¬ t <+: trimStartLoop t fuel s := by
  intro fuel
  induction fuel with
  | zero =>
    intro s hs
    have : s = [] := List.length_eq_zero_iff.1 (by omega)
    subst this
    simpa [trimStartLoop] using ht
  | succ k ih =>
    intro s hs
    simp only [trimStartLoop]
    split
    · next h =>
      apply ih
      have h1 : 0 < t.length := List.length_pos_iff.2 ht
      have h2 := h.2.length_le
      rw [List.length_drop]
      omega
    · next h => exact fun e => h ⟨ht, e⟩

/-- With a matcher, trimming is always idempotent (nothing missing in this case). -/
theorem C53_idempotent_matcher_partial (input : Str) (b : Bool) (m r : Str)
    (h : trim_okurigana_with_opt input b (some m) = .ok r) :
    trim_okurigana_with_opt r b (some m) = .ok r := by
  by_cases hu : Unsuitable r b (some m)
  · exact trim_unsuitable hu
  · obtain ⟨x, xs, h1, h2⟩ := trim_suitable hu
    by_cases hu' : Unsuitable input b (some m)
    · rw [trim_unsuitable hu'] at h; cases h; exact trim_unsuitable hu'
    · obtain ⟨y, ys, h1', h2'⟩ := trim_suitable hu'
      rw [h2'] at h
      have e : y :: ys = x :: xs := h1'.symm.trans h1
      cases e
      rw [h2]
      have hr := Except.ok.inj h
      clear h h2 h2' h1'
      have hx : ∀ t ∈ x :: xs, t ≠ [] := by
        intro t ht
        have : tokenize m = x :: xs := h1
        exact (C45_nonempty m false).1 t (by rw [tokenize] at this; rw [this]; exact ht)
      cases b
      · simp only [Bool.false_eq_true, if_false] at hr ⊢
        congr 1
        have hns : ¬ (x :: xs).getLast (by simp) <:+ r := by
          rw [← hr]
          exact trimEndLoop_not_suffix _ (hx _ (List.getLast_mem _)) _ _ (Nat.le_refl _)
        unfold trim_end_matches
        cases hl : r.length with
        | zero => rfl
        | succ n => rw [trimEndLoop, if_neg (fun e => hns e.2)]
      · simp only [if_true] at hr ⊢
        congr 1
        have hns : ¬ x <+: r := by
          rw [← hr]
          exact trimStartLoop_not_prefix _ (hx _ List.mem_cons_self) _ _ (Nat.le_refl _)
        unfold trim_start_matches
        cases hl : r.length with
        | zero => rfl
        | succ n => rw [trimStartLoop, if_neg (fun e => hns e.2)]

/-- Ordinary words: kanji and hiragana letters only. -/
def OrdinaryWord (s : Str) : Prop := ∀ c ∈ s, Kanji c ∨ HiraganaLetter c

theorem ordinary_japanese {c : Char} (h : Kanji c ∨ HiraganaLetter c) : Japanese c := by
  simp only [Kanji, HiraganaLetter, Japanese, In] at *; omega

theorem kanji_not_kana {c : Char} (h : Kanji c) : ¬ Kana c := by
  rw [specKana_iff]
  simp only [Kanji, In] at *; omega

theorem hiragana_kana {c : Char} (h : HiraganaLetter c) : Kana c := by
  rw [specKana_iff]
  simp only [HiraganaLetter, In] at *; omega

theorem katakana_kana {c : Char} (h : KatakanaLetter c) : Kana c := by
  rw [specKana_iff]
  simp only [KatakanaLetter, In] at *; omega

theorem kana_type {c : Char} {k : TokenType} (h : Kana c) (hk : Means c k) :
    k = .Hiragana ∨ k = .Katakana ∨ k = .JaPunc := by
  rw [specKana_iff] at h
  cases k <;> simp only [reduceCtorEq, or_true, or_false, or_self] <;>
    (unfold_scripts at hk; omega)

/-- the text before the final kana token of an ordinary word ends in kanji -/
theorem ordinary_dropLast {input : Str} (ho : OrdinaryWord input)
    (hk : ∃ c, input.getLast? = some c ∧ Kana c) (hn : ∃ c ∈ input, ¬ Kana c) :
    ∃ c, (tokenize input).dropLast.flatten.getLast? = some c ∧ Kanji c := by
  have tok := C46_maximal_runs input false
  have htk := (C45_same input false).1
  obtain ⟨l, hl, hlk⟩ := hk
  have hne : tokenize_detailed input false ≠ [] := by
    intro e
    have := tok.concat
    rw [e] at this
    rw [← this] at hl
    simp at hl
  have hL := List.dropLast_concat_getLast hne
  have hcat := tok.concat
  rw [htk, ← List.map_dropLast]
  rw [← hL] at hcat
  simp only [List.map_append, List.flatten_append, List.map_cons, List.map_nil,
    List.flatten_cons, List.flatten_nil, List.append_nil] at hcat
  have hmem := List.getLast_mem hne
  have htne := tok.nonempty _ hmem
  have hll : ((tokenize_detailed input false).getLast hne).2.getLast htne = l := by
    have : input.getLast? = some (((tokenize_detailed input false).getLast hne).2.getLast htne) := by
      conv => lhs; rw [← hcat]
      rw [List.getLast?_append_of_ne_nil _ htne, List.getLast?_eq_some_getLast htne]
    rw [hl] at this
    exact (Option.some.inj this).symm
  have hlin : l ∈ input := List.mem_of_getLast? hl
  have hlh : HiraganaLetter l := (ho l hlin).resolve_left fun h => kanji_not_kana h hlk
  have hlt : ((tokenize_detailed input false).getLast hne).1 = .Hiragana := by
    have := tok.typed _ hmem _ (List.getLast_mem htne)
    rw [← this, hll]
    exact (C47_detailed l .Hiragana).2 hlh
  rcases List.eq_nil_or_concat (tokenize_detailed input false).dropLast with hn0 | ⟨M, a, hM⟩
  · -- everything would be hiragana
    exfalso
    rw [hn0] at hcat
    simp only [List.map_nil, List.flatten_nil, List.nil_append] at hcat
    obtain ⟨d, hd, hd'⟩ := hn
    rw [← hcat] at hd
    have := tok.typed _ hmem d hd
    rw [hlt] at this
    exact hd' (hiragana_kana ((C47_detailed d .Hiragana).1 this))
  · rw [List.concat_eq_append] at hM
    have hd : a.1 ≠ ((tokenize_detailed input false).getLast hne).1 := by
      have := tok.maximal
      rw [← hL, hM, List.append_assoc] at this
      exact adjacentDiffer_append M a _ this
    have ham : a ∈ tokenize_detailed input false := by
      apply (List.dropLast_sublist _).subset
      rw [hM]; simp
    have hane := tok.nonempty a ham
    refine ⟨a.2.getLast hane, ?_, ?_⟩
    · rw [hM]
      simp only [List.map_append, List.map_cons, List.map_nil, List.flatten_append,
        List.flatten_cons, List.flatten_nil, List.append_nil]
      rw [List.getLast?_append_of_ne_nil _ hane, List.getLast?_eq_some_getLast hane]
    · have hin : a.2.getLast hane ∈ input := by
        rw [← tok.concat, List.mem_flatten]
        exact ⟨a.2, List.mem_map.2 ⟨a, ham, rfl⟩, List.getLast_mem hane⟩
      refine (ho _ hin).resolve_right fun hh => hd ?_
      rw [hlt, ← tok.typed a ham _ (List.getLast_mem hane)]
      exact (C47_detailed _ .Hiragana).2 hh

/-- Missing: texts with katakana, ー or punctuation, where the claim fails. -/
theorem C53_idempotent_ordinary_partial (input r : Str) (ho : OrdinaryWord input)
    (h : trim_okurigana_with_opt input false none = .ok r) :
    trim_okurigana_with_opt r false none = .ok r := by
  by_cases hu : Unsuitable input false none
  · rw [trim_unsuitable hu] at h; cases h; exact trim_unsuitable hu
  · simp only [Unsuitable, not_or, not_exists, not_and, Classical.not_not, Classical.not_forall] at hu
    obtain ⟨hne, -, -, he, hn, -⟩ := hu
    obtain ⟨d, hd, hd'⟩ := hn trivial
    have hk : ∃ c, input.getLast? = some c ∧ Kana c :=
      ⟨_, List.getLast?_eq_some_getLast hne, he trivial _ (List.getLast?_eq_some_getLast hne)⟩
    rw [C52_end input hne (fun c hc => ordinary_japanese (ho c hc)) hk ⟨d, hd, hd'⟩] at h
    cases h
    obtain ⟨c, hc, hc'⟩ := ordinary_dropLast ho hk ⟨d, hd, hd'⟩
    exact C51_unchanged _ _ _ (Or.inr (Or.inr (Or.inr (Or.inl ⟨rfl, c, hc, kanji_not_kana hc'⟩))))

/-- No matcher: only pure punctuation (with ー or ・) can vanish. -/
theorem C53_nonempty_partial (input r : Str) (b : Bool) (h0 : ∃ c ∈ input, ¬ JapanesePunct c)
    (h : trim_okurigana_with_opt input b none = .ok r) : r ≠ [] := by
  rintro rfl
  obtain ⟨c, hc, hcp⟩ := h0
  have hne : input ≠ [] := List.ne_nil_of_mem hc
  by_cases hu : Unsuitable input b none
  · rw [trim_unsuitable hu] at h; cases h; exact hne rfl
  have tok := C46_maximal_runs input false
  have htk := (C45_same input false).1
  have hu' := hu
  simp only [Unsuitable, not_or, not_exists, not_and, Classical.not_not, Classical.not_forall] at hu'
  obtain ⟨-, hj, hs, he, hn, -⟩ := hu'
  obtain ⟨d, hd, hd'⟩ := hn trivial
  -- a single token `t` of type `k` containing a kana character
  have key : ∀ t ∈ tokenize_detailed input false, t.2 = input → (∃ e ∈ input, Kana e) → False := by
    rintro ⟨k, t⟩ ht rfl ⟨e, he, hek⟩
    have t1 := (C47_detailed c k).1 (tok.typed _ ht c hc)
    have t2 := (C47_detailed d k).1 (tok.typed _ ht d hd)
    have t3 := (C47_detailed e k).1 (tok.typed _ ht e he)
    rcases kana_type hek t3 with rfl | rfl | rfl
    · exact hd' (hiragana_kana t2)
    · exact hd' (katakana_kana t2)
    · exact hcp t1.1
  cases b
  · have hk : ∃ c, input.getLast? = some c ∧ Kana c :=
      ⟨_, List.getLast?_eq_some_getLast hne, he rfl _ (List.getLast?_eq_some_getLast hne)⟩
    rw [C52_end input hne hj hk ⟨d, hd, hd'⟩] at h
    have h' := Except.ok.inj h
    have hdn : tokenize_detailed input false ≠ [] := by
      intro e
      have := tok.concat
      rw [e] at this
      exact hne this.symm
    have hL := List.dropLast_concat_getLast hdn
    have hcat := tok.concat
    rw [← hL] at hcat
    rw [htk, ← List.map_dropLast] at h'
    simp only [List.map_append, List.flatten_append, List.map_cons, List.map_nil,
      List.flatten_cons, List.flatten_nil, List.append_nil, h', List.nil_append] at hcat
    obtain ⟨e, he1, he2⟩ := hk
    exact key _ (List.getLast_mem hdn) hcat ⟨e, List.mem_of_getLast? he1, he2⟩
  · obtain ⟨y, ys, rfl⟩ := List.exists_cons_of_ne_nil hne
    have hk : ∃ c, (y :: ys).head? = some c ∧ Kana c := ⟨y, rfl, hs rfl y rfl⟩
    rw [C52_start _ hne hj hk ⟨d, hd, hd'⟩] at h
    have h' := Except.ok.inj h
    rw [htk] at h'
    cases hD : tokenize_detailed (y :: ys) false with
    | nil =>
      have := tok.concat
      rw [hD] at this
      cases this
    | cons a L =>
      have hcat := tok.concat
      rw [hD] at hcat h'
      simp only [List.map_cons, List.tail_cons] at h'
      simp only [List.map_cons, List.flatten_cons, h', List.append_nil] at hcat
      exact key a (by rw [hD]; simp) hcat ⟨y, List.mem_cons_self, hs rfl y rfl⟩

example : OrdinaryWord ['踏', 'み', '込', 'む'] ∧
    trim_okurigana_with_opt ['踏', 'み', '込', 'む'] false none = .ok ['踏', 'み', '込'] := by
  refine ⟨?_, by decide⟩
  unfold OrdinaryWord; decide

end WanaKana
