import Verif.Props.KanaShift
/-! # C65: exactly which texts survive a trip to the other kana script and back -/

namespace WanaKana
open Spec

/-- a conversion character by character, each piece depending on the text before it -/
def pieces (f : Str → Char → Str) (before : Str) : Str → Str
  | [] => []
  | c :: s => f before c ++ pieces f (before ++ [c]) s

theorem pieces_length {f : Str → Char → Str} (hf : ∀ b c, (f b c).length ≤ 1) :
    ∀ (s before : Str), (pieces f before s).length ≤ s.length := by
  intro s
  induction s with
  | nil => intro _; exact Nat.le_refl _
  | cons c s ih =>
    intro b
    simp only [pieces, List.length_append, List.length_cons]
    have := hf b c
    have := ih (b ++ [c])
    omega

/-- a conversion that never lengthens gives back the text iff it gives back every character -/
theorem pieces_eq_iff {f : Str → Char → Str} (hf : ∀ b c, (f b c).length ≤ 1) :
    ∀ (s before : Str), pieces f before s = s ↔ ∀ a c b, s = a ++ c :: b → f (before ++ a) c = [c] := by
  intro s
  induction s with
  | nil => intro before; simp [pieces]
  | cons d s ih =>
    intro before
    rw [pieces]
    constructor
    · intro h
      have hl := pieces_length hf s (before ++ [d])
      have hd : f before d = [d] ∧ pieces f (before ++ [d]) s = s := by
        have h1 := hf before d
        cases hp : f before d with
        | nil =>
          rw [hp] at h
          have := congrArg List.length h
          simp only [List.nil_append, List.length_cons] at this
          omega
        | cons e es =>
          rw [hp] at h1 h
          cases es with
          | nil =>
            simp only [List.cons_append, List.nil_append, List.cons.injEq] at h
            exact ⟨by rw [h.1], h.2⟩
          | cons _ _ => simp at h1
      intro a c b e
      cases a with
      | nil =>
        simp only [List.nil_append, List.cons.injEq] at e
        rw [List.append_nil, ← e.1]; exact hd.1
      | cons x a =>
        simp only [List.cons_append, List.cons.injEq] at e
        have := (ih (before ++ [d])).1 hd.2 a c b e.2
        rw [← e.1]
        simpa using this
    · intro h
      have h1 := h [] d s rfl
      rw [List.append_nil] at h1
      have h2 : pieces f (before ++ [d]) s = s := (ih _).2 fun a c b e => by
        have := h (d :: a) c b (by rw [e]; rfl)
        simpa using this
      rw [h1, h2]; rfl

theorem longVowelV_length (x : Char) (d : Bool) (h : Char) : (longVowelV x d h).length ≤ 1 := by
  unfold longVowelV longVowel
  repeat' split
  all_goals simp

theorem longVowelV_hira (x : Char) (d : Bool) (h : Char) : ∀ c ∈ longVowelV x d h, c ∈ ['あ', 'い', 'う', 'え', 'お'] := by
  unfold longVowelV longVowel
  repeat' split
  all_goals simp

theorem markAfterV_length (x : Char) (d : Bool) (b : Str) : (markAfterV x d b).length ≤ 1 := by
  unfold markAfterV
  repeat' split
  all_goals first | exact longVowelV_length x d _ | simp

/-- the mark stays iff it is not governed by a katakana letter -/
theorem markAfterV_stays (x : Char) (d : Bool) (b : Str) :
    (markAfterV x d b = ['ー'] ∨ (markAfterV x d b).map toKata = ['ー']) ↔
      ∀ g, governing b = some g → ¬ KatakanaLetter g := by
  have key : ∀ h, ¬ (longVowelV x d h = ['ー'] ∨ (longVowelV x d h).map toKata = ['ー']) := by
    intro h
    have := longVowelV_hira x d h
    rintro (e | e)
    · rw [e] at this
      revert this; decide
    · cases hp : longVowelV x d h with
      | nil => rw [hp] at e; cases e
      | cons y ys =>
        rw [hp] at e this
        simp only [List.map_cons, List.cons.injEq] at e
        have := this y List.mem_cons_self
        simp only [List.mem_cons, List.not_mem_nil, or_false] at this
        rcases this with rfl | rfl | rfl | rfl | rfl <;> exact absurd e.1 (by decide)
  unfold markAfterV
  cases hg : governing b with
  | none => simp
  | some g =>
    by_cases hk : KatakanaLetter g
    · simp only [hk, if_true, Option.some.injEq]
      refine ⟨fun e => absurd e (key _), fun e => absurd hk (e g rfl)⟩
    · simp only [hk, if_false, Option.some.injEq, true_or, true_iff]
      rintro g' rfl; exact hk

theorem markAfterV_stays_kata (x : Char) (d : Bool) (b : Str) : (markAfterV x d b).map toKata = ['ー'] ↔
    ∀ g, governing b = some g → ¬ KatakanaLetter g := by
  rw [← markAfterV_stays x d b]
  refine ⟨Or.inr, fun h => h.elim (fun e => ?_) id⟩
  rw [e]; decide

theorem markAfterV_stays_hira (x : Char) (d : Bool) (b : Str) : markAfterV x d b = ['ー'] ↔
    ∀ g, governing b = some g → ¬ KatakanaLetter g := by
  rw [← markAfterV_stays x d b]
  refine ⟨Or.inl, fun h => h.elim id (fun e => ?_)⟩
  have := (markAfterV_stays_kata x d b).1 e
  unfold markAfterV
  cases hg : governing b with
  | none => rfl
  | some g => simp [this g hg]

theorem hiraFromV_pieces (x : Char) (d : Bool) (g : Char → Char) : ∀ (s before : Str),
    hiraFromV x d (before.map g) (s.map g) = pieces
      (fun b c => if g c = 'ー' then markAfterV x d (b.map g) else [toHira (g c)]) before s := by
  intro s
  induction s with
  | nil => intro _; rfl
  | cons c s ih =>
    intro b
    rw [List.map_cons, hiraFromV, pieces, ← ih]
    simp

theorem hiraFromV_pieces_kata (x : Char) (d : Bool) : ∀ (s before : Str),
    (hiraFromV x d before s).map toKata = pieces
      (fun b c => (if c = 'ー' then markAfterV x d b else [toHira c]).map toKata) before s := by
  intro s
  induction s with
  | nil => intro _; rfl
  | cons c s ih =>
    intro b
    rw [hiraFromV, pieces, ← ih]
    simp

theorem toKata_toNat (c : Char) : (toKata c).toNat =
    if 0x3041 ≤ c.toNat ∧ c.toNat ≤ 0x3096 then c.toNat + 0x60 else c.toNat := by
  rw [← h2kP_eq_toKata, h2kP_toNat]

theorem toHira_toKata_iff (c : Char) (_h : c ≠ 'ー') : toHira (toKata c) = c ↔
    (KatakanaLetter c → c = 'ヵ' ∨ c = 'ヶ') ∧ c ≠ 'ゕ' ∧ c ≠ 'ゖ' := by
  simp only [char_eq_iff, Char.reduceToNat, ne_eq, KatakanaLetter, In, toHira_toNat, toKata_toNat] at *
  repeat' split
  all_goals omega

theorem toKata_toHira_iff (c : Char) (_h : c ≠ 'ー') : toKata (toHira c) = c ↔
    ¬ HiraganaLetter c ∧ c ∉ ['ヷ', 'ヸ', 'ヹ', 'ヺ'] := by
  simp only [char_eq_iff, Char.reduceToNat, ne_eq, HiraganaLetter, In, toHira_toNat, toKata_toNat,
    List.mem_cons, List.not_mem_nil, or_false] at *
  repeat' split
  all_goals omega

theorem dropWhile_map_toKata : ∀ (l : Str), (∀ c ∈ l, c ≠ 'ゕ' ∧ c ≠ 'ゖ') →
    ((l.map toKata).dropWhile fun c => decide (c ∈ chain)) = (l.dropWhile fun c => decide (c ∈ chain)).map toKata := by
  intro l
  induction l with
  | nil => intro _; rfl
  | cons c l ih =>
    intro h
    obtain ⟨h1, h2⟩ := h c List.mem_cons_self
    have e : toKata c ∈ chain ↔ c ∈ chain := by
      simp only [chain, List.mem_cons, List.not_mem_nil, or_false, char_eq_iff, Char.reduceToNat, ne_eq,
        toKata_toNat] at *
      split <;> omega
    rw [List.map_cons, List.dropWhile_cons, List.dropWhile_cons]
    by_cases hc : c ∈ chain
    · simp only [hc, e.2 hc, decide_true, if_true]
      exact ih fun d hd => h d (List.mem_cons_of_mem _ hd)
    · have : toKata c ∉ chain := fun q => hc (e.1 q)
      simp [hc, this]

theorem governing_map_toKata (b : Str) (h : ∀ c ∈ b, c ≠ 'ゕ' ∧ c ≠ 'ゖ') :
    governing (b.map toKata) = (governing b).map toKata := by
  unfold governing
  rw [← List.map_reverse, dropWhile_map_toKata _ fun c hc => h c (List.mem_reverse.1 hc), List.head?_map]

/-- **C65** hiragana → katakana → hiragana gives back a text iff it has no katakana letter apart
from the symbols ヵ ヶ, no ゕ ゖ, and no long vowel mark governed by a hiragana letter. -/
theorem C65_hiragana {std : Std} (hstd : std.Lawful) (s : Str) (dest : Bool) :
    (do katakana_to_hiragana_with_opt std (← hiragana_to_katakana s) dest) = .ok s ↔
      (∀ c ∈ s, (KatakanaLetter c → c = 'ヵ' ∨ c = 'ヶ') ∧ c ≠ 'ゕ' ∧ c ≠ 'ゖ') ∧
      ∀ a b g, s = a ++ 'ー' :: b → governing a = some g → ¬ HiraganaLetter g := by
  obtain ⟨x, -, hx⟩ := C24_exact hstd
  rw [C22_charwise, ok_bind, hx, Except.ok.injEq]
  have hp := hiraFromV_pieces x dest toKata s []
  rw [List.map_nil] at hp
  rw [hp, pieces_eq_iff]
  case hf =>
    intro b c
    split
    · exact markAfterV_length x dest _
    · simp
  have hdash : ∀ c, toKata c = 'ー' ↔ c = 'ー' := by
    intro c
    simp only [char_eq_iff, Char.reduceToNat, toKata_toNat]
    split <;> omega
  simp only [hdash, List.nil_append]
  have gov : ∀ a : Str, (∀ c ∈ a, (KatakanaLetter c → c = 'ヵ' ∨ c = 'ヶ') ∧ c ≠ 'ゕ' ∧ c ≠ 'ゖ') →
      ((∀ g, governing (a.map toKata) = some g → ¬ KatakanaLetter g) ↔
        ∀ g, governing a = some g → ¬ HiraganaLetter g) := by
    intro a ha
    rw [governing_map_toKata a fun c hc => (ha c hc).2]
    cases hg : governing a with
    | none => simp
    | some g =>
      have hmem : g ∈ a ∧ g ∉ chain := by
        unfold governing at hg
        refine ⟨List.mem_reverse.1 ((List.dropWhile_sublist _).subset (List.mem_of_head? hg)), ?_⟩
        have := List.head?_dropWhile_not (fun c => decide (c ∈ chain)) a.reverse
        rw [hg] at this
        simpa using this
      have h1 := (ha g hmem.1).1
      have h2 := hmem.2
      simp only [Option.map_some, Option.some.injEq, forall_eq']
      simp only [chain, KatakanaLetter, HiraganaLetter, In, List.mem_cons, List.not_mem_nil, or_false,
        char_eq_iff, Char.reduceToNat, toKata_toNat] at *
      split <;> omega
  constructor
  · intro h
    have hall : ∀ c ∈ s, (KatakanaLetter c → c = 'ヵ' ∨ c = 'ヶ') ∧ c ≠ 'ゕ' ∧ c ≠ 'ゖ' := by
      intro c hc
      obtain ⟨a, b, e⟩ := List.append_of_mem hc
      have := h a c b e
      by_cases hd : c = 'ー'
      · subst hd; decide
      · rw [if_neg hd, List.cons.injEq] at this
        exact (toHira_toKata_iff c hd).1 this.1
    refine ⟨hall, fun a b g e hg => ?_⟩
    have := h a 'ー' b e
    rw [if_pos rfl, markAfterV_stays_hira, gov a fun c hc => hall c (by rw [e]; simp [hc])] at this
    exact this g hg
  · rintro ⟨hall, hm⟩ a c b e
    by_cases hd : c = 'ー'
    · subst hd
      rw [if_pos rfl, markAfterV_stays_hira, gov a fun c hc => hall c (by rw [e]; simp [hc])]
      exact fun g hg => hm a b g e hg
    · rw [if_neg hd, (toHira_toKata_iff c hd).2 (hall c (by rw [e]; simp))]

/-- **C65** katakana → hiragana → katakana gives back a text iff it has no hiragana letter, no
ヷ ヸ ヹ ヺ, and no long vowel mark governed by a katakana letter. -/
theorem C65_katakana {std : Std} (hstd : std.Lawful) (s : Str) (dest : Bool) :
    (do hiragana_to_katakana (← katakana_to_hiragana_with_opt std s dest)) = .ok s ↔
      (∀ c ∈ s, ¬ HiraganaLetter c ∧ c ∉ ['ヷ', 'ヸ', 'ヹ', 'ヺ']) ∧
      ∀ a b g, s = a ++ 'ー' :: b → governing a = some g → ¬ KatakanaLetter g := by
  obtain ⟨x, -, hx⟩ := C24_exact hstd
  rw [hx, ok_bind, C22_charwise, Except.ok.injEq, hiraFromV_pieces_kata, pieces_eq_iff]
  case hf =>
    intro b c
    rw [List.length_map]
    split
    · exact markAfterV_length x dest _
    · simp
  simp only [List.nil_append]
  constructor
  · intro h
    refine ⟨fun c hc => ?_, fun a b g e hg => ?_⟩
    · obtain ⟨a, b, e⟩ := List.append_of_mem hc
      have := h a c b e
      by_cases hd : c = 'ー'
      · subst hd; decide
      · rw [if_neg hd, List.map_singleton, List.cons.injEq] at this
        exact (toKata_toHira_iff c hd).1 this.1
    · have := h a 'ー' b e
      rw [if_pos rfl, markAfterV_stays_kata] at this
      exact this g hg
  · rintro ⟨hall, hm⟩ a c b e
    by_cases hd : c = 'ー'
    · subst hd
      rw [if_pos rfl, markAfterV_stays_kata]
      exact fun g hg => hm a b g e hg
    · rw [if_neg hd, List.map_singleton, (toKata_toHira_iff c hd).2 (hall c (by rw [e]; simp))]

/-- **C65** in particular a text of hiragana letters survives iff it has no ゕ ゖ … -/
theorem C65_hiragana_letters {std : Std} (hstd : std.Lawful) (s : Str) (dest : Bool) (h : ∀ c ∈ s, HiraganaLetter c) :
    (do katakana_to_hiragana_with_opt std (← hiragana_to_katakana s) dest) = .ok s ↔ 'ゕ' ∉ s ∧ 'ゖ' ∉ s := by
  rw [C65_hiragana hstd]
  constructor
  · rintro ⟨h1, -⟩
    exact ⟨fun e => (h1 _ e).2.1 rfl, fun e => (h1 _ e).2.2 rfl⟩
  · rintro ⟨h1, h2⟩
    refine ⟨fun c hc => ⟨fun hk => ?_, fun e => h1 (e ▸ hc), fun e => h2 (e ▸ hc)⟩, fun a b g e => ?_⟩
    · have := h c hc
      simp only [HiraganaLetter, KatakanaLetter, In] at *
      omega
    · exact absurd (h 'ー' (by rw [e]; simp)) (by decide)

/-- **C65** … and a text of katakana letters iff it has no ヷ ヸ ヹ ヺ. -/
theorem C65_katakana_letters {std : Std} (hstd : std.Lawful) (s : Str) (dest : Bool) (h : ∀ c ∈ s, KatakanaLetter c) :
    (do hiragana_to_katakana (← katakana_to_hiragana_with_opt std s dest)) = .ok s ↔
      ∀ c ∈ s, c ∉ ['ヷ', 'ヸ', 'ヹ', 'ヺ'] := by
  rw [C65_katakana hstd]
  constructor
  · rintro ⟨h1, -⟩ c hc
    exact (h1 c hc).2
  · intro h1
    refine ⟨fun c hc => ⟨fun hk => ?_, h1 c hc⟩, fun a b g e => ?_⟩
    · have := h c hc
      simp only [HiraganaLetter, KatakanaLetter, In] at *
      omega
    · exact absurd (h 'ー' (by rw [e]; simp)) (by decide)

example : governing ['あ', '・'] = some 'あ' ∧ HiraganaLetter 'あ' ∧
    (do katakana_to_hiragana_with_opt modernStd (← hiragana_to_katakana ['あ', '・', 'ー']) false)
      = .ok ['あ', '・', 'あ'] ∧
    (do katakana_to_hiragana_with_opt modernStd (← hiragana_to_katakana ['x', 'ー', 'ゔ', 'ヵ']) false)
      = .ok ['x', 'ー', 'ゔ', 'ヵ'] := by decide +kernel

/-- **C24** `katakana_to_hiragana` writes the long o as う: it is the conversion that is not on the way to romaji -/
theorem C24_public {std : Std} (hstd : std.Lawful) : ∃ x ∈ ['a', 'i', 'u', 'e', 'o'],
    ∀ s : Str, katakana_to_hiragana std s = .ok (hiraFromV x false [] s) ∧
      ('ヴ' ∉ s → katakana_to_hiragana std s = .ok (hiraFrom false [] s)) := by
  obtain ⟨x, hx, h⟩ := C24_exact hstd
  refine ⟨x, hx, fun s => ⟨h s false, fun hv => ?_⟩⟩
  exact C24_exact_no_vu hstd s false hv

example : hiraFrom false [] "コーヒー".toList = "こうひい".toList ∧ hiraFrom true [] "コーヒー".toList = "こおひい".toList := by
  decide +kernel

end WanaKana
