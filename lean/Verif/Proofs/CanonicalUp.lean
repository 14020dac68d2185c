import Verif.Spec.CanonicalUp
import Verif.Props.CanonicalAll
import Verif.Props.RoundTrip5
/-! # Romaji with katakana in capitals: finite checks for C132 -/

namespace WanaKana
open KNode RNode
open Spec (toHira kanaTable)

/-! ## long vowel marks -/

/-- whether the kana before is katakana, after one more character -/
def dashNext (k : Bool) (c : Char) : Bool := if c ∈ Spec.chain then k else decide (Spec.KatakanaLetter c)

/-- no long vowel mark prolongs katakana -/
def dashOk (k : Bool) : Str → Bool
  | [] => true
  | c :: t => (c != 'ー' || !k) && dashOk (dashNext k c) t

theorem dashOk_append (a b : Str) : ∀ k, dashOk k (a ++ b) = (dashOk k a && dashOk (a.foldl dashNext k) b) := by
  induction a with
  | nil => intro k; rfl
  | cons c a ih => intro k; simp only [List.cons_append, dashOk, ih, List.foldl_cons, Bool.and_assoc]

/-- what stands before the text counts as well -/
theorem dashOk_spec (s : Str) : ∀ (pre : Str) (k : Bool), dashOk k s = true →
    (∀ g, Spec.governing pre = some g → Spec.KatakanaLetter g → k = true) →
    ∀ a b, s = a ++ 'ー' :: b → ∀ g, Spec.governing (pre ++ a) = some g → ¬ Spec.KatakanaLetter g := by
  induction s with
  | nil => intro pre k _ _ a b e; have := congrArg List.length e; simp at this
  | cons c s ih =>
    intro pre k h hk a b e g hg hl
    simp only [dashOk, Bool.and_eq_true, Bool.or_eq_true, bne_iff_ne, Bool.not_eq_true'] at h
    cases a with
    | nil =>
      injection e with e1 _
      rw [List.append_nil] at hg
      have := hk g hg hl
      rcases h.1 with h1 | h1
      · exact h1 e1
      · rw [this] at h1; cases h1
    | cons a0 a =>
      injection e with e1 e
      subst e1
      refine ih (pre ++ [c]) (dashNext k c) h.2 ?_ a b e g (by rw [List.append_assoc]; exact hg) hl
      intro g hg hl
      unfold dashNext
      unfold Spec.governing at hg
      rw [List.reverse_append, List.reverse_singleton, List.singleton_append, List.dropWhile_cons] at hg
      by_cases hc : c ∈ Spec.chain
      · rw [if_pos hc]
        simp only [hc, decide_true, if_true] at hg
        exact hk g hg hl
      · rw [if_neg hc]
        simp only [hc, decide_false, Bool.false_eq_true, if_false, List.head?_cons, Option.some.injEq] at hg
        subst hg
        simpa using hl

theorem dashOk_of (s : Str) : ∀ (pre : Str) (k : Bool),
    (∀ a b, s = a ++ 'ー' :: b → ∀ g, Spec.governing (pre ++ a) = some g → ¬ Spec.KatakanaLetter g) →
    (k = true → ∃ g, Spec.governing pre = some g ∧ Spec.KatakanaLetter g) → dashOk k s = true := by
  induction s with
  | nil => intro _ _ _ _; rfl
  | cons c s ih =>
    intro pre k h hk
    simp only [dashOk, Bool.and_eq_true, Bool.or_eq_true, bne_iff_ne, Bool.not_eq_true']
    constructor
    · by_cases hc : c = 'ー'
      · right
        cases hk' : k with
        | false => rfl
        | true =>
          obtain ⟨g, hg, hl⟩ := hk hk'
          exact absurd hl (h [] s (by rw [hc]; rfl) g (by rw [List.append_nil]; exact hg))
      · exact Or.inl hc
    · refine ih (pre ++ [c]) _ (fun a b e g hg => h (c :: a) b (by rw [e]; rfl) g (by rw [List.append_assoc] at hg; exact hg)) ?_
      intro hn
      unfold dashNext at hn
      unfold Spec.governing
      rw [List.reverse_append, List.reverse_singleton, List.singleton_append, List.dropWhile_cons]
      by_cases hc : c ∈ Spec.chain
      · rw [if_pos hc] at hn
        simp only [hc, decide_true, if_true]
        exact hk hn
      · rw [if_neg hc] at hn
        simp only [hc, decide_false, Bool.false_eq_true, if_false, List.head?_cons]
        exact ⟨c, rfl, by simpa using hn⟩

/-! ## what is canonical comes back -/

/-- a block of romaji that is converted on its own, in both directions and in its own case -/
structure UBlock (std : Std) (m : Mode) (u : Str) : Prop where
  rom : rom std true (shifted (kana m u)) = u
  last : ∃ c, u.getLast? = some c ∧ toAsciiLowercase c ∉ "bcdfghjklmnpqrstvwxyz".toList
  lastKana : ∃ x, (kana m u).getLast? = some x ∧ toHira x ≠ 'っ' ∧ toHira x ≠ 'ん'
  head : ∃ x c, (kana m u).head? = some x ∧ u.head? = some c ∧ toHira x ∉ Spec.smallKana ∧
    (toHira x ∈ Spec.afterN → toAsciiLowercase c ∈ ['a', 'i', 'u', 'e', 'o', 'y'])

def uCheck (m : Mode) (u : Str) : Bool :=
  decide (rom modernStd true (shifted (kana m u)) = u) && ((kana m u).all fun c => toHira c != 'ゔ') &&
  (match u.getLast? with
    | some c => !("bcdfghjklmnpqrstvwxyz".toList.contains (toAsciiLowercase c))
    | none => false) &&
  (match (kana m u).getLast? with
    | some x => toHira x != 'っ' && toHira x != 'ん'
    | none => false) &&
  (match (kana m u).head?, u.head? with
    | some x, some c => !Spec.smallKana.contains (toHira x) &&
      (!Spec.afterN.contains (toHira x) || ['a', 'i', 'u', 'e', 'o', 'y'].contains (toAsciiLowercase c))
    | _, _ => false)

theorem ublock_of_check {std : Std} (hstd : std.Lawful) {m : Mode} {u : Str} (h : uCheck m u = true) : UBlock std m u := by
  simp only [uCheck, Bool.and_eq_true, decide_eq_true_iff, List.all_eq_true, bne_iff_ne] at h
  obtain ⟨⟨⟨⟨h1, h2⟩, h3⟩, h4⟩, h5⟩ := h
  refine ⟨?_, ?_, ?_, ?_⟩
  · rw [rom_std hstd modernStd_lawful, h1]
    intro x hx
    obtain ⟨c, hc, rfl⟩ := List.mem_map.1 hx
    exact h2 c hc
  · cases hl : u.getLast? with
    | none => rw [hl] at h3; cases h3
    | some c =>
      rw [hl] at h3
      exact ⟨c, rfl, by simpa only [Bool.not_eq_true', List.contains_eq_mem, decide_eq_false_iff_not] using h3⟩
  · cases hl : (kana m u).getLast? with
    | none => rw [hl] at h4; cases h4
    | some x =>
      rw [hl] at h4
      simp only [Bool.and_eq_true, bne_iff_ne] at h4
      exact ⟨x, rfl, h4⟩
  · cases hl : (kana m u).head? with
    | none => rw [hl] at h5; cases h5
    | some x =>
      cases hc : u.head? with
      | none => rw [hl, hc] at h5; cases h5
      | some c =>
        rw [hl, hc] at h5
        simp only [Bool.and_eq_true, Bool.not_eq_true', Bool.or_eq_true, List.contains_eq_mem, decide_eq_true_iff,
          decide_eq_false_iff_not] at h5
        refine ⟨x, c, rfl, rfl, h5.1, fun hx => ?_⟩
        rcases h5.2 with h | h
        · exact absurd hx h
        · exact h

/-- every romaji of the table but n, also in capitals -/
theorem outs_up (m : Mode) (hm : m ≠ .ime) : ((outs m).all fun u => u == [] || u == ['n'] || uCheck m u &&
    (!(u.all fun c => decide (Spec.AsciiLetter c)) || uCheck m (u.map aUp)) &&
    [true, false].all fun k =>
      ([['-'], ['/'], ['ヵ'], ['ヶ']].contains u || dashOk k (kana m u) && (kana m u).foldl dashNext k == false) &&
      (!(u.all fun c => decide (Spec.AsciiLetter c)) ||
        dashOk k (kana m (u.map aUp)) && (kana m (u.map aUp)).foldl dashNext k == true)) = true := by
  cases m with
  | normal => decide +kernel
  | obsolete => decide +kernel
  | ime => exact absurd rfl hm

end WanaKana
