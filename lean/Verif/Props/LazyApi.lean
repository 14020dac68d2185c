import Verif.Props.Lazy
import Verif.Props.Convert
import Verif.Props.Trim
import Verif.Props.ToRomaji
/-! # C106: the functions of the crate, called by several threads -/

namespace WanaKana.Lazy
open Spec

theorem alone_japanese (c : Char) : alone (is_char_japanese c) = .ok (WanaKana.is_char_japanese c) := rfl
theorem alone_is_char_romaji (c : Char) : alone (is_char_romaji c) = .ok (WanaKana.is_char_romaji c) := rfl
theorem alone_english (c : Char) :
    alone (is_char_english_punctuation c) = .ok (WanaKana.is_char_english_punctuation c) := rfl

theorem alone_all (p : Char → Prog Bool) (q : Char → Bool) (h : ∀ c, alone (p c) = .ok (q c)) :
    ∀ s, alone (allChars p s) = .ok (s.all q)
  | [] => rfl
  | c :: s => by
    unfold allChars
    rw [alone_bind, h]
    show alone (if q c then allChars p s else .ret false) = _
    cases hq : q c <;> simp [hq, alone_all p q h s, alone]

theorem alone_any (p : Char → Prog Bool) (q : Char → Bool) (h : ∀ c, alone (p c) = .ok (q c)) :
    ∀ s, alone (anyChars p s) = .ok (s.any q)
  | [] => rfl
  | c :: s => by
    unfold anyChars
    rw [alone_bind, h]
    show alone (if q c then .ret true else anyChars p s) = _
    cases hq : q c <;> simp [hq, alone_any p q h s, alone]

theorem alone_is_romaji (s : Str) : alone (is_romaji s) = .ok (WanaKana.is_romaji s) := by
  unfold is_romaji WanaKana.is_romaji
  split
  · rfl
  · exact alone_all _ _ alone_is_char_romaji s

theorem alone_is_japanese (s : Str) : alone (is_japanese s) = .ok (WanaKana.is_japanese s) := by
  unfold is_japanese WanaKana.is_japanese
  split
  · rfl
  · exact alone_all _ _ alone_japanese s

theorem alone_mixed (s : Str) (b : Bool) : alone (is_mixed_pass_kanji s b) = .ok (WanaKana.is_mixed_pass_kanji s b) := by
  unfold is_mixed_pass_kanji WanaKana.is_mixed_pass_kanji
  dsimp only
  cases h : (s.any is_char_hiragana || s.any is_char_katakana) with
  | false => rfl
  | true =>
    rw [if_pos rfl, alone_bind, alone_any _ _ alone_is_char_romaji]
    rfl

theorem alone_k2h (std : Std) (input : Str) (dest : Bool) : ∀ (rest : Str) (i : Nat) (prev : Option Char) (hira : Str),
    alone (k2hLoop std input dest rest i prev hira) = WanaKana.k2hLoop std input dest rest i prev hira
  | [], _, _, _ => rfl
  | c :: rest, i, prev, hira => by
    have ih := alone_k2h std input dest rest (i + 1)
    unfold k2hLoop WanaKana.k2hLoop
    dsimp only
    rw [alone_ite]
    split
    · exact ih _ _
    · have other : alone (if (!is_char_long_dash c && is_char_katakana c) = true then
            k2hLoop std input dest rest (i + 1) (some (k2hChar c)) (hira ++ [k2hChar c])
          else k2hLoop std input dest rest (i + 1) none (hira ++ [c])) =
          if (!is_char_long_dash c && is_char_katakana c) = true then
            WanaKana.k2hLoop std input dest rest (i + 1) (some (k2hChar c)) (hira ++ [k2hChar c])
          else WanaKana.k2hLoop std input dest rest (i + 1) none (hira ++ [c]) := by
        rw [alone_ite]; split <;> exact ih _ _
      generalize is_char_inner_long_dash c i = b
      cases prev with
      | none => exact other
      | some p =>
        cases b with
        | false => exact other
        | true =>
          dsimp only
          rw [alone_bind, alone_romaji]
          show alone (Prog.lift _ >>= _) = _
          rw [alone_bind, alone_lift]
          cases h : WanaKana.TO_ROMAJI_NODE_TREE.find_transition_node std p with
          | error e => rfl
          | ok node =>
            cases node with
            | none => exact ih _ _
            | some node =>
              show alone (Prog.lift _ >>= _) = _
              rw [alone_bind, alone_lift]
              show _ = (usizeSub i 1 >>= _)
              congr 1
              funext n
              have key : ∀ (b : Bool) (o : Option Char),
                  alone (if b = true then k2hLoop std input dest rest (i + 1) (some p) (hira ++ ['お'])
                    else match o with
                      | none => k2hLoop std input dest rest (i + 1) (some p) hira
                      | some romaji => do
                        let long_vowels ← Prog.vowels
                        match long_vowels romaji with
                        | some hit => k2hLoop std input dest rest (i + 1) (some p) (hira ++ [hit])
                        | none => k2hLoop std input dest rest (i + 1) (some p) hira) =
                  if b = true then WanaKana.k2hLoop std input dest rest (i + 1) (some p) (hira ++ ['お'])
                  else match o.bind WanaKana.LONG_VOWELS with
                    | some hit => WanaKana.k2hLoop std input dest rest (i + 1) (some p) (hira ++ [hit])
                    | none => WanaKana.k2hLoop std input dest rest (i + 1) (some p) hira := fun b o => by
                cases b with
                | true => exact ih _ _
                | false =>
                  rw [if_neg Bool.false_ne_true, if_neg Bool.false_ne_true]
                  cases o with
                  | none => exact ih _ _
                  | some r =>
                    dsimp only [Option.bind_some]
                    rw [alone_bind, alone_vowels]
                    show alone (match WanaKana.LONG_VOWELS r with
                      | some hit => k2hLoop std input dest rest (i + 1) (some p) (hira ++ [hit])
                      | none => k2hLoop std input dest rest (i + 1) (some p) hira) = _
                    cases WanaKana.LONG_VOWELS r <;> exact ih _ _
              exact key _ _

theorem alone_katakana_to_hiragana (std : Std) (s : Str) (dest : Bool) :
    alone (katakana_to_hiragana_with_opt std s dest) = WanaKana.katakana_to_hiragana_with_opt std s dest :=
  alone_k2h std s dest s 0 none []

theorem alone_lookup (o : Options) (chars : Str) : alone (toKanaLookup o chars) = WanaKana.toKanaLookup o chars := by
  unfold toKanaLookup WanaKana.toKanaLookup
  cases o.use_obsolete_kana with
  | true =>
    rw [if_pos rfl, if_pos rfl, alone_bind, alone_obsolete]; rfl
  | false =>
    rw [if_neg Bool.false_ne_true, if_neg Bool.false_ne_true]
    cases o.imemode with
    | true => rw [if_pos rfl, if_pos rfl, alone_bind, alone_ime]; rfl
    | false => rw [if_neg Bool.false_ne_true, if_neg Bool.false_ne_true, alone_bind, alone_kana]; rfl

theorem alone_to_kana_loop (std : Std) (o : Options) (chars : Str) (len : Nat) : ∀ (fuel pos : Nat) (out : Str),
    alone (toKanaLoop std o chars len fuel pos out) = WanaKana.toKanaLoop std o chars len fuel pos out
  | 0, _, _ => rfl
  | fuel + 1, pos, out => by
    have ih := alone_to_kana_loop std o chars len fuel
    unfold toKanaLoop WanaKana.toKanaLoop
    rw [alone_ite]
    split
    · rw [alone_bind, alone_lift]
      congr 1; funext rest
      rw [alone_bind, alone_lookup]
      congr 1; funext result
      rw [alone_ite]
      split
      · rw [alone_bind, alone_lift]
        congr 1; funext c
        exact ih _ _
      · rw [alone_bind, alone_lift]
        congr 1; funext consumed
        rw [alone_bind, alone_lift]
        congr 1; funext r
        rw [alone_ite]
        split
        · rw [alone_bind, alone_lift]
          congr 1; funext kata
          exact ih _ _
        · exact ih _ _
    · rfl

theorem alone_to_kana (std : Std) (s : Str) (o : Options) :
    alone (to_kana_with_opt std s o) = WanaKana.to_kana_with_opt std s o := alone_to_kana_loop ..

theorem alone_to_romaji_loop (std : Std) (o : Options) (orig chars : Str) (len : Nat) : ∀ (fuel pos : Nat) (out : Str),
    alone (toRomajiLoop std o orig chars len fuel pos out) = WanaKana.toRomajiLoop std o orig chars len fuel pos out
  | 0, _, _ => rfl
  | fuel + 1, pos, out => by
    have ih := alone_to_romaji_loop std o orig chars len fuel
    unfold toRomajiLoop WanaKana.toRomajiLoop
    rw [alone_ite]
    split
    · rw [alone_bind, alone_lift]
      congr 1; funext rest
      rw [alone_bind, alone_romaji]
      show alone (Prog.lift _ >>= _) = _
      rw [alone_bind, alone_lift]
      congr 1; funext result
      rw [alone_ite]
      split
      · rw [alone_bind, alone_lift]
        congr 1; funext c
        exact ih _ _
      · rw [alone_bind, alone_lift]
        congr 1; funext consumed
        exact ih _ _
    · rfl

theorem alone_to_romaji (std : Std) (s : Str) (o : Options) :
    alone (to_romaji_with_opt std s o) = WanaKana.to_romaji_with_opt std s o := by
  unfold to_romaji_with_opt WanaKana.to_romaji_with_opt
  rw [alone_bind, alone_katakana_to_hiragana]
  congr 1; funext kana
  exact alone_to_romaji_loop ..

theorem alone_romaji_to_hiragana (std : Std) (s : Str) (o : Options) :
    alone (romaji_to_hiragana std s o) = WanaKana.romaji_to_hiragana std s o := alone_to_kana ..

theorem alone_romajiOrPunctuation (s : Str) : alone (romajiOrPunctuation s) =
    .ok (WanaKana.is_romaji s || ((s.head?).map WanaKana.is_char_english_punctuation).getD false) := by
  unfold romajiOrPunctuation
  rw [alone_bind, alone_is_romaji]
  show alone (if WanaKana.is_romaji s then _ else _) = _
  cases WanaKana.is_romaji s with
  | true => rfl
  | false => cases s with
    | nil => rfl
    | cons c s => exact alone_english c

theorem alone_to_hiragana (std : Std) (s : Str) (o : Options) :
    alone (to_hiragana_with_opt std s o) = WanaKana.to_hiragana_with_opt std s o := by
  unfold to_hiragana_with_opt WanaKana.to_hiragana_with_opt
  rw [alone_ite]
  split
  · exact alone_katakana_to_hiragana ..
  · rw [alone_bind, alone_mixed]
    show alone (if WanaKana.is_mixed s then _ else _) = _
    rw [alone_ite]
    split
    · rw [alone_bind, alone_katakana_to_hiragana]
      show (WanaKana.katakana_to_hiragana_with_opt std s false >>= _) = _
      congr 1; funext r
      exact alone_romaji_to_hiragana ..
    · rw [alone_bind, alone_romajiOrPunctuation]
      show alone (if (_ || _) = true then _ else _) = _
      rw [alone_ite]
      split
      · exact alone_romaji_to_hiragana ..
      · exact alone_katakana_to_hiragana ..

theorem alone_to_katakana (std : Std) (s : Str) (o : Options) :
    alone (to_katakana_with_opt std s o) = WanaKana.to_katakana_with_opt std s o := by
  unfold to_katakana_with_opt WanaKana.to_katakana_with_opt
  rw [alone_ite]
  split
  · exact alone_lift _
  · have h : alone (romajiOrMixed s) = .ok (WanaKana.is_romaji s || WanaKana.is_mixed s) := by
      unfold romajiOrMixed
      rw [alone_bind, alone_is_romaji]
      show alone (if WanaKana.is_romaji s then .ret true else is_mixed_pass_kanji s true) = _
      cases WanaKana.is_romaji s with
      | true => rfl
      | false => exact alone_mixed s true
    rw [alone_bind, h]
    show alone (if (_ || _) = true then _ else _) = _
    rw [alone_ite]
    split
    · rw [alone_bind, alone_romaji_to_hiragana]
      congr 1; funext r
      exact alone_lift _
    · exact alone_lift _

theorem alone_numberOrPunctuation (c : Char) : alone (numberOrPunctuation c) =
    .ok (is_char_japanese_number c || is_char_latin_number c
      || WanaKana.is_char_english_punctuation c || is_char_japanese_punctuation c) := by
  unfold numberOrPunctuation
  cases (is_char_japanese_number c || is_char_latin_number c) <;> rfl

theorem alone_japaneseOrRomaji (c : Char) : alone (japaneseOrRomaji c) =
    .ok (if WanaKana.is_char_japanese c then .Ja else if WanaKana.is_char_romaji c then .En else .Other) := by
  unfold japaneseOrRomaji
  rw [alone_bind, alone_japanese]
  show alone (if WanaKana.is_char_japanese c then _ else _) = _
  rw [alone_ite]
  split
  · rfl
  · rw [alone_bind, alone_is_char_romaji]
    show alone (if WanaKana.is_char_romaji c then _ else _) = _
    split <;> rfl

theorem ok_ite {α : Type} (c : Prop) [Decidable c] (a b : α) :
    (.ok (if c then a else b) : Res α) = if c then .ok a else .ok b := by split <;> rfl

theorem alone_get_type (c : Char) (compact : Bool) : alone (get_type c compact) = .ok (WanaKana.get_type c compact) := by
  unfold get_type WanaKana.get_type
  cases compact with
  | true =>
    rw [if_pos rfl, if_pos rfl, alone_ite, alone_ite, alone_bind, alone_numberOrPunctuation, ok_ite, ok_ite, ok_ite,
      ← alone_japaneseOrRomaji]
    congr 2
    exact alone_ite _ _ _
  | false =>
    rw [if_neg Bool.false_ne_true, if_neg Bool.false_ne_true, alone_ite, alone_ite, alone_ite, alone_ite, alone_bind,
      alone_english]
    simp only [ok_ite]
    congr 4
    show alone (if WanaKana.is_char_english_punctuation c then _ else _) = _
    rw [alone_ite, alone_ite, alone_ite, alone_ite, alone_ite, alone_japaneseOrRomaji]
    simp only [ok_ite]
    rfl

theorem alone_group (compact : Bool) : ∀ (s : Str) (k : TokenType) (g : Str),
    alone (groupLoop compact k g s) = .ok (WanaKana.groupLoop (fun c => WanaKana.get_type c compact) k g s)
  | [], _, _ => rfl
  | c :: s, k, g => by
    unfold groupLoop WanaKana.groupLoop
    rw [alone_bind, alone_get_type]
    show alone (if WanaKana.get_type c compact = k then _ else _) = _
    rw [alone_ite]
    split
    · exact alone_group compact s _ _
    · rw [alone_bind, alone_group compact s]; rfl

theorem alone_tokenize (s : Str) (compact : Bool) :
    alone (tokenize_detailed s compact) = .ok (WanaKana.tokenize_detailed s compact) := by
  cases s with
  | nil => rfl
  | cons c s =>
    unfold tokenize_detailed
    dsimp only
    rw [alone_bind, alone_get_type]
    exact alone_group compact s _ _

theorem alone_tokenize_with_opt (s : Str) (compact : Bool) :
    alone (tokenize_with_opt s compact) = .ok (WanaKana.tokenize_with_opt s compact) := by
  unfold tokenize_with_opt
  rw [alone_bind, alone_tokenize]; rfl

theorem alone_guard (s : Str) (b : Bool) (m : Option Str) : alone (trimGuard s b m) = WanaKana.trimGuard s b m := by
  unfold trimGuard WanaKana.trimGuard
  rw [alone_bind, alone_is_japanese]
  show alone (if (!WanaKana.is_japanese s) = true then _ else _) = _
  rw [alone_ite]
  split
  · rfl
  · rw [alone_bind, alone_lift]
    congr 1; funext l
    rw [alone_ite]
    split
    · rfl
    · rw [alone_bind, alone_lift]
      congr 1; funext l
      split <;> rfl

theorem alone_trim (s : Str) (b : Bool) (m : Option Str) :
    alone (trim_okurigana_with_opt s b m) = WanaKana.trim_okurigana_with_opt s b m := by
  unfold trim_okurigana_with_opt WanaKana.trim_okurigana_with_opt
  rw [alone_bind, alone_guard]
  congr 1; funext u
  rw [alone_ite]
  split
  · rfl
  · have h : alone (trimTokens s m) = .ok (WanaKana.trimTokens s m) := by
      cases m <;> exact alone_tokenize_with_opt _ _
    rw [alone_bind, h]
    dsimp only
    show alone (if (WanaKana.trimTokens s m).isEmpty then _ else _) = _
    rw [alone_ite]
    split
    · rfl
    · rw [alone_ite]
      split
      · rw [alone_bind, alone_lift]; rfl
      · rw [alone_bind, alone_lift]; rfl

/-- Run alone, every function has the result of the model in which the tables are constants. -/
theorem C106_calls (std : Std) (c : ApiCall) : alone (c.prog std) = c.result std := by
  cases c <;> unfold ApiCall.prog ApiCall.result <;> dsimp only <;> rw [alone_bind]
  · rw [alone_is_romaji]; rfl
  · rw [alone_is_japanese]; rfl
  · rw [alone_mixed]; rfl
  · rw [alone_to_kana]; rfl
  · rw [alone_to_romaji]; rfl
  · rw [alone_to_hiragana]; rfl
  · rw [alone_to_katakana]; rfl
  · rw [alone_tokenize]; rfl
  · rw [alone_trim]; rfl

theorem result_total {std : Std} (hstd : std.Lawful) (c : ApiCall) : ∃ v, c.result std = .ok v := by
  cases c with
  | is_romaji s => exact ⟨_, rfl⟩
  | is_japanese s => exact ⟨_, rfl⟩
  | is_mixed_pass_kanji s b => exact ⟨_, rfl⟩
  | tokenize_detailed s b => exact ⟨_, rfl⟩
  | to_kana_with_opt s o => obtain ⟨r, h⟩ := C09_total hstd s o; exact ⟨.text r, by simp only [ApiCall.result, h]; rfl⟩
  | to_romaji_with_opt s o => obtain ⟨r, h⟩ := C27_total hstd s o; exact ⟨.text r, by simp only [ApiCall.result, h]; rfl⟩
  | to_hiragana_with_opt s o =>
    obtain ⟨r, h⟩ := (C38_total hstd s o).1; exact ⟨.text r, by simp only [ApiCall.result, h]; rfl⟩
  | to_katakana_with_opt s o =>
    obtain ⟨r, h⟩ := (C38_total hstd s o).2; exact ⟨.text r, by simp only [ApiCall.result, h]; rfl⟩
  | trim_okurigana_with_opt s b m =>
    obtain ⟨r, h, _⟩ := C50_prefix_suffix s b m; exact ⟨.text r, by simp only [ApiCall.result, h]; rfl⟩

theorem session_total {std : Std} (hstd : std.Lawful) : ∀ cs : List ApiCall,
    ∃ vs, alone (session std cs) = .ok vs ∧ cs.map (·.result std) = vs.map .ok
  | [] => ⟨[], rfl, rfl⟩
  | c :: cs => by
    obtain ⟨v, hv⟩ := result_total hstd c
    obtain ⟨vs, h1, h2⟩ := session_total hstd cs
    refine ⟨v :: vs, ?_, by rw [List.map_cons, List.map_cons, hv, h2]⟩
    unfold session
    rw [alone_bind, C106_calls, hv]
    show alone (session std cs >>= _) = _
    rw [alone_bind, h1]; rfl

/-- Threads that make any calls, in any order of their steps: as long as a thread has not come to its end a step is
possible, no execution is longer than the bound, and the results of every thread are those of the calls when the tables
are constants. -/
theorem C106_session {std : Std} (hstd : std.Lawful) (css : List (List ApiCall)) {log : List (Option Static)} {σ : State}
    (h : Run (css.map (client std)) log σ) :
    ((∃ l σ', Step σ l σ') ∨ ∀ (i : Nat) (cs : List ApiCall), css[i]? = some cs → ∃ t vs, σ.threads[i]? = some t ∧
      Finished t (.ok (.list vs)) ∧ cs.map (·.result std) = vs.map .ok) ∧
    log.length ≤ (css.map fun cs => uses (client std cs)).sum + 34 := by
  constructor
  · rcases C106_no_deadlock h with hf | hs
    · right
      intro i cs hi
      have inv := inv_run h
      have hlt : i < σ.threads.length := by
        rw [inv.length, List.length_map]; exact (List.getElem?_eq_some_iff.1 hi).1
      obtain ⟨r, hr⟩ := hf _ (List.getElem_mem hlt)
      obtain ⟨p, hp, e⟩ := C106_results h (List.getElem?_eq_getElem hlt) hr
      rw [List.getElem?_map, hi] at hp
      cases hp
      obtain ⟨vs, h1, h2⟩ := session_total hstd cs
      refine ⟨_, vs, List.getElem?_eq_getElem hlt, ?_, h2⟩
      have : alone (client std cs) = .ok (.list vs) := by
        unfold client; rw [alone_bind, h1]; rfl
      rw [← this, ← e]; exact hr
    · exact .inl hs
  · have := C106_terminates h
    rwa [List.map_map] at this

/-- two threads that use the tables for the first time at the same time, one of them the obsolete tree -/
def twoThreads : List (List ApiCall) :=
  [[.to_kana_with_opt ['w', 'i'] { use_obsolete_kana := true }], [.to_kana_with_opt ['a'] {}, .is_romaji ['a']]]

/-- the result of a step of thread `i`, if it can make one -/
def stepAt (σ : State) (i : Nat) : Option (Option Static × State) :=
  match σ.threads[i]? with
  | none => none
  | some t => match stepThread σ.shared t with
    | none => none
    | some (l, m, t') => some (l, ⟨m, σ.threads.set i t'⟩)

theorem step_of_stepAt {σ σ' : State} {i : Nat} {l : Option Static} (h : stepAt σ i = some (l, σ')) : Step σ l σ' := by
  unfold stepAt at h
  split at h
  · cases h
  · rename_i t ht
    split at h
    · cases h
    · rename_i l' m t' hs
      cases h
      exact ⟨i, t, m, t', ht, hs, rfl⟩

/-- the threads make steps in the given order -/
def schedule : List Nat → List (Option Static) → State → Option (List (Option Static) × State)
  | [], log, σ => some (log, σ)
  | i :: is, log, σ => match stepAt σ i with
    | none => none
    | some (l, σ') => schedule is (log ++ [l]) σ'

theorem run_schedule {ps : List (Prog Val)} : ∀ (is : List Nat) (log log' : List (Option Static)) (σ σ' : State),
    Run ps log σ → schedule is log σ = some (log', σ') → Run ps log' σ'
  | [], _, _, _, _, h, e => by cases e; exact h
  | i :: is, log, log', σ, σ', h, e => by
    unfold schedule at e
    split at e
    · cases e
    · rename_i l σ₁ hs
      exact run_schedule is _ _ _ _ (.step h (step_of_stepAt hs)) e

/-- the statics whose initialisers were started, and whether thread `i` can go on -/
def trace (is : List Nat) (i : Nat) : Option (List (Option Static) × Bool) :=
  (schedule is [] (start (twoThreads.map (client modernStd)))).map fun p => (p.1, (stepAt p.2 i).isSome)

-- thread 0 starts to initialise the obsolete tree and, inside, the tree for kana; thread 1 then has to wait for thread 0
example : trace [0, 0] 1 =
    some ([some .TO_KANA_NODE_TREE_OBSOLETE, some .TO_KANA_NODE_TREE], false) := by decide +kernel
example : trace [0, 0] 0 =
    some ([some .TO_KANA_NODE_TREE_OBSOLETE, some .TO_KANA_NODE_TREE], true) := by decide +kernel
-- when thread 0 has stored the tree for kana, thread 1 can go on
example : trace [0, 0, 0, 0, 1] 1 =
    some ([some .TO_KANA_NODE_TREE_OBSOLETE, some .TO_KANA_NODE_TREE, none, none, none], true) := by decide +kernel

example : ∃ log σ, Run (twoThreads.map (client modernStd)) log σ ∧ log.length = 2 ∧ stepAt σ 1 = none := by
  have h : trace [0, 0] 1 = some ([some .TO_KANA_NODE_TREE_OBSOLETE, some .TO_KANA_NODE_TREE], false) := by decide +kernel
  unfold trace at h
  cases e : schedule [0, 0] [] (start (twoThreads.map (client modernStd))) with
  | none => rw [e] at h; cases h
  | some p =>
    rw [e] at h
    simp only [Option.map_some, Option.some.injEq, Prod.mk.injEq] at h
    refine ⟨p.1, p.2, run_schedule _ _ _ _ _ .start e, by rw [h.1]; rfl, ?_⟩
    cases hs : stepAt p.2 1 with
    | none => rfl
    | some x => rw [hs] at h; cases h.2

end WanaKana.Lazy
