import Verif.Spec.ScriptChange
import Verif.Props.Trim2
import Verif.Props.Tokenize2
import Verif.Props.TokenKana
/-! # C141: tokens and trimming in the other script -/

namespace WanaKana
open Spec

/-- what the shift to katakana does to the detailed types -/
def shiftType : TokenType → TokenType
  | .Hiragana => .Katakana
  | t => t

theorem h2kP_type (c : Char) : get_type (h2kP c) false = shiftType (get_type c false) := by
  by_cases h : 0x3041 ≤ c.toNat ∧ c.toNat ≤ 0x3096
  · rw [(C47_detailed c .Hiragana).2 h, (C47_detailed (h2kP c) .Katakana).2]
    · rfl
    · show 0x30A1 ≤ (h2kP c).toNat ∧ (h2kP c).toNat ≤ 0x30FA
      rw [h2kP_toNat, if_pos h]
      omega
  · have e : h2kP c = c := if_neg h
    rw [e]
    have hn : get_type c false ≠ .Hiragana := fun e => h ((C47_detailed c .Hiragana).1 e)
    revert hn
    cases get_type c false <;> intro hn <;> first | rfl | exact absurd rfl hn

theorem merges_iff (c d : Char) :
    get_type c false ≠ get_type d false ∧ shiftType (get_type c false) = shiftType (get_type d false) ↔ ScriptChange c d := by
  have hc := C47_detailed_holds c
  have hd := C47_detailed_holds d
  constructor
  · rintro ⟨h1, h2⟩
    generalize get_type c false = t at *
    generalize get_type d false = u at *
    cases t <;> cases u <;> first
      | exact absurd rfl h1
      | exact Or.inl ⟨hc, hd⟩
      | exact Or.inr ⟨hc, hd⟩
      | cases h2
  · rintro (⟨h1, h2⟩ | ⟨h1, h2⟩)
    · rw [(C47_detailed c .Hiragana).2 h1, (C47_detailed d .Katakana).2 h2]
      exact ⟨by decide, rfl⟩
    · rw [(C47_detailed c .Katakana).2 h1, (C47_detailed d .Hiragana).2 h2]
      exact ⟨by decide, rfl⟩

/-- no two neighbours of different type get the same type -/
def NoMerge (k : TokenType) : Str → Prop
  | [] => True
  | c :: cs => ¬ (k ≠ get_type c false ∧ shiftType k = shiftType (get_type c false)) ∧ NoMerge (get_type c false) cs

theorem groupLoop_first {κ : Type} [DecidableEq κ] (key : Char → κ) : ∀ (cs : Str) (k : κ) (g : Str),
    ∃ x L, groupLoop key k g cs = (k, g ++ x) :: L
  | [], k, g => ⟨[], [], by simp [groupLoop]⟩
  | c :: cs, k, g => by
    rw [groupLoop]
    split
    · obtain ⟨x, L, h⟩ := groupLoop_first key cs k (g ++ [c])
      exact ⟨c :: x, L, by rw [h]; simp⟩
    · exact ⟨[], _, by rw [List.append_nil]⟩

theorem groupLoop_shift : ∀ (cs : Str) (k : TokenType) (g : Str),
    (groupLoop (fun c => get_type c false) (shiftType k) (g.map h2kP) (cs.map h2kP)).map (fun p => p.2) =
      ((groupLoop (fun c => get_type c false) k g cs).map fun p => p.2).map (List.map h2kP) ↔ NoMerge k cs
  | [], k, g => by simp [groupLoop, NoMerge]
  | c :: cs, k, g => by
    rw [List.map_cons, groupLoop, groupLoop, NoMerge]
    by_cases h1 : get_type c false = k
    · rw [if_pos (by rw [h2kP_type, h1]), if_pos h1, h1]
      have := groupLoop_shift cs k (g ++ [c])
      rw [List.map_append, List.map_cons, List.map_nil] at this
      rw [this]
      simp
    · rw [if_neg h1, h2kP_type]
      by_cases h2 : shiftType (get_type c false) = shiftType k
      · rw [if_pos h2]
        obtain ⟨x, L, e⟩ := groupLoop_first (fun c => get_type c false) (cs.map h2kP) (shiftType k) (g.map h2kP ++ [h2kP c])
        rw [e]
        constructor
        · intro h
          rw [List.map_cons, List.map_cons, List.map_cons, List.cons.injEq] at h
          have := congrArg List.length h.1
          simp at this
        · intro h
          exact absurd ⟨Ne.symm h1, h2.symm⟩ h.1
      · rw [if_neg h2, List.map_cons, List.map_cons, List.map_cons, List.cons.injEq]
        have := groupLoop_shift cs (get_type c false) [c]
        rw [List.map_cons, List.map_nil] at this
        rw [this]
        exact ⟨fun h => ⟨fun hn => h2 hn.2.symm, h.2⟩, fun h => ⟨rfl, h.2⟩⟩

theorem noMerge_iff : ∀ (cs : Str) (c0 : Char),
    NoMerge (get_type c0 false) cs ↔ ∀ x c d y, c0 :: cs = x ++ c :: d :: y → ¬ ScriptChange c d
  | [], c0 => by
    refine ⟨fun _ x c d y e => ?_, fun _ => trivial⟩
    have := congrArg List.length e
    simp at this
    omega
  | c1 :: cs, c0 => by
    rw [NoMerge, merges_iff, noMerge_iff cs c1]
    constructor
    · rintro ⟨h1, h2⟩ x c d y e
      cases x with
      | nil =>
        rw [List.nil_append, List.cons.injEq, List.cons.injEq] at e
        rw [← e.1, ← e.2.1]
        exact h1
      | cons z x =>
        rw [List.cons_append, List.cons.injEq] at e
        exact h2 x c d y e.2
    · intro h
      refine ⟨h [] c0 c1 cs rfl, fun x c d y e => h (c0 :: x) c d y ?_⟩
      rw [e, List.cons_append]

theorem tokenize_shift (s : Str) : tokenize (s.map h2kP) = (tokenize s).map (List.map h2kP) ↔
    ∀ x c d y, s = x ++ c :: d :: y → ¬ ScriptChange c d := by
  cases s with
  | nil => simp [tokenize, tokenize_with_opt, group_by]
  | cons c s =>
    rw [← noMerge_iff s c, ← groupLoop_shift s (get_type c false) [c], ← h2kP_type]
    rfl

/-- **C141** The tokens of the katakana form are the katakana forms of the tokens, exactly if no hiragana letter stands
next to a katakana letter. -/
theorem C141_tokens (s r : Str) (hr : hiragana_to_katakana s = .ok r) :
    (tokenize s).mapM hiragana_to_katakana = .ok (tokenize r) ↔
      ∀ x c d y, s = x ++ c :: d :: y → ¬ ScriptChange c d := by
  rw [hiragana_to_katakana_eq] at hr
  cases hr
  rw [mapM_ok _ hiragana_to_katakana_eq, Except.ok.injEq, ← tokenize_shift, eq_comm]

theorem h2kP_compact (c : Char) : get_type (h2kP c) true = get_type c true := by
  by_cases h : 0x3041 ≤ c.toNat ∧ c.toNat ≤ 0x3096
  · have h1 : get_type c true = .Ja := by
      rw [(C47_compact c).2.1]
      unfold_scripts
      omega
    have h2 : get_type (h2kP c) true = .Ja := by
      rw [(C47_compact _).2.1]
      have := h2kP_toNat c
      rw [if_pos h] at this
      unfold_scripts
      omega
    rw [h1, h2]
  · rw [show h2kP c = c from if_neg h]

theorem groupLoop_compact : ∀ (cs : Str) (k : TokenType) (g : Str),
    groupLoop (fun c => get_type c true) k (g.map h2kP) (cs.map h2kP) =
      (groupLoop (fun c => get_type c true) k g cs).map fun p => (p.1, p.2.map h2kP)
  | [], k, g => by simp [groupLoop]
  | c :: cs, k, g => by
    rw [List.map_cons, groupLoop, groupLoop, h2kP_compact]
    split
    · rw [← groupLoop_compact cs k (g ++ [c]), List.map_append, List.map_cons, List.map_nil]
    · rw [List.map_cons, ← groupLoop_compact cs (get_type c true) [c]]
      rfl

/-- **C141** The compact tokens always carry over. -/
theorem C141_compact (s r : Str) (hr : hiragana_to_katakana s = .ok r) :
    (tokenize_with_opt s true).mapM hiragana_to_katakana = .ok (tokenize_with_opt r true) := by
  rw [hiragana_to_katakana_eq] at hr
  cases hr
  rw [mapM_ok _ hiragana_to_katakana_eq, Except.ok.injEq]
  cases s with
  | nil => rfl
  | cons c s =>
    have := groupLoop_compact s (get_type c true) [c]
    rw [List.map_cons, List.map_nil] at this
    show ((groupLoop _ _ _ _).map _).map _ = (groupLoop _ (get_type (h2kP c) true) [h2kP c] (s.map h2kP)).map _
    rw [h2kP_compact, this, List.map_map, List.map_map]
    rfl

/-- where a text is cut between tokens, its katakana form is, unless the script changes there -/
theorem split_shift {a b : Str} (h : tokenize (a ++ b) = tokenize a ++ tokenize b) :
    tokenize (a.map h2kP ++ b.map h2kP) = tokenize (a.map h2kP) ++ tokenize (b.map h2kP) ↔
      ¬ ∃ c d, a.getLast? = some c ∧ b.head? = some d ∧ ScriptChange c d := by
  have h0 := (C48_split_iff a b false).1 h
  refine (C48_split_iff (a.map h2kP) (b.map h2kP) false).trans ?_
  rw [List.getLast?_map, List.head?_map]
  constructor
  · rintro h1 ⟨c, d, hc, hd, hs⟩
    refine h1 (h2kP c) (h2kP d) (by rw [hc]; rfl) (by rw [hd]; rfl) ?_
    rw [h2kP_type, h2kP_type]
    exact ((merges_iff c d).2 hs).2
  · intro h1 c' d' hc' hd' e
    obtain ⟨c, hc, rfl⟩ := Option.map_eq_some_iff.1 hc'
    obtain ⟨d, hd, rfl⟩ := Option.map_eq_some_iff.1 hd'
    rw [h2kP_type, h2kP_type] at e
    exact h1 ⟨c, d, hc, hd, (merges_iff c d).1 ⟨h0 c d hc hd, e⟩⟩

theorem one_token {u : Str} (h : tokenize u = [u]) : tokenize (u.map h2kP) = [u.map h2kP] := by
  have hs := (tokenize_shift u).2 (by
    intro x c d y e hcd
    have e' : u = (x ++ [c]) ++ d :: y := by rw [e, List.append_assoc, List.singleton_append]
    have hd : ∃ k, tokenize_detailed u false = [(k, u)] := by
      rw [(C45_same u false).1] at h
      match hL : tokenize_detailed u false, h with
      | [(k, v)], h =>
        have : v = u := by simpa [hL] using h
        exact ⟨k, by rw [this]⟩
      | [], h => cases h
      | _ :: _ :: _, h => simp at h
    obtain ⟨k, hk⟩ := hd
    have ht := (C46_maximal_runs u false).typed
    rw [hk] at ht
    have hty := ht _ List.mem_cons_self
    refine ((merges_iff c d).2 hcd).1 ?_
    rw [hty c (by rw [e]; simp), hty d (by rw [e]; simp)])
  rw [hs, h]
  rfl

theorem h2kP_classes (c : Char) : (Japanese (h2kP c) ↔ Japanese c) ∧ (Kana (h2kP c) ↔ Kana c) := by
  by_cases h : 0x3041 ≤ c.toNat ∧ c.toNat ≤ 0x3096
  · have := h2kP_toNat c
    rw [if_pos h] at this
    rw [specKana_iff, specKana_iff]
    unfold_scripts
    omega
  · rw [show h2kP c = c from if_neg h]
    exact ⟨Iff.rfl, Iff.rfl⟩

theorem all_shift {P : Char → Prop} (hP : ∀ c, P (h2kP c) ↔ P c) (s : Str) :
    ((∀ c ∈ s.map h2kP, P c) ↔ ∀ c ∈ s, P c) ∧ ((∃ c ∈ s.map h2kP, ¬ P c) ↔ ∃ c ∈ s, ¬ P c) := by
  constructor
  · refine ⟨fun h c hc => (hP c).1 (h _ (List.mem_map_of_mem hc)), fun h c hc => ?_⟩
    obtain ⟨d, hd, rfl⟩ := List.mem_map.1 hc
    exact (hP d).2 (h d hd)
  · constructor
    · rintro ⟨c, hc, hn⟩
      obtain ⟨d, hd, rfl⟩ := List.mem_map.1 hc
      exact ⟨d, hd, fun h => hn ((hP d).2 h)⟩
    · rintro ⟨c, hc, hn⟩
      exact ⟨_, List.mem_map_of_mem hc, fun h => hn ((hP c).1 h)⟩

theorem opt_shift {P : Char → Prop} (hP : ∀ c, P (h2kP c) ↔ P c) (o : Option Char) :
    (∃ c, o.map h2kP = some c ∧ P c) ↔ ∃ c, o = some c ∧ P c := by
  cases o with
  | none => simp
  | some c => simp [hP]

theorem trimsEnd_shift (s : Str) : TrimsEnd (s.map h2kP) ↔ TrimsEnd s := by
  unfold TrimsEnd
  rw [List.getLast?_map, opt_shift fun c => (h2kP_classes c).2, (all_shift (fun c => (h2kP_classes c).1) s).1,
    (all_shift (fun c => (h2kP_classes c).2) s).2]

theorem trimsStart_shift (s : Str) : TrimsStart (s.map h2kP) ↔ TrimsStart s := by
  unfold TrimsStart
  rw [List.head?_map, opt_shift fun c => (h2kP_classes c).2, (all_shift (fun c => (h2kP_classes c).1) s).1,
    (all_shift (fun c => (h2kP_classes c).2) s).2]

theorem tokenize_pieces {s : Str} {L1 L2 : List Str} (h : tokenize s = L1 ++ L2) :
    tokenize L1.flatten = L1 ∧ tokenize L2.flatten = L2 := by
  constructor
  · exact C68_retokenize s false [] L1 L2 h
  · exact C68_retokenize s false L1 L2 [] (by rw [List.append_nil]; exact h)

/-- **C141** Trimming the end and converting to katakana may change places, exactly if the script does not change right
before what is removed. -/
theorem C141_trim_end (s t u : Str) (ht : trim_okurigana_with_opt s false none = .ok t) (hu : s = t ++ u) :
    (do trim_okurigana_with_opt (← hiragana_to_katakana s) false none) = hiragana_to_katakana t ↔
      ¬ ∃ c d, t.getLast? = some c ∧ u.head? = some d ∧ ScriptChange c d := by
  rw [hiragana_to_katakana_eq, hiragana_to_katakana_eq]
  show trim_okurigana_with_opt (s.map h2kP) false none = _ ↔ _
  by_cases h : TrimsEnd s
  · have hne : ∀ {x : Str}, TrimsEnd x → x ≠ [] := by
      rintro x ⟨-, ⟨c, hc, -⟩, -⟩ rfl
      simp at hc
    have h' := (trimsEnd_shift s).2 h
    have hlast : ∀ x : Str, x ≠ [] → ∃ L v, tokenize x = L ++ [v] := by
      intro x hx
      rcases List.eq_nil_or_concat (tokenize x) with e | ⟨L, v, e⟩
      · exact absurd ((C45_empty x false).1 e) hx
      · exact ⟨L, v, by rw [e, List.concat_eq_append]⟩
    have hfl : ∀ x : Str, (tokenize x).flatten = x := fun x => (C45_concat x false).2.1
    rw [C52_end s (hne h) h.1 h.2.1 h.2.2] at ht
    rw [C52_end _ (hne h') h'.1 h'.2.1 h'.2.2, Except.ok.injEq]
    obtain ⟨L, v, e⟩ := hlast s (hne h)
    have ht := Except.ok.inj ht
    rw [e, List.dropLast_concat] at ht
    have hv : v = u := by
      have := hfl s
      rw [e, List.flatten_append, ht, List.flatten_singleton, hu] at this
      exact List.append_cancel_left this
    subst hv
    obtain ⟨e1, e2⟩ := tokenize_pieces e
    rw [ht] at e1
    rw [List.flatten_singleton] at e2
    have hcut : tokenize (t ++ v) = tokenize t ++ tokenize v := by rw [← hu, e, e1, e2]
    have hmap : s.map h2kP = t.map h2kP ++ v.map h2kP := by rw [hu, List.map_append]
    rw [← split_shift hcut, one_token e2, ← hmap]
    constructor
    · intro hd
      obtain ⟨M, w, f⟩ := hlast _ (hne h')
      rw [f, List.dropLast_concat] at hd
      have hw : w = v.map h2kP := by
        have := hfl (s.map h2kP)
        rw [f, List.flatten_append, hd, List.flatten_singleton, hmap] at this
        exact List.append_cancel_left this
      have f1 := (tokenize_pieces f).1
      rw [hd] at f1
      rw [f, f1, hw]
    · intro hc
      rw [hc, List.dropLast_concat, hfl]
  · have h1 := C62_changes_end s
    have h2 := C62_changes_end (s.map h2kP)
    rw [trimsEnd_shift] at h2
    have h3 := Classical.not_not.1 fun e => h (h1.1 e)
    have h4 := Classical.not_not.1 fun e => h (h2.1 e)
    rw [ht] at h3
    have h3 := Except.ok.inj h3
    subst h3
    have hu : u = [] := by
      have := congrArg List.length hu
      rw [List.length_append] at this
      exact List.length_eq_zero_iff.1 (by omega)
    rw [h4, hu]
    simp

/-- **C141** the same for trimming the start -/
theorem C141_trim_start (s t u : Str) (ht : trim_okurigana_with_opt s true none = .ok t) (hu : s = u ++ t) :
    (do trim_okurigana_with_opt (← hiragana_to_katakana s) true none) = hiragana_to_katakana t ↔
      ¬ ∃ c d, u.getLast? = some c ∧ t.head? = some d ∧ ScriptChange c d := by
  rw [hiragana_to_katakana_eq, hiragana_to_katakana_eq]
  show trim_okurigana_with_opt (s.map h2kP) true none = _ ↔ _
  by_cases h : TrimsStart s
  · have hne : ∀ {x : Str}, TrimsStart x → x ≠ [] := by
      rintro x ⟨-, ⟨c, hc, -⟩, -⟩ rfl
      simp at hc
    have h' := (trimsStart_shift s).2 h
    have hfirst : ∀ x : Str, x ≠ [] → ∃ L v, tokenize x = [v] ++ L := by
      intro x hx
      cases e : tokenize x with
      | nil => exact absurd ((C45_empty x false).1 e) hx
      | cons v L => exact ⟨L, v, rfl⟩
    have hfl : ∀ x : Str, (tokenize x).flatten = x := fun x => (C45_concat x false).2.1
    rw [C52_start s (hne h) h.1 h.2.1 h.2.2] at ht
    rw [C52_start _ (hne h') h'.1 h'.2.1 h'.2.2, Except.ok.injEq]
    obtain ⟨L, v, e⟩ := hfirst s (hne h)
    have ht := Except.ok.inj ht
    rw [e, List.singleton_append, List.tail_cons] at ht
    have hv : v = u := by
      have := hfl s
      rw [e, List.flatten_append, ht, List.flatten_singleton, hu] at this
      exact List.append_cancel_right this
    subst hv
    obtain ⟨e1, e2⟩ := tokenize_pieces e
    rw [ht] at e2
    rw [List.flatten_singleton] at e1
    have hcut : tokenize (v ++ t) = tokenize v ++ tokenize t := by rw [← hu, e, e1, e2]
    have hmap : s.map h2kP = v.map h2kP ++ t.map h2kP := by rw [hu, List.map_append]
    rw [← split_shift hcut, one_token e1, ← hmap]
    constructor
    · intro hd
      obtain ⟨M, w, f⟩ := hfirst _ (hne h')
      rw [f, List.singleton_append, List.tail_cons] at hd
      have hw : w = v.map h2kP := by
        have := hfl (s.map h2kP)
        rw [f, List.flatten_append, hd, List.flatten_singleton, hmap] at this
        exact List.append_cancel_right this
      have f1 := (tokenize_pieces f).2
      rw [hd] at f1
      rw [f, f1, hw]
    · intro hc
      rw [hc, List.singleton_append, List.tail_cons, hfl]
  · have h1 := C62_changes_start s
    have h2 := C62_changes_start (s.map h2kP)
    rw [trimsStart_shift] at h2
    have h3 := Classical.not_not.1 fun e => h (h1.1 e)
    have h4 := Classical.not_not.1 fun e => h (h2.1 e)
    rw [ht] at h3
    have h3 := Except.ok.inj h3
    subst h3
    have hu : u = [] := by
      have := congrArg List.length hu
      rw [List.length_append] at this
      exact List.length_eq_zero_iff.1 (by omega)
    rw [h4, hu]
    simp

/-- both sides: okurigana after kanji, and hiragana after katakana -/
example : trim_okurigana_with_opt "食べる".toList false none = .ok "食".toList ∧
    trim_okurigana_with_opt "食ベル".toList false none = .ok "食".toList ∧
    trim_okurigana_with_opt "歯サボる".toList false none = .ok "歯サボ".toList ∧
    trim_okurigana_with_opt "歯サボル".toList false none = .ok "歯".toList ∧ ScriptChange 'ボ' 'る' ∧
    tokenize "歯サボる".toList = ["歯".toList, "サボ".toList, "る".toList] ∧
    tokenize "歯サボル".toList = ["歯".toList, "サボル".toList] := by decide +kernel

end WanaKana
