import Verif.Proofs.StrSearcher
import Verif.Props.Utf8Convert
/-! # C108: trimming with the matcher of the standard library -/

namespace WanaKana.StrSearcher

theorem new_fresh (needle : List UInt8) (n : Nat) (h : needle ≠ []) :
    ∃ st, TwoWay.new needle n = .ok st ∧ Fresh needle st ∧ st.position = 0 ∧ st.end = n := by
  obtain ⟨st, h1, h2, h3, h4, h5⟩ := new_ready needle n h
  refine ⟨st, h1, ⟨h2, ?_⟩, h3, h4⟩
  rcases h5 with ⟨a, b⟩ | ⟨a, b⟩
  · exact ⟨.inl a, .inl b⟩
  · exact ⟨.inr a, .inr b⟩

theorem slice_from {s t : Str} {i : Nat} (hi : i ≤ (utf8 s).length) (h : (utf8 s).drop i = utf8 t) :
    strSlice (utf8 s) i (utf8 s).length = .ok (utf8 t) := by
  obtain ⟨a, rfl⟩ := (C103_suffix t s).1 ⟨(utf8 s).take i, by rw [← h, List.take_append_drop]⟩
  have hl : (utf8 a).length = i := by
    have e := congrArg List.length h
    rw [List.length_drop, utf8_append, List.length_append] at e
    rw [utf8_append, List.length_append] at hi
    omega
  have := strSlice_parts a t []
  rw [List.append_nil, hl] at this
  exact this

theorem slice_to {s t : Str} {j : Nat} (hj : j ≤ (utf8 s).length) (h : (utf8 s).take j = utf8 t) :
    strSlice (utf8 s) 0 j = .ok (utf8 t) := by
  obtain ⟨b, rfl⟩ := (C103_prefix t s).1 ⟨(utf8 s).drop j, by rw [← h, List.take_append_drop]⟩
  have hl : (utf8 t).length = j := by
    have e := congrArg List.length h
    rw [List.length_take] at e
    omega
  have := strSlice_parts [] t b
  rw [List.nil_append, hl] at this
  exact this

/-- **C108** `str::trim_start_matches`: the Two-Way matcher strips the copies of the pattern at the beginning, all of them and
nothing else, without reading outside the text, cutting a character or going on forever -/
theorem C108_start (s pat : Str) :
    trim_start_matches (utf8 s) (utf8 pat) = .ok (utf8 (WanaKana.trim_start_matches s pat)) := by
  unfold trim_start_matches WanaKana.trim_start_matches
  rw [← trimStartBytes pat s.length _ s (Nat.le_refl _) (Nat.le_refl (utf8 s).length)]
  by_cases hp : utf8 pat = []
  · have ht : trimStartBytesLoop (utf8 pat) (utf8 s).length (utf8 s) = utf8 s := by
      cases (utf8 s).length with
      | zero => rfl
      | succ g => rw [trimStartBytesLoop, if_neg (fun h => h.1 hp)]
    have hs : ∃ r, nextReject (emptyForward (utf8 s)) ((utf8 s).length + 2) ⟨0, true⟩ = .ok r ∧
        rejectStart (utf8 s).length r = 0 := by
      rw [nextReject, emptyForward, if_pos rfl, bind_ok]
      dsimp only
      rw [nextReject, emptyForward, if_neg (by decide)]
      dsimp only
      rw [List.drop_zero]
      cases s with
      | nil => exact ⟨none, rfl, rfl⟩
      | cons c s => rw [utf8_cons, next_encode]; exact ⟨_, rfl, rfl⟩
    obtain ⟨r, h1, h2⟩ := hs
    rw [ht, if_pos (by rw [hp]; rfl), h1, bind_ok]
    dsimp only
    rw [h2]
    exact slice_from (Nat.zero_le _) (List.drop_zero)
  · obtain ⟨st, h1, h2, h3, h4⟩ := new_fresh (utf8 pat) (utf8 s).length hp
    obtain ⟨r, i, h5, h6, h7, h8⟩ := next_reject_forward (utf8 s) (utf8 pat) hp ((utf8 s).length + 2) st h2 (by omega) (by omega)
    rw [if_neg (by rw [List.isEmpty_iff]; exact hp), h1, bind_ok, h5, bind_ok]
    dsimp only
    rw [h6]
    have h9 := h8 (utf8 s).length (by omega)
    rw [h3, List.drop_zero] at h9
    rw [trimStartBytes pat s.length _ s (Nat.le_refl _) (Nat.le_refl (utf8 s).length)] at h9 ⊢
    exact slice_from h7 h9.symm

/-- **C108** `str::trim_end_matches`, likewise from the end -/
theorem C108_end (s pat : Str) :
    trim_end_matches (utf8 s) (utf8 pat) = .ok (utf8 (WanaKana.trim_end_matches s pat)) := by
  unfold trim_end_matches WanaKana.trim_end_matches
  rw [← trimEndBytes pat s.length _ s (Nat.le_refl _) (Nat.le_refl (utf8 s).length)]
  by_cases hp : utf8 pat = []
  · have ht : trimEndBytesLoop (utf8 pat) (utf8 s).length (utf8 s) = utf8 s := by
      cases (utf8 s).length with
      | zero => rfl
      | succ g => rw [trimEndBytesLoop, if_neg (fun h => h.1 hp)]
    have hs : ∃ r, nextReject (emptyBack (utf8 s)) ((utf8 s).length + 2) ⟨(utf8 s).length, true⟩ = .ok r ∧
        rejectEnd r = (utf8 s).length := by
      rw [nextReject, emptyBack, if_pos rfl, bind_ok]
      dsimp only
      rw [nextReject, emptyBack, if_neg (Bool.false_ne_true)]
      dsimp only
      rw [List.take_length, C100_char_indices]
      cases s with
      | nil => exact ⟨none, rfl, rfl⟩
      | cons c s =>
        cases hl : (char_indices (c :: s)).getLast? with
        | none => exact absurd (List.getLast?_eq_none_iff.1 hl) (by simp [char_indices, charIndicesFrom])
        | some x => exact ⟨_, rfl, rfl⟩
    obtain ⟨r, h1, h2⟩ := hs
    rw [ht, if_pos (by rw [hp]; rfl), h1, bind_ok]
    dsimp only
    rw [h2]
    exact slice_to (Nat.le_refl _) List.take_length
  · obtain ⟨st, h1, h2, h3, h4⟩ := new_fresh (utf8 pat) (utf8 s).length hp
    obtain ⟨r, j, h5, h6, h7, h8⟩ := next_reject_back (utf8 s) (utf8 pat) hp ((utf8 s).length + 2) st h2 (by omega) (by omega)
    rw [if_neg (by rw [List.isEmpty_iff]; exact hp), h1, bind_ok, h5, bind_ok]
    dsimp only
    rw [h6]
    have h9 := h8 (utf8 s).length (by omega)
    rw [h4, List.take_length] at h9
    rw [trimEndBytes pat s.length _ s (Nat.le_refl _) (Nat.le_refl (utf8 s).length)] at h9 ⊢
    exact slice_to h7 h9.symm

/-- **C108** `trim_okurigana` with the matcher of the standard library does what the model does -/
theorem C108_trim (s : Str) (trim_from_start : Bool) (m : Option Str) :
    trim_okurigana (utf8 s) trim_from_start (m.map utf8) = (trim_okurigana_with_opt s trim_from_start m).map utf8 := by
  unfold trim_okurigana trim_okurigana_with_opt
  have hm : (m.map utf8).map strChars = m := by
    cases m with
    | none => rfl
    | some m => rw [Option.map_some, Option.map_some, strChars_utf8]
  have ht : trimTokensBytes (utf8 s) (m.map utf8) = (trimTokens s m).map utf8 := by
    cases m with
    | none => exact C103_tokenize s false
    | some m => exact C103_tokenize m false
  simp only [ht]
  rw [hm, strChars_utf8]
  cases trimGuard s trim_from_start m with
  | error e => rfl
  | ok b =>
    simp only [ok_bind]
    cases b with
    | true => rfl
    | false =>
      simp only [Bool.false_eq_true, if_false, List.isEmpty_map]
      by_cases he : (trimTokens s m).isEmpty = true
      · rw [if_pos he, if_pos he]
        rfl
      · rw [if_neg he, if_neg he]
        cases trim_from_start with
        | true =>
          simp only [if_true, index]
          cases hl : trimTokens s m with
          | nil => rw [hl] at he; exact absurd rfl he
          | cons t r =>
            simp only [List.map_cons, List.getElem?_cons_zero]
            exact C108_start s t
        | false =>
          simp only [Bool.false_eq_true, if_false, List.getLast?_map]
          cases hl : (trimTokens s m).getLast? with
          | none => rw [List.getLast?_eq_none_iff.1 hl] at he; exact absurd rfl he
          | some t =>
            simp only [Option.map_some, unwrap]
            exact C108_end s t

/-- a pattern with a short period and one without -/
example : (TwoWay.new (utf8 "いい".toList) 18).map (fun st => (st.crit_pos, st.period, st.memory)) = .ok (1, 3, some 0) ∧
    (TwoWay.new (utf8 "しい".toList) 18).map (fun st => (st.crit_pos, st.period, st.memory)) = .ok (4, 5, none) := by decide

example : trim_end_matches (utf8 "美しいしい".toList) (utf8 "しい".toList) = .ok (utf8 "美".toList) := by decide +kernel

/-- い is E3 81 84, ぃ E3 81 83: the matcher looks at the last byte first and then needs to go back to a character -/
example : trim_start_matches (utf8 "いいぃあ".toList) (utf8 "い".toList) = .ok (utf8 "ぃあ".toList) := by decide +kernel

end WanaKana.StrSearcher
