import Verif.Model.GetChunk
/-! # C54: get_chunk -/

namespace WanaKana

theorem lenUtf8_pos (c : Char) : 0 < lenUtf8 c := by
  unfold lenUtf8; split
  · omega
  split
  · omega
  split <;> omega

theorem byteLen_append (a b : Str) : byteLen (a ++ b) = byteLen a + byteLen b := by
  induction a with
  | nil => simp [byteLen]
  | cons c a ih => simp only [List.cons_append, byteLen, ih]; omega

theorem charIndices_get (s : Str) : ∀ (off i : Nat), i < s.length →
    ((charIndicesFrom off s)[i]?).map (fun el => el.1) = some (off + byteLen (s.take i)) := by
  induction s with
  | nil => intro off i h; simp at h
  | cons c s ih =>
    intro off i h
    cases i with
    | zero => simp [charIndicesFrom, byteLen]
    | succ i =>
      simp only [charIndicesFrom, List.getElem?_cons_succ, List.take_succ_cons, byteLen]
      rw [ih _ i (by simpa using h), Nat.add_assoc]

theorem charIndices_length (s : Str) : ∀ off, (charIndicesFrom off s).length = s.length := by
  induction s with
  | nil => intro; rfl
  | cons c s ih => intro off; simp [charIndicesFrom, ih]

theorem charIndices_none (s : Str) (off i : Nat) (h : s.length ≤ i) :
    ((charIndicesFrom off s)[i]?).map (fun el => el.1) = none := by
  rw [List.getElem?_eq_none (by rw [charIndices_length]; exact h)]; rfl

theorem splitAtByte_boundary (a b : Str) : splitAtByte (a ++ b) (byteLen a) = .ok (a, b) := by
  induction a with
  | nil => simp [splitAtByte, byteLen]
  | cons c a ih =>
    have hp := lenUtf8_pos c
    have hb : byteLen (c :: a) = (lenUtf8 c - 1 + byteLen a) + 1 := by simp only [byteLen]; omega
    rw [hb, List.cons_append, splitAtByte]
    have h1 : lenUtf8 c ≤ lenUtf8 c - 1 + byteLen a + 1 := by omega
    have h2 : lenUtf8 c - 1 + byteLen a + 1 - lenUtf8 c = byteLen a := by omega
    · rw [if_pos h1, h2, ih]; rfl
    · intro h; omega

theorem sliceBytes_boundary (a b c : Str) :
    sliceBytes (a ++ b ++ c) (byteLen a) (byteLen a + byteLen b) = .ok b := by
  unfold sliceBytes
  rw [if_pos (by omega), List.append_assoc, splitAtByte_boundary]
  simp only [bind, Except.bind]
  rw [show byteLen a + byteLen b - byteLen a = byteLen b by omega, splitAtByte_boundary]

theorem byteLen_take_lt (s : Str) {i j : Nat} (hij : i < j) (hj : i < s.length) :
    byteLen (s.take i) < byteLen (s.take j) := by
  have h : s.take j = s.take i ++ (s.drop i).take (j - i) := by
    have := List.take_add (l := s) (i := i) (j := j - i)
    rwa [show i + (j - i) = j by omega] at this
  rw [h, byteLen_append]
  cases hd : (s.drop i).take (j - i) with
  | nil =>
    have := congrArg List.length hd
    simp at this
    omega
  | cons c t =>
    have := lenUtf8_pos c
    simp only [byteLen]; omega

/-- Full statement. -/
def C54_statement : Prop := ∀ (text : Str) (start stop : Nat), start ≤ stop →
  get_chunk text start stop = .ok ((text.drop start).take (stop - start))

/-- A start position past the end is treated as 0: the text is returned instead of nothing. -/
theorem C54_false : ¬ C54_statement := by
  intro h
  exact absurd (h ['a', 'b'] 2 3 (by omega)) (by decide)

/-- The claim holds whenever `start` is a position inside the text (`stop` may be past the
end); missing: `start ≥ len`. -/
theorem C54_inside_partial (text : Str) (start stop : Nat) (h : start ≤ stop)
    (hs : start < text.length) :
    get_chunk text start stop = .ok ((text.drop start).take (stop - start)) := by
  unfold get_chunk char_indices
  rw [charIndices_get text 0 start hs]
  simp only [Option.getD_some, Nat.zero_add]
  have hsplit : text = text.take start ++ (text.drop start).take (stop - start) ++ text.drop stop := by
    have h1 := List.take_append_drop start text
    have h2 := List.take_append_drop (stop - start) (text.drop start)
    rw [List.drop_drop, show start + (stop - start) = stop by omega] at h2
    rw [List.append_assoc, h2, h1]
  have e : (((charIndicesFrom 0 text)[stop]?).map fun el => el.1).getD (byteLen text)
      = byteLen (text.take start) + byteLen ((text.drop start).take (stop - start)) := by
    have hadd : text.take stop = text.take start ++ (text.drop start).take (stop - start) := by
      have := List.take_add (l := text) (i := start) (j := stop - start)
      rwa [show start + (stop - start) = stop by omega] at this
    rw [← byteLen_append, ← hadd]
    by_cases hst : stop < text.length
    · rw [charIndices_get text 0 stop hst]; simp
    · rw [charIndices_none text 0 stop (by omega), List.take_of_length_le (by omega)]; rfl
  rw [e]
  conv => lhs; rw [hsplit]
  have := sliceBytes_boundary (text.take start) ((text.drop start).take (stop - start))
    (text.drop stop)
  rw [← hsplit] at this ⊢
  exact this

/-- What happens otherwise (`start > stop` inside the text): a panic … -/
theorem C54_panics (text : Str) (start stop : Nat) (h : stop < start) (hs : start < text.length) :
    get_chunk text start stop = .error .panic := by
  unfold get_chunk char_indices
  rw [charIndices_get text 0 start hs, charIndices_get text 0 stop (by omega)]
  simp only [Option.getD_some, Nat.zero_add, sliceBytes]
  have := byteLen_take_lt text h (by omega)
  rw [if_neg (by omega)]

/-- … and `start` past the end: the first `stop` characters.  Together the three theorems
describe `get_chunk` completely. -/
theorem C54_past_end (text : Str) (start stop : Nat) (hs : text.length ≤ start) :
    get_chunk text start stop = .ok (text.take stop) := by
  unfold get_chunk char_indices
  rw [charIndices_none text 0 start hs]
  simp only [Option.getD_none]
  have e : (((charIndicesFrom 0 text)[stop]?).map fun el => el.1).getD (byteLen text)
      = byteLen (text.take stop) := by
    by_cases hst : stop < text.length
    · rw [charIndices_get text 0 stop hst]; simp
    · rw [charIndices_none text 0 stop (by omega), List.take_of_length_le (by omega)]; rfl
  rw [e]
  have := sliceBytes_boundary [] (text.take stop) (text.drop stop)
  simpa [byteLen] using this

example : get_chunk ['あ', 'い', 'う'] 1 2 = .ok ['い'] ∧ get_chunk ['あ', 'い'] 1 9 = .ok ['い']
    ∧ get_chunk ['あ', 'い'] 1 0 = .error .panic := by decide

end WanaKana
