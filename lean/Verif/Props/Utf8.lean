import Verif.Model.Utf8
import Verif.Props.GetChunk
import Verif.Spec.Bytes
/-! # C100: characters and bytes -/

namespace WanaKana

/-- the bytes of a text in UTF-8, as defined by Lean -/
def utf8 (s : Str) : List UInt8 := s.flatMap String.utf8EncodeChar

theorem utf8_cons (c : Char) (s : Str) : utf8 (c :: s) = String.utf8EncodeChar c ++ utf8 s := rfl

theorem utf8_append (a b : Str) : utf8 (a ++ b) = utf8 a ++ utf8 b := by
  unfold utf8; rw [List.flatMap_append]

theorem char_lt (c : Char) : c.toNat < 0x110000 := by
  have := c.valid
  unfold UInt32.isValidChar Nat.isValidChar at this
  unfold Char.toNat
  omega

/-- the four forms of an encoded character, in numbers -/
theorem encode_cases (c : Char) :
    (c.toNat < 0x80 ∧ ∃ x, String.utf8EncodeChar c = [x] ∧ x.toNat = c.toNat) ∨
    (0x80 ≤ c.toNat ∧ c.toNat < 0x800 ∧ ∃ x y, String.utf8EncodeChar c = [x, y] ∧ x.toNat = c.toNat / 64 % 32 + 0xC0 ∧
      y.toNat = c.toNat % 64 + 0x80) ∨
    (0x800 ≤ c.toNat ∧ c.toNat < 0x10000 ∧ ∃ x y z, String.utf8EncodeChar c = [x, y, z] ∧
      x.toNat = c.toNat / 4096 % 16 + 0xE0 ∧ y.toNat = c.toNat / 64 % 64 + 0x80 ∧ z.toNat = c.toNat % 64 + 0x80) ∨
    (0x10000 ≤ c.toNat ∧ ∃ x y z w, String.utf8EncodeChar c = [x, y, z, w] ∧
      x.toNat = c.toNat / 262144 % 8 + 0xF0 ∧ y.toNat = c.toNat / 4096 % 64 + 0x80 ∧
      z.toNat = c.toNat / 64 % 64 + 0x80 ∧ w.toNat = c.toNat % 64 + 0x80) := by
  have hn : ∀ n, n < 256 → (UInt8.ofNat n).toNat = n := by
    intro n h
    rw [UInt8.toNat_ofNat']
    omega
  unfold String.utf8EncodeChar
  have hv : c.val.toNat = c.toNat := rfl
  simp only [hv]
  by_cases h1 : c.toNat ≤ 0x7f
  · left
    rw [if_pos h1]
    exact ⟨by omega, _, rfl, hn _ (by omega)⟩
  · rw [if_neg h1]
    by_cases h2 : c.toNat ≤ 0x7ff
    · right; left
      rw [if_pos h2]
      exact ⟨by omega, by omega, _, _, rfl, hn _ (by omega), hn _ (by omega)⟩
    · rw [if_neg h2]
      by_cases h3 : c.toNat ≤ 0xffff
      · right; right; left
        rw [if_pos h3]
        exact ⟨by omega, by omega, _, _, _, rfl, hn _ (by omega), hn _ (by omega), hn _ (by omega)⟩
      · right; right; right
        rw [if_neg h3]
        exact ⟨by omega, _, _, _, _, rfl, hn _ (by omega), hn _ (by omega), hn _ (by omega), hn _ (by omega)⟩

/-- the width the model of `get_chunk` uses is the length of the encoding -/
theorem encode_length (c : Char) : (String.utf8EncodeChar c).length = lenUtf8 c := by
  unfold lenUtf8
  rcases encode_cases c with ⟨h, x, e, -⟩ | ⟨h, h', x, y, e, -⟩ | ⟨h, h', x, y, z, e, -⟩ | ⟨h, x, y, z, w, e, -⟩
  · rw [e, if_pos h]; rfl
  · rw [e, if_neg (by omega), if_pos h']; rfl
  · rw [e, if_neg (by omega), if_neg (by omega), if_pos h']; rfl
  · rw [e, if_neg (by omega), if_neg (by omega), if_neg (by omega)]; rfl

theorem utf8_length (s : Str) : (utf8 s).length = byteLen s := by
  induction s with
  | nil => rfl
  | cons c s ih => rw [utf8_cons, List.length_append, encode_length, ih]; rfl

/-- **C100** the number of bytes in C92 is the length of the encoding -/
theorem C100_bytes (s : Str) : (utf8 s).length = Spec.bytes s := by
  induction s with
  | nil => rfl
  | cons c s ih =>
    rw [utf8_cons, List.length_append, encode_length, ih]
    unfold Spec.bytes
    rw [List.map_cons, List.sum_cons]
    congr 1
    unfold lenUtf8 Spec.charBytes
    repeat' split
    all_goals omega

/-- decoding undoes encoding -/
theorem next_encode (c : Char) (r : List UInt8) : nextCodePoint (String.utf8EncodeChar c ++ r) = some (c.toNat, r) := by
  have hc := char_lt c
  rcases encode_cases c with ⟨h, x, e, hx⟩ | ⟨h, h', x, y, e, hx, hy⟩ | ⟨h, h', x, y, z, e, hx, hy, hz⟩ |
    ⟨h, x, y, z, w, e, hx, hy, hz, hw⟩
  · rw [e]
    simp only [List.cons_append, List.nil_append, nextCodePoint]
    rw [if_pos (by omega), hx]
  · rw [e]
    simp only [List.cons_append, List.nil_append, nextCodePoint]
    rw [if_neg (by omega), if_pos (by omega)]
    congr 2
    omega
  · rw [e]
    simp only [List.cons_append, List.nil_append, nextCodePoint]
    rw [if_neg (by omega), if_neg (by omega), if_pos (by omega)]
    congr 2
    omega
  · rw [e]
    simp only [List.cons_append, List.nil_append, nextCodePoint]
    rw [if_neg (by omega), if_neg (by omega), if_neg (by omega)]
    congr 2
    omega

/-- a character begins with a byte that is not a continuation byte, and goes on with continuation bytes -/
theorem encode_bytes (c : Char) : ∃ x t, String.utf8EncodeChar c = x :: t ∧ (x.toNat < 128 ∨ 192 ≤ x.toNat) ∧
    ∀ y ∈ t, 128 ≤ y.toNat ∧ y.toNat < 192 := by
  have hc := char_lt c
  rcases encode_cases c with ⟨h, x, e, hx⟩ | ⟨h, h', x, y, e, hx, hy⟩ | ⟨h, h', x, y, z, e, hx, hy, hz⟩ |
    ⟨h, x, y, z, w, e, hx, hy, hz, hw⟩
  · exact ⟨x, [], e, by omega, by simp⟩
  · refine ⟨x, [y], e, by omega, ?_⟩
    simp only [List.mem_cons, List.not_mem_nil, or_false, forall_eq]
    omega
  · refine ⟨x, [y, z], e, by omega, ?_⟩
    simp only [List.mem_cons, List.not_mem_nil, or_false, forall_eq_or_imp, forall_eq]
    omega
  · refine ⟨x, [y, z, w], e, by omega, ?_⟩
    simp only [List.mem_cons, List.not_mem_nil, or_false, forall_eq_or_imp, forall_eq]
    omega

theorem charOfNat_toNat (c : Char) : Char.ofNat c.toNat = c := Char.ofNat_toNat c

theorem charIndicesBytes_utf8 (s : Str) : ∀ off fuel, (utf8 s).length ≤ fuel →
    charIndicesBytes off fuel (utf8 s) = charIndicesFrom off s := by
  induction s with
  | nil => intro off fuel _; cases fuel <;> rfl
  | cons c s ih =>
    intro off fuel h
    have hl : 0 < (String.utf8EncodeChar c).length := by rw [encode_length]; exact lenUtf8_pos c
    rw [utf8_cons, List.length_append] at h
    cases fuel with
    | zero => omega
    | succ fuel =>
      rw [utf8_cons, charIndicesBytes, next_encode]
      simp only [charIndicesFrom]
      rw [charOfNat_toNat, ih _ _ (by omega), List.length_append, ← encode_length]
      congr 2
      omega

/-- **C100** decoding the bytes of a text gives its characters, at the offsets the model uses -/
theorem C100_char_indices (s : Str) : strCharIndices (utf8 s) = char_indices s :=
  charIndicesBytes_utf8 s 0 _ (Nat.le_refl _)

theorem charIndicesFrom_snd (s : Str) : ∀ off, (charIndicesFrom off s).map Prod.snd = s := by
  induction s with
  | nil => intro _; rfl
  | cons c s ih => intro off; rw [charIndicesFrom, List.map_cons, ih]

/-- **C100** so every text is determined by its bytes -/
theorem C100_decode (s : Str) : (strCharIndices (utf8 s)).map Prod.snd = s := by
  rw [C100_char_indices]
  exact charIndicesFrom_snd s 0

theorem C100_injective (s t : Str) (h : utf8 s = utf8 t) : s = t := by
  rw [← C100_decode s, h, C100_decode]

/-- **C100** a byte offset is a character boundary exactly if it is the length of an initial part of the text -/
theorem C100_boundary (s : Str) (n : Nat) :
    isCharBoundary (utf8 s) n = true ↔ ∃ a b, s = a ++ b ∧ (utf8 a).length = n := by
  induction s generalizing n with
  | nil =>
    unfold isCharBoundary
    constructor
    · intro h
      refine ⟨[], [], rfl, ?_⟩
      by_cases h0 : n = 0
      · exact h0.symm
      · rw [if_neg h0] at h
        exact (beq_iff_eq.1 h).symm
    · rintro ⟨a, b, e, rfl⟩
      have : a = [] := (List.append_eq_nil_iff.1 e.symm).1
      subst this
      rfl
  | cons c s ih =>
    obtain ⟨x, t, e, hx, ht⟩ := encode_bytes c
    by_cases h0 : n = 0
    · subst h0
      simp only [isCharBoundary, if_true, true_iff]
      exact ⟨[], c :: s, rfl, rfl⟩
    · by_cases h1 : n < (String.utf8EncodeChar c).length
      · have hb : isCharBoundary (utf8 (c :: s)) n = false := by
          unfold isCharBoundary
          rw [if_neg h0, utf8_cons, List.getElem?_append_left h1]
          obtain ⟨m, rfl⟩ : ∃ m, n = m + 1 := ⟨n - 1, by omega⟩
          rw [e] at h1 ⊢
          rw [List.getElem?_cons_succ, List.getElem?_eq_getElem (by simpa using h1)]
          have := ht _ (List.getElem_mem (by simpa using h1 : m < t.length))
          simp only [decide_eq_false_iff_not]
          omega
        rw [hb]
        simp only [Bool.false_eq_true, false_iff]
        rintro ⟨a, b, ea, hl⟩
        cases a with
        | nil => exact h0 hl.symm
        | cons d a =>
          cases ea
          rw [utf8_cons, List.length_append] at hl
          omega
      · have hs : isCharBoundary (utf8 (c :: s)) n = isCharBoundary (utf8 s) (n - (String.utf8EncodeChar c).length) := by
          unfold isCharBoundary
          rw [if_neg h0, utf8_cons, List.getElem?_append_right (by omega), List.length_append]
          by_cases h2 : n - (String.utf8EncodeChar c).length = 0
          · rw [if_pos h2, h2]
            cases s with
            | nil =>
              have : n = (String.utf8EncodeChar c).length := by omega
              simp [utf8, this]
            | cons d s =>
              obtain ⟨x', t', e', hx', -⟩ := encode_bytes d
              rw [utf8_cons, e']
              simp [hx']
          · rw [if_neg h2]
            cases hg : (utf8 s)[n - (String.utf8EncodeChar c).length]? with
            | none =>
              rw [Bool.eq_iff_iff]
              simp only [beq_iff_eq]
              omega
            | some b => rfl
        rw [hs, ih]
        constructor
        · rintro ⟨a, b, rfl, hl⟩
          refine ⟨c :: a, b, rfl, ?_⟩
          rw [utf8_cons, List.length_append]
          omega
        · rintro ⟨a, b, ea, hl⟩
          cases a with
          | nil => exact absurd hl.symm h0
          | cons d a =>
            cases ea
            rw [utf8_cons, List.length_append] at hl
            exact ⟨a, b, rfl, by omega⟩

theorem splitAtByte_ok (s : Str) : ∀ (n : Nat) (a b : Str), splitAtByte s n = .ok (a, b) → s = a ++ b ∧ byteLen a = n := by
  induction s with
  | nil =>
    intro n a b h
    cases n with
    | zero => rw [splitAtByte] at h; cases h; exact ⟨rfl, rfl⟩
    | succ n => rw [splitAtByte] at h; cases h
  | cons c s ih =>
    intro n a b h
    cases n with
    | zero => rw [splitAtByte] at h; cases h; exact ⟨rfl, rfl⟩
    | succ n =>
      rw [splitAtByte] at h
      · split at h
        · rename_i hle
          cases hr : splitAtByte s (n + 1 - lenUtf8 c) with
          | error e => rw [hr] at h; cases h
          | ok r =>
            rw [hr] at h
            cases h
            obtain ⟨e1, e2⟩ := ih _ r.1 r.2 hr
            refine ⟨by rw [List.cons_append, ← e1], ?_⟩
            simp only [byteLen]
            omega
        · cases h
      · intro h; cases h

theorem splitAtByte_error (s : Str) (n : Nat) (e : Fault) (h : splitAtByte s n = .error e) :
    e = .panic ∧ isCharBoundary (utf8 s) n = false := by
  have he : e = .panic := by
    induction s generalizing n with
    | nil => cases n <;> rw [splitAtByte] at h <;> cases h; rfl
    | cons c s ih =>
      cases n with
      | zero => rw [splitAtByte] at h; cases h
      | succ n =>
        rw [splitAtByte] at h
        · split at h
          · cases hr : splitAtByte s (n + 1 - lenUtf8 c) with
            | error e' => rw [hr] at h; cases h; exact ih _ hr
            | ok r => rw [hr] at h; cases h
          · cases h; rfl
        · intro h; cases h
  refine ⟨he, ?_⟩
  rw [← Bool.not_eq_true, C100_boundary]
  rintro ⟨a, b, rfl, rfl⟩
  rw [utf8_length, splitAtByte_boundary] at h
  cases h

/-- the model's slice is the slice of the bytes -/
theorem strSlice_utf8 (s : Str) (i j : Nat) : strSlice (utf8 s) i j = (sliceBytes s i j).map utf8 := by
  unfold strSlice sliceBytes
  by_cases hij : i ≤ j
  · rw [if_pos hij]
    cases h1 : splitAtByte s i with
    | error e =>
      obtain ⟨rfl, hb⟩ := splitAtByte_error s i e h1
      rw [if_neg (by rw [hb]; simp)]
      rfl
    | ok r =>
      obtain ⟨e1, e2⟩ := splitAtByte_ok s i r.1 r.2 h1
      have hbi : isCharBoundary (utf8 s) i = true := (C100_boundary s i).2 ⟨r.1, r.2, e1, by rw [utf8_length, e2]⟩
      simp only [bind, Except.bind]
      cases h2 : splitAtByte r.2 (j - i) with
      | error e =>
        obtain ⟨rfl, hb⟩ := splitAtByte_error r.2 (j - i) e h2
        rw [if_neg]
        · rfl
        · rintro ⟨-, -, hbj⟩
          rw [C100_boundary] at hbj
          obtain ⟨a, b, e3, e4⟩ := hbj
          rw [← Bool.not_eq_true, C100_boundary] at hb
          apply hb
          have hp : r.1 <+: a := by
            refine List.prefix_of_prefix_length_le (l₃ := s) ⟨r.2, e1.symm⟩ ⟨b, e3.symm⟩ ?_
            apply Classical.byContradiction
            intro hlt
            have h5 := byteLen_take_lt s (i := a.length) (j := r.1.length) (by omega) (by
              rw [e1]; simp; omega)
            rw [show s.take a.length = a by rw [e3]; simp, show s.take r.1.length = r.1 by rw [e1]; simp,
              ← utf8_length, e4, e2] at h5
            omega
          obtain ⟨m, rfl⟩ := hp
          refine ⟨m, b, ?_, ?_⟩
          · rw [e1, List.append_assoc] at e3
            exact List.append_cancel_left e3
          · rw [utf8_append, List.length_append, utf8_length r.1, e2] at e4
            omega
      | ok q =>
        obtain ⟨e3, e4⟩ := splitAtByte_ok _ _ q.1 q.2 h2
        have hbj : isCharBoundary (utf8 s) j = true := (C100_boundary s j).2
          ⟨r.1 ++ q.1, q.2, by rw [List.append_assoc, ← e3, ← e1], by
            rw [utf8_append, List.length_append, utf8_length, utf8_length, e2, e4]; omega⟩
        rw [if_pos ⟨hij, hbi, hbj⟩]
        simp only [Except.map]
        congr 1
        rw [e1, e3, utf8_append, utf8_append, List.drop_left' (by rw [utf8_length, e2]),
          List.take_left' (by rw [utf8_length, e4])]
  · rw [if_neg hij, if_neg fun h => hij h.1]
    rfl

/-- **C100** `get_chunk` on the bytes of a text does what the model does on its characters: the same panics, and the
bytes of the same characters -/
theorem C100_get_chunk (text : Str) (start stop : Nat) :
    get_chunk_bytes (utf8 text) start stop = (get_chunk text start stop).map utf8 := by
  unfold get_chunk_bytes get_chunk
  rw [C100_char_indices, utf8_length]
  exact strSlice_utf8 _ _ _

/-- **C100** and never cuts a character: whatever it returns is the bytes of a piece of the text -/
theorem C100_whole_characters (text : Str) (start stop : Nat) (bs : List UInt8)
    (h : get_chunk_bytes (utf8 text) start stop = .ok bs) : ∃ a m b, text = a ++ m ++ b ∧ bs = utf8 m := by
  rw [C100_get_chunk] at h
  cases hc : get_chunk text start stop with
  | error e => rw [hc] at h; cases h
  | ok m =>
    rw [hc] at h
    cases h
    by_cases hs : start < text.length
    · by_cases hl : start ≤ stop
      · rw [C54_inside_partial text start stop hl hs] at hc
        cases hc
        refine ⟨text.take start, _, text.drop stop, ?_, rfl⟩
        have h1 := List.take_append_drop start text
        have h2 := List.take_append_drop (stop - start) (text.drop start)
        rw [List.drop_drop, show start + (stop - start) = stop by omega] at h2
        rw [List.append_assoc, h2, h1]
      · rw [C54_panics text start stop (by omega) hs] at hc
        cases hc
    · rw [C54_past_end text start stop (by omega)] at hc
      cases hc
      exact ⟨[], _, text.drop stop, by simp, rfl⟩

example : utf8 ['a', 'é', 'か', '𠮷'] = [0x61, 0xC3, 0xA9, 0xE3, 0x81, 0x8B, 0xF0, 0xA0, 0xAE, 0xB7] ∧
    get_chunk_bytes (utf8 ['a', 'é', 'か', '𠮷']) 1 3 = .ok [0xC3, 0xA9, 0xE3, 0x81, 0x8B] ∧
    isCharBoundary (utf8 ['a', 'é', 'か', '𠮷']) 2 = false ∧
    strSlice (utf8 ['a', 'é', 'か', '𠮷']) 2 3 = .error .panic := by decide

end WanaKana
