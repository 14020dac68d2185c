import Verif.Model.Utf8Convert
import Verif.Props.Utf8Trim
import Verif.Proofs.StdConcrete
/-! # C104: the checks and conversions on UTF-8 bytes -/

namespace WanaKana

theorem utf8_isEmpty (s : Str) : (utf8 s).isEmpty = s.isEmpty := by
  rw [Bool.eq_iff_iff, List.isEmpty_iff, List.isEmpty_iff, utf8_eq_nil]

/-- **C104** the checks read the characters -/
theorem C104_checks (s : Str) :
    allCharsBytes is_char_hiragana (utf8 s) = is_hiragana s ∧ allCharsBytes is_char_katakana (utf8 s) = is_katakana s ∧
    allCharsBytes is_char_kana (utf8 s) = is_kana s ∧ allCharsBytes is_char_kanji (utf8 s) = is_kanji s ∧
    allCharsBytes is_char_romaji (utf8 s) = is_romaji s ∧ allCharsBytes is_char_japanese (utf8 s) = is_japanese s ∧
    contains_kanji_bytes (utf8 s) = contains_kanji s ∧
    ∀ pass, is_mixed_pass_kanji_bytes (utf8 s) pass = is_mixed_pass_kanji s pass := by
  unfold allCharsBytes contains_kanji_bytes is_mixed_pass_kanji_bytes
  rw [utf8_isEmpty, strChars_utf8]
  exact ⟨rfl, rfl, rfl, rfl, rfl, rfl, rfl, fun _ => rfl⟩

/-- **C104** -/
theorem C104_hiragana_to_katakana (s : Str) :
    hiragana_to_katakana_bytes (utf8 s) = (hiragana_to_katakana s).map utf8 := by
  unfold hiragana_to_katakana_bytes
  rw [strChars_utf8]
  cases hiragana_to_katakana s with
  | error e => rfl
  | ok k => simp only [bind, Except.bind, Except.map, strCollect_utf8]

/-- **C104** -/
theorem C104_katakana_to_hiragana (std : Std) (s : Str) (dest : Bool) :
    katakana_to_hiragana_with_opt_bytes std (utf8 s) dest = (katakana_to_hiragana_with_opt std s dest).map utf8 := by
  unfold katakana_to_hiragana_with_opt_bytes katakana_to_hiragana_with_opt
  rw [strChars_utf8]
  cases k2hLoop std s dest s 0 none [] with
  | error e => rfl
  | ok k => simp only [bind, Except.bind, Except.map, strCollect_utf8]

theorem toKanaLoopBytes_eq (std : Std) (options : Options) (chars : Str) (len : Nat) : ∀ (fuel pos : Nat) (out : Str),
    toKanaLoopBytes std options chars len fuel pos (utf8 out)
      = (toKanaLoop std options chars len fuel pos out).map utf8 := by
  intro fuel
  induction fuel with
  | zero => intro pos out; rfl
  | succ fuel ih =>
    intro pos out
    rw [toKanaLoopBytes, toKanaLoop]
    by_cases hp : pos ≠ len
    · rw [if_pos hp, if_pos hp]
      cases sliceFrom chars pos with
      | error e => rfl
      | ok rest =>
        simp only [bind, Except.bind]
        cases toKanaLookup options rest with
        | error e => rfl
        | ok result =>
          simp only
          by_cases hr : (result.2 == 0 || result.1.isNone) = true
          · rw [if_pos hr, if_pos hr]
            cases index chars pos with
            | error e => rfl
            | ok c => simp only; rw [strCollect_utf8, ← utf8_append, ih]
          · rw [if_neg hr, if_neg hr]
            cases slice chars pos (pos + result.2) with
            | error e => rfl
            | ok consumed =>
              simp only
              cases unwrap result.1 with
              | error e => rfl
              | ok o =>
                simp only
                by_cases hu : consumed.all std.isUppercase = true
                · rw [if_pos hu, if_pos hu, strCollect_utf8, C104_hiragana_to_katakana]
                  cases hiragana_to_katakana o with
                  | error e => rfl
                  | ok k => simp only [Except.map]; rw [← utf8_append, ih]; rfl
                · rw [if_neg hu, if_neg hu, strCollect_utf8, ← utf8_append, ih]
    · rw [if_neg hp, if_neg hp]; rfl

/-- **C104** -/
theorem C104_to_kana (std : Std) (s : Str) (options : Options) :
    to_kana_with_opt_bytes std (utf8 s) options = (to_kana_with_opt std s options).map utf8 := by
  unfold to_kana_with_opt_bytes to_kana_with_opt
  simp only [strChars_utf8]
  exact toKanaLoopBytes_eq std options s _ _ _ []

theorem utf8_ascii (c : Char) (h : c.toNat < 128) : utf8 [c] = [UInt8.ofNat c.toNat] := by
  rw [← strCollect_utf8]
  simp [strCollect, h]

theorem ofNat_toNat_lt {n : Nat} (h : n < 256) : (UInt8.ofNat n).toNat = n := by
  rw [UInt8.toNat_ofNat']; omega

/-- bytes below 128 at the beginning are characters -/
theorem utf8_take_ascii (n : Nat) : ∀ s : Str, n ≤ (utf8 s).length →
    ((utf8 s).take n).all (fun b => decide (b.toNat < 128)) = true →
    ∃ a b, s = a ++ b ∧ (∀ c ∈ a, c.toNat < 128) ∧ a.length = n ∧ (utf8 s).take n = utf8 a ∧ (utf8 s).drop n = utf8 b := by
  induction n with
  | zero => intro s _ _; exact ⟨[], s, rfl, by simp, rfl, rfl, rfl⟩
  | succ n ih =>
    intro s hl ha
    cases s with
    | nil => simp [utf8] at hl
    | cons c s =>
      have hc : c.toNat < 128 := by
        rcases encode_cases c with ⟨h, -⟩ | ⟨h, h', x, y, e, hx, -⟩ | ⟨h, h', x, y, z, e, hx, -⟩ | ⟨h, x, y, z, w, e, hx, -⟩
        · exact h
        all_goals
          rw [utf8_cons, e, List.cons_append, List.take_succ_cons, List.all_cons, Bool.and_eq_true, decide_eq_true_eq] at ha
          omega
      have e : utf8 (c :: s) = UInt8.ofNat c.toNat :: utf8 s := by
        rw [show c :: s = [c] ++ s from rfl, utf8_append, utf8_ascii c hc]; rfl
      rw [e, List.length_cons] at hl
      rw [e, List.take_succ_cons, List.all_cons, Bool.and_eq_true] at ha
      obtain ⟨a, b, rfl, h1, h2, h3, h4⟩ := ih s (by omega) ha.2
      refine ⟨c :: a, b, rfl, ?_, by rw [List.length_cons, h2], ?_, ?_⟩
      · intro d hd
        rcases List.mem_cons.1 hd with rfl | hd
        · exact hc
        · exact h1 d hd
      · rw [e, List.take_succ_cons, h3, show c :: a = [c] ++ a from rfl, utf8_append, utf8_ascii c hc]; rfl
      · rw [e, List.drop_succ_cons, h4]

theorem convertWhileAscii_utf8 (n : Nat) (f : UInt8 → UInt8) : ∀ (fuel : Nat) (s : Str),
    ∃ a b, s = a ++ b ∧ (∀ c ∈ a, c.toNat < 128) ∧ convertWhileAscii n f fuel (utf8 s) = ((utf8 a).map f, utf8 b) := by
  intro fuel
  induction fuel with
  | zero => intro s; exact ⟨[], s, rfl, by simp, rfl⟩
  | succ fuel ih =>
    intro s
    rw [convertWhileAscii]
    by_cases h : n ≤ (utf8 s).length ∧ ((utf8 s).take n).all (fun b => decide (b.toNat < 128)) = true
    · rw [if_pos h]
      obtain ⟨a, b, rfl, h1, -, h3, h4⟩ := utf8_take_ascii n s h.1 h.2
      obtain ⟨a', b', rfl, h1', h5⟩ := ih b
      refine ⟨a ++ a', b', by rw [List.append_assoc], ?_, ?_⟩
      · intro c hc
        rcases List.mem_append.1 hc with hc | hc
        · exact h1 c hc
        · exact h1' c hc
      · simp only [h3, h4, h5]
        rw [utf8_append, List.map_append]
    · rw [if_neg h]
      exact ⟨[], s, rfl, by simp, rfl⟩

theorem ascii_map (f : UInt8 → UInt8) (g : Char → Str) (h : ∀ c : Char, c.toNat < 128 →
    [f (UInt8.ofNat c.toNat)] = utf8 (g c)) : ∀ a : Str, (∀ c ∈ a, c.toNat < 128) → (utf8 a).map f = utf8 (a.flatMap g) := by
  intro a
  induction a with
  | nil => intro _; rfl
  | cons c a ih =>
    intro ha
    rw [show c :: a = [c] ++ a from rfl, utf8_append, utf8_ascii c (ha c (by simp)), List.map_append,
      ih (fun d hd => ha d (by simp [hd])), List.flatMap_append, utf8_append]
    rw [List.map_cons, List.map_nil, h c (ha c (by simp))]
    simp

theorem ascii_lower (std : Std) (hs : std.Lawful) (c : Char) (hc : c.toNat < 128) :
    [asciiLowerByte (UInt8.ofNat c.toNat)] = utf8 (std.lowerChar c) := by
  rw [hs.lowerChar_ascii c hc]
  unfold asciiLowerByte toAsciiLowercase
  rw [ofNat_toNat_lt (by omega)]
  by_cases h : 65 ≤ c.toNat ∧ c.toNat ≤ 90
  · rw [if_pos h, if_pos h]
    have hv : (Char.ofNat (c.toNat + 32)).toNat = c.toNat + 32 :=
      toNat_ofNat_lt (by omega)
    rw [utf8_ascii _ (by omega), hv]
    congr 1
    apply UInt8.toNat_inj.1
    rw [UInt8.toNat_add, ofNat_toNat_lt (by omega), ofNat_toNat_lt (by omega)]
    show (c.toNat + 32) % 256 = _
    omega
  · rw [if_neg h, if_neg h, utf8_ascii c hc]

theorem ascii_upper (std : Std) (hs : std.Lawful) (c : Char) (hc : c.toNat < 128) :
    [asciiUpperByte (UInt8.ofNat c.toNat)] = utf8 (std.upperChar c) := by
  rw [hs.upperChar_ascii c hc]
  unfold asciiUpperByte
  rw [ofNat_toNat_lt (by omega)]
  by_cases h : 97 ≤ c.toNat ∧ c.toNat ≤ 122
  · rw [if_pos h, if_pos h]
    have hv : (Char.ofNat (c.toNat - 32)).toNat = c.toNat - 32 :=
      toNat_ofNat_lt (by omega)
    rw [utf8_ascii _ (by omega), hv]
    congr 1
    apply UInt8.toNat_inj.1
    rw [UInt8.toNat_sub_of_le _ _ (by
      rw [UInt8.le_iff_toNat_le, ofNat_toNat_lt (by omega)]; show 32 ≤ _; omega),
      ofNat_toNat_lt (by omega), ofNat_toNat_lt (by omega)]
    rfl
  · rw [if_neg h, if_neg h, utf8_ascii c hc]

/-- a piece between two boundaries -/
theorem strSlice_parts (a m b : Str) :
    strSlice (utf8 (a ++ m ++ b)) (utf8 a).length (utf8 (a ++ m)).length = .ok (utf8 m) := by
  unfold strSlice
  rw [if_pos]
  · congr 1
    rw [List.append_assoc, utf8_append a (m ++ b), List.drop_left' rfl, utf8_append a m, List.length_append, Nat.add_sub_cancel_left,
      utf8_append, List.take_left' rfl]
  · refine ⟨?_, ?_, ?_⟩
    · rw [utf8_append a m, List.length_append]; omega
    · exact (C100_boundary _ _).2 ⟨a, m ++ b, by rw [List.append_assoc], rfl⟩
    · exact (C100_boundary _ _).2 ⟨a ++ m, b, rfl, rfl⟩

theorem utf8_flatMap (s : Str) (g : Char → Str) : utf8 (s.flatMap g) = s.flatMap fun c => utf8 (g c) := by
  unfold utf8; rw [List.flatMap_assoc]

theorem lowercaseLoop_eq (std : Std) (plen : Nat) : ∀ (post pre : Str) (off : Nat) (acc : Str),
    plen + off = (utf8 pre).length →
    lowercaseLoopBytes std (utf8 (pre ++ post)) plen (charIndicesFrom off post) (utf8 acc)
      = .ok (utf8 (acc ++ std.lowerFrom pre post)) := by
  intro post
  induction post with
  | nil => intro pre off acc _; rw [charIndicesFrom, lowercaseLoopBytes, Std.lowerFrom, List.append_nil]
  | cons c post ih =>
    intro pre off acc ho
    have e : pre ++ c :: post = (pre ++ [c]) ++ post := by rw [List.append_assoc]; rfl
    have ho' : plen + (off + lenUtf8 c) = (utf8 (pre ++ [c])).length := by
      rw [utf8_append, List.length_append, utf8_length [c], ← ho]
      simp only [byteLen]
      omega
    rw [charIndicesFrom, lowercaseLoopBytes, Std.lowerFrom]
    by_cases hc : c = 'Σ'
    · rw [if_pos hc, if_pos hc]
      have h1 : strSlice (utf8 (pre ++ c :: post)) 0 (plen + off) = .ok (utf8 pre) := by
        rw [ho]
        exact strSlice_parts [] pre (c :: post)
      have h2 : strSlice (utf8 (pre ++ c :: post)) (plen + off + 2) (utf8 (pre ++ c :: post)).length = .ok (utf8 post) := by
        have h3 : plen + off + 2 = (utf8 (pre ++ [c])).length := by
          rw [← ho', hc]
          have : lenUtf8 'Σ' = 2 := by decide
          omega
        have := strSlice_parts (pre ++ [c]) post []
        rw [List.append_nil] at this
        rw [h3, e]
        exact this
      rw [h1]
      simp only [bind, Except.bind]
      rw [h2]
      simp only [strChars_utf8]
      rw [strCollect_utf8, ← utf8_append, e, ih (pre ++ [c]) _ _ ho', List.append_assoc]
    · rw [if_neg hc, if_neg hc, strCollect_utf8, ← utf8_append, e, ih (pre ++ [c]) _ _ ho', List.append_assoc]

theorem lowerFrom_ascii (std : Std) : ∀ (a pre b : Str), (∀ c ∈ a, c.toNat < 128) →
    std.lowerFrom pre (a ++ b) = a.flatMap std.lowerChar ++ std.lowerFrom (pre ++ a) b := by
  intro a
  induction a with
  | nil => intro pre b _; rw [List.nil_append, List.append_nil]; rfl
  | cons c a ih =>
    intro pre b h
    have hc : c ≠ 'Σ' := by
      intro e
      have := h c (by simp)
      rw [e] at this
      revert this
      decide
    rw [List.cons_append, Std.lowerFrom, if_neg hc, ih _ _ fun d hd => h d (by simp [hd]), List.flatMap_cons,
      List.append_assoc, List.append_assoc]
    rfl

/-- **C104** `str::to_lowercase` on bytes is the model's, whatever the size of the chunks of its fast path is; its slices
around a Σ never panic -/
theorem C104_lowercase (std : Std) (hs : std.Lawful) (n : Nat) (s : Str) :
    toLowercaseBytes std n (utf8 s) = .ok (utf8 (std.toLowercase s)) := by
  unfold toLowercaseBytes Std.toLowercase
  obtain ⟨a, b, rfl, ha, hc⟩ := convertWhileAscii_utf8 n asciiLowerByte (utf8 s).length s
  simp only [hc]
  rw [C100_char_indices, char_indices, ascii_map asciiLowerByte std.lowerChar (ascii_lower std hs) a ha]
  have hl : (utf8 (a.flatMap std.lowerChar)).length = (utf8 a).length := by
    rw [← ascii_map asciiLowerByte std.lowerChar (ascii_lower std hs) a ha, List.length_map]
  rw [lowercaseLoop_eq std _ b a 0 _ (by rw [hl]; rfl), lowerFrom_ascii std a [] b ha]
  rfl

/-- **C104** and `str::to_uppercase` -/
theorem C104_uppercase (std : Std) (hs : std.Lawful) (n : Nat) (s : Str) :
    toUppercaseBytes std n (utf8 s) = utf8 (std.toUppercase s) := by
  unfold toUppercaseBytes Std.toUppercase
  obtain ⟨a, b, rfl, ha, hc⟩ := convertWhileAscii_utf8 n asciiUpperByte (utf8 s).length s
  simp only [hc]
  rw [ascii_map asciiUpperByte std.upperChar (ascii_upper std hs) a ha, strChars_utf8, List.flatMap_append, utf8_append,
    utf8_flatMap b]
  congr 2
  funext c
  exact strCollect_utf8 _

theorem toRomajiLoopBytes_eq (std : Std) (hs : std.Lawful) (n : Nat) (options : Options) (orig chars : Str) (len : Nat) :
    ∀ (fuel pos : Nat) (out : Str), toRomajiLoopBytes std n options orig chars len fuel pos (utf8 out)
      = (toRomajiLoop std options orig chars len fuel pos out).map utf8 := by
  intro fuel
  induction fuel with
  | zero => intro pos out; rfl
  | succ fuel ih =>
    intro pos out
    rw [toRomajiLoopBytes, toRomajiLoop]
    by_cases hp : pos ≠ len
    · rw [if_pos hp, if_pos hp]
      cases sliceFrom chars pos with
      | error e => rfl
      | ok rest =>
        simp only [bind, Except.bind]
        cases TO_ROMAJI_NODE_TREE.get std rest with
        | error e => rfl
        | ok result =>
          simp only
          by_cases hr : (result.2 == 0) = true
          · rw [if_pos hr, if_pos hr]
            cases index chars pos with
            | error e => rfl
            | ok c => simp only; rw [strCollect_utf8, ← utf8_append, ih]
          · rw [if_neg hr, if_neg hr]
            cases slice orig pos (pos + result.2) with
            | error e => rfl
            | ok consumed =>
              simp only
              rw [strCollect_utf8, C104_uppercase std hs, ← ih, utf8_append]
              congr 2
              by_cases h1 : consumed.all is_char_katakana = true
              · rw [if_pos h1]; split <;> rfl
              · rw [if_neg h1]; rfl
    · rw [if_neg hp, if_neg hp]; rfl

/-- **C104** -/
theorem C104_to_romaji (std : Std) (hs : std.Lawful) (n : Nat) (s : Str) (options : Options) :
    to_romaji_with_opt_bytes std n (utf8 s) options = (to_romaji_with_opt std s options).map utf8 := by
  unfold to_romaji_with_opt_bytes to_romaji_with_opt
  rw [C104_katakana_to_hiragana]
  cases katakana_to_hiragana_with_opt std s true with
  | error e => rfl
  | ok k =>
    simp only [bind, Except.bind, Except.map, strChars_utf8]
    exact toRomajiLoopBytes_eq std hs n options s k _ _ _ []

theorem romaji_to_hiragana_utf8 (std : Std) (hs : std.Lawful) (n : Nat) (s : Str) (options : Options) :
    romaji_to_hiragana_bytes std n (utf8 s) options = (romaji_to_hiragana std s options).map utf8 := by
  unfold romaji_to_hiragana_bytes romaji_to_hiragana
  rw [C104_lowercase std hs]
  exact C104_to_kana std _ options

/-- **C104** -/
theorem C104_to_hiragana (std : Std) (hs : std.Lawful) (n : Nat) (s : Str) (options : Options) :
    to_hiragana_with_opt_bytes std n (utf8 s) options = (to_hiragana_with_opt std s options).map utf8 := by
  obtain ⟨-, -, -, -, h5, -, -, h8⟩ := C104_checks s
  unfold to_hiragana_with_opt_bytes to_hiragana_with_opt
  rw [h5, h8, strChars_utf8, show is_mixed_pass_kanji s true = is_mixed s from rfl,
    romaji_to_hiragana_utf8 std hs, show katakana_to_hiragana_bytes std (utf8 s) = _ from
      C104_katakana_to_hiragana std s false]
  repeat' split
  · rfl
  · show Except.bind _ _ = Except.map _ (Except.bind (katakana_to_hiragana_with_opt std s false) _)
    cases katakana_to_hiragana_with_opt std s false with
    | error e => rfl
    | ok k => exact romaji_to_hiragana_utf8 std hs n k options
  · rfl
  · rfl

/-- **C104** -/
theorem C104_to_katakana (std : Std) (hs : std.Lawful) (n : Nat) (s : Str) (options : Options) :
    to_katakana_with_opt_bytes std n (utf8 s) options = (to_katakana_with_opt std s options).map utf8 := by
  obtain ⟨-, -, -, -, h5, -, -, h8⟩ := C104_checks s
  unfold to_katakana_with_opt_bytes to_katakana_with_opt
  rw [h5, h8, show is_mixed_pass_kanji s true = is_mixed s from rfl, romaji_to_hiragana_utf8 std hs,
    C104_hiragana_to_katakana]
  repeat' split
  · rfl
  · show Except.bind _ _ = Except.map _ (Except.bind _ _)
    cases romaji_to_hiragana std s options with
    | error e => rfl
    | ok k => exact C104_hiragana_to_katakana k
  · rfl

theorem nextRev_encode (c : Char) (r : List UInt8) :
    nextCodePointReverse ((String.utf8EncodeChar c).reverse ++ r) = some (c.toNat, r) := by
  have hc := char_lt c
  rcases encode_cases c with ⟨h, x, e, hx⟩ | ⟨h, h', x, y, e, hx, hy⟩ | ⟨h, h', x, y, z, e, hx, hy, hz⟩ |
    ⟨h, x, y, z, w, e, hx, hy, hz, hw⟩
  · rw [e]
    simp only [List.reverse_cons, List.reverse_nil, List.cons_append, List.nil_append, nextCodePointReverse]
    rw [if_pos (by omega), hx]
  · rw [e]
    simp only [List.reverse_cons, List.reverse_nil, List.cons_append, List.nil_append, nextCodePointReverse]
    rw [if_neg (by omega), if_pos (by omega)]
    congr 2
    omega
  · rw [e]
    simp only [List.reverse_cons, List.reverse_nil, List.cons_append, List.nil_append, nextCodePointReverse]
    rw [if_neg (by omega), if_neg (by omega), if_pos (by omega)]
    congr 2
    omega
  · rw [e]
    simp only [List.reverse_cons, List.reverse_nil, List.cons_append, List.nil_append, nextCodePointReverse]
    rw [if_neg (by omega), if_neg (by omega), if_neg (by omega)]
    congr 2
    omega

theorem charsRevLoop_utf8 (t : Str) : ∀ fuel, (utf8 t.reverse).length ≤ fuel →
    strCharsRevLoop fuel (utf8 t.reverse).reverse = t := by
  induction t with
  | nil => intro fuel _; cases fuel <;> rfl
  | cons c t ih =>
    intro fuel h
    have hl : 0 < (String.utf8EncodeChar c).length := by rw [encode_length]; exact lenUtf8_pos c
    have e : utf8 (c :: t).reverse = utf8 t.reverse ++ String.utf8EncodeChar c := by
      rw [List.reverse_cons, utf8_append]
      simp [utf8]
    rw [e, List.length_append] at h
    cases fuel with
    | zero => omega
    | succ fuel =>
      rw [e, List.reverse_append, strCharsRevLoop, nextRev_encode]
      simp only
      rw [charOfNat_toNat, ih fuel (by omega)]

/-- **C104** decoding from the end gives the characters from last to first, so `chars().last()` is the last character -/
theorem C104_reverse (s : Str) : strCharsRev (utf8 s) = s.reverse ∧ (strCharsRev (utf8 s)).head? = s.getLast? := by
  have h : strCharsRev (utf8 s) = s.reverse := by
    have := charsRevLoop_utf8 s.reverse (utf8 s).length (by rw [List.reverse_reverse]; exact Nat.le_refl _)
    rw [List.reverse_reverse] at this
    exact this
  exact ⟨h, by rw [h, List.head?_reverse]⟩

example : to_kana_with_opt_bytes modernStd (utf8 ['k', 'a', 'é', 'K', 'A', 'か']) {}
    = .ok [0xE3, 0x81, 0x8B, 0xC3, 0xA9, 0xE3, 0x82, 0xAB, 0xE3, 0x81, 0x8B] := by decide +kernel

example : to_romaji_with_opt_bytes modernStd 4 (utf8 ['カ', 'ー', '日', 'か']) { upcase_katakana := true }
    = .ok [0x4B, 0x41, 0x41, 0xE6, 0x97, 0xA5, 0x6B, 0x61] := by decide +kernel

example : toLowercaseBytes modernStd 2 (utf8 ['A', 'B', 'C', 'Σ', 'Ē', 'D'])
    = .ok [0x61, 0x62, 0x63, 0xCF, 0x83, 0xC4, 0x93, 0x64] := by decide +kernel

example : strCharsRev (utf8 ['a', 'é', 'か', '𠮷']) = ['𠮷', 'か', 'é', 'a'] := by decide +kernel

end WanaKana
