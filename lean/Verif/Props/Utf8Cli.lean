import Verif.Model.Utf8Cli
import Verif.Props.Utf8Convert
import Verif.Props.Cli
/-! # C105: the command line tools on bytes -/

namespace WanaKana

theorem byteIn_iff {lo hi : Nat} {b : UInt8} : byteIn lo hi b = true ↔ lo ≤ b.toNat ∧ b.toNat ≤ hi := by
  unfold byteIn
  rw [Bool.and_eq_true, decide_eq_true_eq, decide_eq_true_eq]

theorem utf8Valid_one {x : UInt8} {r : List UInt8} (h : x.toNat < 128) : utf8Valid (x :: r) = utf8Valid r := by
  rw [utf8Valid.eq_def]
  simp only [if_pos h]

theorem utf8Valid_two {x y : UInt8} {r : List UInt8} (hx : 0xC2 ≤ x.toNat ∧ x.toNat ≤ 0xDF) :
    utf8Valid (x :: y :: r) = (isContByte y && utf8Valid r) := by
  rw [utf8Valid.eq_def]
  dsimp only
  rw [if_neg (by omega), if_pos (by rw [byteIn_iff]; omega)]

theorem utf8Valid_three {x y z : UInt8} {r : List UInt8} (hx : 0xE0 ≤ x.toNat ∧ x.toNat ≤ 0xEF) :
    utf8Valid (x :: y :: z :: r) = true ↔ (128 ≤ y.toNat ∧ y.toNat < 192 ∧ (x.toNat = 0xE0 → 0xA0 ≤ y.toNat) ∧
      (x.toNat = 0xED → y.toNat < 0xA0)) ∧ (128 ≤ z.toNat ∧ z.toNat < 192) ∧ utf8Valid r = true := by
  rw [utf8Valid.eq_def]
  dsimp only
  rw [if_neg (by omega), if_neg (by rw [byteIn_iff]; omega), if_pos (by rw [byteIn_iff]; omega)]
  simp only [isContByte, byteIn_iff, Bool.and_eq_true, Bool.or_eq_true, decide_eq_true_eq, and_assoc]
  cases utf8Valid r
  · simp
  · simp only [and_true]; omega

theorem utf8Valid_four {x y z w : UInt8} {r : List UInt8} (hx : 0xF0 ≤ x.toNat ∧ x.toNat ≤ 0xF4) :
    utf8Valid (x :: y :: z :: w :: r) = true ↔ (128 ≤ y.toNat ∧ y.toNat < 192 ∧ (x.toNat = 0xF0 → 0x90 ≤ y.toNat) ∧
      (x.toNat = 0xF4 → y.toNat < 0x90)) ∧ (128 ≤ z.toNat ∧ z.toNat < 192) ∧ (128 ≤ w.toNat ∧ w.toNat < 192) ∧
      utf8Valid r = true := by
  rw [utf8Valid.eq_def]
  dsimp only
  rw [if_neg (by omega), if_neg (by rw [byteIn_iff]; omega), if_neg (by rw [byteIn_iff]; omega), if_pos (by rw [byteIn_iff]; omega)]
  simp only [isContByte, byteIn_iff, Bool.and_eq_true, Bool.or_eq_true, decide_eq_true_eq, and_assoc]
  cases utf8Valid r
  · simp
  · simp only [and_true]; omega

theorem char_range (c : Char) : c.toNat < 0xD800 ∨ (0xDFFF < c.toNat ∧ c.toNat < 0x110000) := by
  have := c.valid
  unfold UInt32.isValidChar Nat.isValidChar at this
  exact this

theorem utf8Valid_encode (c : Char) (r : List UInt8) : utf8Valid (String.utf8EncodeChar c ++ r) = utf8Valid r := by
  have hc := char_range c
  rcases encode_cases c with ⟨h, x, e, hx⟩ | ⟨h, h', x, y, e, hx, hy⟩ | ⟨h, h', x, y, z, e, hx, hy, hz⟩ |
    ⟨h, x, y, z, w, e, hx, hy, hz, hw⟩
  · rw [e]
    exact utf8Valid_one (by omega)
  · rw [e]
    simp only [List.cons_append, List.nil_append]
    rw [utf8Valid_two (by omega), show isContByte y = true by simp [isContByte]; omega, Bool.true_and]
  · rw [e]
    simp only [List.cons_append, List.nil_append]
    rw [Bool.eq_iff_iff, utf8Valid_three (by omega)]
    exact ⟨fun h => h.2.2, fun h => ⟨by omega, by omega, h⟩⟩
  · rw [e]
    simp only [List.cons_append, List.nil_append]
    rw [Bool.eq_iff_iff, utf8Valid_four (by omega)]
    exact ⟨fun h => h.2.2.2, fun h => ⟨by omega, by omega, by omega, h⟩⟩

theorem char_of {n : Nat} (h : n < 0xD800 ∨ (0xDFFF < n ∧ n < 0x110000)) : ∃ c : Char, c.toNat = n :=
  ⟨Char.ofNat n, toNat_ofNat h⟩

theorem utf8Valid_decode (n : Nat) : ∀ bs : List UInt8, bs.length ≤ n → utf8Valid bs = true → ∃ s, bs = utf8 s := by
  induction n with
  | zero =>
    intro bs hl _
    exact ⟨[], List.length_eq_zero_iff.1 (Nat.le_zero.1 hl)⟩
  | succ n ih =>
    intro bs hl hv
    match bs with
    | [] => exact ⟨[], rfl⟩
    | x :: r =>
      have hx256 := x.toNat_lt
      by_cases h1 : x.toNat < 128
      · rw [utf8Valid_one h1] at hv
        obtain ⟨s, rfl⟩ := ih r (by simp at hl; omega) hv
        obtain ⟨c, hc⟩ := char_of (n := x.toNat) (by omega)
        refine ⟨c :: s, ?_⟩
        rw [utf8_cons]
        rcases encode_cases c with ⟨h, x', e, hx⟩ | ⟨h, -⟩ | ⟨h, -⟩ | ⟨h, -⟩
        · rw [e, UInt8.toNat_inj.1 (hx.trans hc)]; rfl
        all_goals omega
      · by_cases h2 : 0xC2 ≤ x.toNat ∧ x.toNat ≤ 0xDF
        · match r with
          | [] =>
            rw [utf8Valid.eq_def] at hv
            dsimp only at hv
            rw [if_neg h1, if_pos (by rw [byteIn_iff]; omega)] at hv
            cases hv
          | y :: r =>
            rw [utf8Valid_two h2, Bool.and_eq_true] at hv
            obtain ⟨hy, hv⟩ := hv
            simp only [isContByte, Bool.and_eq_true, decide_eq_true_eq] at hy
            obtain ⟨s, rfl⟩ := ih r (by simp at hl; omega) hv
            obtain ⟨c, hc⟩ := char_of (n := x.toNat % 32 * 64 + y.toNat % 64) (by omega)
            refine ⟨c :: s, ?_⟩
            rw [utf8_cons]
            rcases encode_cases c with ⟨h, -⟩ | ⟨h, h', x', y', e, hx', hy'⟩ | ⟨h, -⟩ | ⟨h, -⟩
            · omega
            · rw [e, UInt8.toNat_inj.1 (show x'.toNat = x.toNat by omega),
                UInt8.toNat_inj.1 (show y'.toNat = y.toNat by omega)]
              rfl
            all_goals omega
        · by_cases h3 : 0xE0 ≤ x.toNat ∧ x.toNat ≤ 0xEF
          · match r with
            | [] =>
              rw [utf8Valid.eq_def] at hv
              dsimp only at hv
              rw [if_neg h1, if_neg (by rw [byteIn_iff]; omega), if_pos (by rw [byteIn_iff]; omega)] at hv
              cases hv
            | [_] =>
              rw [utf8Valid.eq_def] at hv
              dsimp only at hv
              rw [if_neg h1, if_neg (by rw [byteIn_iff]; omega), if_pos (by rw [byteIn_iff]; omega)] at hv
              cases hv
            | y :: z :: r =>
              rw [utf8Valid_three h3] at hv
              obtain ⟨hy, hz, hv⟩ := hv
              obtain ⟨s, rfl⟩ := ih r (by simp at hl; omega) hv
              obtain ⟨c, hc⟩ := char_of (n := x.toNat % 16 * 4096 + y.toNat % 64 * 64 + z.toNat % 64) (by omega)
              refine ⟨c :: s, ?_⟩
              rw [utf8_cons]
              rcases encode_cases c with ⟨h, -⟩ | ⟨h, h', -⟩ | ⟨h, h', x', y', z', e, hx', hy', hz'⟩ | ⟨h, -⟩
              · omega
              · omega
              · rw [e, UInt8.toNat_inj.1 (show x'.toNat = x.toNat by omega),
                  UInt8.toNat_inj.1 (show y'.toNat = y.toNat by omega),
                  UInt8.toNat_inj.1 (show z'.toNat = z.toNat by omega)]
                rfl
              · omega
          · by_cases h4 : 0xF0 ≤ x.toNat ∧ x.toNat ≤ 0xF4
            · match r with
              | [] | [_] | [_, _] =>
                rw [utf8Valid.eq_def] at hv
                dsimp only at hv
                rw [if_neg h1, if_neg (by rw [byteIn_iff]; omega), if_neg (by rw [byteIn_iff]; omega), if_pos (by rw [byteIn_iff]; omega)] at hv
                cases hv
              | y :: z :: w :: r =>
                rw [utf8Valid_four h4] at hv
                obtain ⟨hy, hz, hw, hv⟩ := hv
                obtain ⟨s, rfl⟩ := ih r (by simp at hl; omega) hv
                obtain ⟨c, hc⟩ := char_of
                  (n := x.toNat % 8 * 262144 + y.toNat % 64 * 4096 + z.toNat % 64 * 64 + w.toNat % 64) (by omega)
                refine ⟨c :: s, ?_⟩
                rw [utf8_cons]
                rcases encode_cases c with ⟨h, -⟩ | ⟨h, h', -⟩ | ⟨h, h', -⟩ | ⟨h, x', y', z', w', e, hx', hy', hz', hw'⟩
                · omega
                · omega
                · omega
                · rw [e, UInt8.toNat_inj.1 (show x'.toNat = x.toNat by omega),
                    UInt8.toNat_inj.1 (show y'.toNat = y.toNat by omega),
                    UInt8.toNat_inj.1 (show z'.toNat = z.toNat by omega),
                    UInt8.toNat_inj.1 (show w'.toNat = w.toNat by omega)]
                  rfl
            · rw [utf8Valid.eq_def] at hv
              dsimp only at hv
              rw [if_neg h1, if_neg (by rw [byteIn_iff]; omega), if_neg (by rw [byteIn_iff]; omega),
                if_neg (by rw [byteIn_iff]; omega)] at hv
              cases hv

/-- **C105** the check of the standard library accepts exactly the encodings of texts: no overlong forms, no
surrogates, nothing above U+10FFFF, nothing cut off -/
theorem C105_valid (bs : List UInt8) : utf8Valid bs = true ↔ ∃ s, bs = utf8 s := by
  constructor
  · exact utf8Valid_decode bs.length bs (Nat.le_refl _)
  · rintro ⟨s, rfl⟩
    induction s with
    | nil => rw [show utf8 [] = [] from rfl, utf8Valid.eq_def]
    | cons c s ih => rw [utf8_cons, utf8Valid_encode, ih]

theorem fromUtf8_utf8 (s : Str) : fromUtf8 (utf8 s) = some (utf8 s) := by
  unfold fromUtf8
  rw [if_pos ((C105_valid _).2 ⟨s, rfl⟩)]

theorem fromUtf8_none {bs : List UInt8} (h : ¬ ∃ s, bs = utf8 s) : fromUtf8 bs = none := by
  unfold fromUtf8
  rw [if_neg fun h' => h ((C105_valid _).1 h')]

theorem joinSpaceBytes_utf8 : ∀ args : List Str, joinSpaceBytes (args.map utf8) = utf8 (joinSpace args)
  | [] => rfl
  | [a] => rfl
  | a :: b :: rest => by
    have ih := joinSpaceBytes_utf8 (b :: rest)
    rw [List.map_cons] at ih
    rw [List.map_cons, List.map_cons, joinSpaceBytes, ih, joinSpace, utf8_append, utf8_append]
    rfl

theorem envArgsBytes_ok (args : List Str) : envArgsBytes (args.map utf8) = .ok (args.map utf8) := by
  induction args with
  | nil => rfl
  | cons a args ih =>
    rw [List.map_cons, envArgsBytes, fromUtf8_utf8, ih]
    rfl

theorem envArgsBytes_error (argv : List (List UInt8)) (h : ∃ a ∈ argv, ¬ ∃ s, a = utf8 s) :
    envArgsBytes argv = .error .panic := by
  induction argv with
  | nil => obtain ⟨a, ha, -⟩ := h; cases ha
  | cons b argv ih =>
    rw [envArgsBytes]
    by_cases hb : ∃ s, b = utf8 s
    · obtain ⟨s, rfl⟩ := hb
      rw [fromUtf8_utf8, ih]
      · rfl
      · obtain ⟨a, ha, hn⟩ := h
        rcases List.mem_cons.1 ha with rfl | ha
        · exact absurd ⟨s, rfl⟩ hn
        · exact ⟨a, ha, hn⟩
    · rw [fromUtf8_none hb]
      rfl

theorem cliMainBytes_utf8 (convert : Str → Res Str) (convertBytes : List UInt8 → Res (List UInt8))
    (hc : ∀ s, convertBytes (utf8 s) = (convert s).map utf8) (args : List Str) (stdin : Option (List UInt8))
    (input : Option Str) (hi : stdin.bind fromUtf8 = input.map utf8) :
    cliMainBytes convertBytes (args.map utf8) stdin = (cliMain convert (args.map some) input).map utf8 := by
  unfold cliMainBytes cliMain
  rw [envArgsBytes_ok, envArgs_ok, ok_bind, ok_bind]
  simp only [← List.map_drop, joinSpaceBytes_utf8, utf8_isEmpty]
  split
  · rw [hc]
    cases convert (joinSpace (args.drop 1)) with
    | error e => rfl
    | ok r =>
      simp only [Except.map, bind, Except.bind]
      rw [utf8_append]
      rfl
  · rw [hi]
    cases input with
    | none => rfl
    | some b =>
      simp only [Option.map, unwrap, bind, Except.bind, utf8_isEmpty]
      split
      · exact hc b
      · rfl

/-- the ways a program can end, in terms of the bytes it gets -/
theorem cliMainBytes_cases (convert : Str → Res Str) (convertBytes : List UInt8 → Res (List UInt8))
    (hc : ∀ s, convertBytes (utf8 s) = (convert s).map utf8) (ht : ∀ s, ∃ r, convert s = .ok r)
    (h0 : convert [] = .ok []) (name : List UInt8) (argv : List (List UInt8)) (stdin : Option (List UInt8)) :
    (cliMainBytes convertBytes (name :: argv) stdin = .error .panic ∧ ((∃ a ∈ name :: argv, ¬ ∃ s, a = utf8 s) ∨
      ((argv = [] ∨ argv = [[]]) ∧ ∀ s, stdin ≠ some (utf8 s)))) ∨
    (∃ n args r, name = utf8 n ∧ argv = args.map utf8 ∧ args ≠ [] ∧ args ≠ [[]] ∧ convert (Spec.spaced args) = .ok r ∧
      cliMainBytes convertBytes (name :: argv) stdin = .ok (utf8 r ++ [0x0A])) ∨
    (∃ n s r, name = utf8 n ∧ (argv = [] ∨ argv = [[]]) ∧ stdin = some (utf8 s) ∧ convert s = .ok r ∧
      cliMainBytes convertBytes (name :: argv) stdin = .ok (utf8 r)) := by
  by_cases ha : ∃ a ∈ name :: argv, ¬ ∃ s, a = utf8 s
  · left
    refine ⟨?_, Or.inl ha⟩
    unfold cliMainBytes
    rw [envArgsBytes_error _ ha]
    rfl
  · have hall : ∀ l : List (List UInt8), (∀ a ∈ l, ∃ s, a = utf8 s) → ∃ t : List Str, l = t.map utf8 := by
      intro l
      induction l with
      | nil => intro _; exact ⟨[], rfl⟩
      | cons a l ih =>
        intro h
        obtain ⟨s, rfl⟩ := h a (by simp)
        obtain ⟨t, rfl⟩ := ih fun b hb => h b (by simp [hb])
        exact ⟨s :: t, rfl⟩
    have hu : ∀ a ∈ name :: argv, ∃ s, a = utf8 s := fun a h => Classical.byContradiction fun h' => ha ⟨a, h, h'⟩
    obtain ⟨n, rfl⟩ := hu name (by simp)
    obtain ⟨args, rfl⟩ := hall argv fun a h => hu a (by simp [h])
    have hempty : (args.map utf8 = [] ∨ args.map utf8 = [[]]) ↔ (args = [] ∨ args = [[]]) := by
      match args with
      | [] => simp
      | [a] => simp [utf8_eq_nil]
      | a :: b :: r => simp
    rw [hempty]
    have hcons : utf8 n :: args.map utf8 = (n :: args).map utf8 := rfl
    by_cases he : args = [] ∨ args = [[]]
    · by_cases hs : ∃ s, stdin = some (utf8 s)
      · right; right
        obtain ⟨s, rfl⟩ := hs
        obtain ⟨r, hr⟩ := ht s
        refine ⟨n, s, r, rfl, he, rfl, hr, ?_⟩
        rw [hcons, cliMainBytes_utf8 convert convertBytes hc (n :: args) (some (utf8 s)) (some s) (fromUtf8_utf8 s),
          cli_stdin convert n args s ((C55_cases args).2 he) h0, hr]
        rfl
      · left
        refine ⟨?_, Or.inr ⟨he, fun s e => hs ⟨s, e⟩⟩⟩
        have hb : stdin.bind fromUtf8 = none := by
          cases stdin with
          | none => rfl
          | some b => exact fromUtf8_none fun ⟨s, e⟩ => hs ⟨s, by rw [e]⟩
        rw [hcons, cliMainBytes_utf8 convert convertBytes hc (n :: args) stdin none hb]
        unfold cliMain
        rw [envArgs_ok, ok_bind]
        simp only [List.drop_succ_cons, List.drop_zero, joinSpace_eq, (C55_cases args).2 he]
        rfl
    · right; left
      obtain ⟨r, hr⟩ := ht (Spec.spaced args)
      refine ⟨n, args, r, rfl, rfl, fun e => he (Or.inl e), fun e => he (Or.inr e), hr, ?_⟩
      have hb : ∃ input : Option Str, stdin.bind fromUtf8 = input.map utf8 := by
        cases stdin with
        | none => exact ⟨none, rfl⟩
        | some b =>
          by_cases h : ∃ s, b = utf8 s
          · obtain ⟨s, rfl⟩ := h
            exact ⟨some s, fromUtf8_utf8 s⟩
          · exact ⟨none, fromUtf8_none h⟩
      obtain ⟨input, hi⟩ := hb
      rw [hcons, cliMainBytes_utf8 convert convertBytes hc (n :: args) stdin input hi,
        cli_args convert n args input r (fun e => he ((C55_cases args).1 e)) hr]
      simp only [Except.map]
      rw [utf8_append]
      rfl

/-- **C105** what the program `to_kana` does with the bytes it gets.  It panics exactly if an argument (its name
included) is not UTF-8, or there is no argument but perhaps an empty one and standard input cannot be read or is not
UTF-8.  Otherwise it writes the bytes of the conversion. -/
theorem C105_to_kana {std : Std} (hstd : std.Lawful) (name : List UInt8) (argv : List (List UInt8))
    (stdin : Option (List UInt8)) :
    (toKanaMainBytes std (name :: argv) stdin = .error .panic ∧ ((∃ a ∈ name :: argv, ¬ ∃ s, a = utf8 s) ∨
      ((argv = [] ∨ argv = [[]]) ∧ ∀ s, stdin ≠ some (utf8 s)))) ∨
    (∃ n args r, name = utf8 n ∧ argv = args.map utf8 ∧ args ≠ [] ∧ args ≠ [[]] ∧
      to_kana std (Spec.spaced args) = .ok r ∧ toKanaMainBytes std (name :: argv) stdin = .ok (utf8 r ++ [0x0A])) ∨
    (∃ n s r, name = utf8 n ∧ (argv = [] ∨ argv = [[]]) ∧ stdin = some (utf8 s) ∧ to_kana std s = .ok r ∧
      toKanaMainBytes std (name :: argv) stdin = .ok (utf8 r)) :=
  cliMainBytes_cases (to_kana std) _ (fun s => C104_to_kana std s {}) (fun s => C09_total hstd s {})
    (by rw [to_kana, to_kana_eq hstd, kana, scan]) name argv stdin

/-- **C105** and the program `to_romaji` -/
theorem C105_to_romaji {std : Std} (hstd : std.Lawful) (n : Nat) (name : List UInt8) (argv : List (List UInt8))
    (stdin : Option (List UInt8)) :
    (toRomajiMainBytes std n (name :: argv) stdin = .error .panic ∧ ((∃ a ∈ name :: argv, ¬ ∃ s, a = utf8 s) ∨
      ((argv = [] ∨ argv = [[]]) ∧ ∀ s, stdin ≠ some (utf8 s)))) ∨
    (∃ m args r, name = utf8 m ∧ argv = args.map utf8 ∧ args ≠ [] ∧ args ≠ [[]] ∧
      to_romaji std (Spec.spaced args) = .ok r ∧ toRomajiMainBytes std n (name :: argv) stdin = .ok (utf8 r ++ [0x0A])) ∨
    (∃ m s r, name = utf8 m ∧ (argv = [] ∨ argv = [[]]) ∧ stdin = some (utf8 s) ∧ to_romaji std s = .ok r ∧
      toRomajiMainBytes std n (name :: argv) stdin = .ok (utf8 r)) := by
  refine cliMainBytes_cases (to_romaji std) _ (fun s => C104_to_romaji std hstd n s {}) (fun s => C27_total hstd s {})
    ?_ name argv stdin
  obtain ⟨t, ht⟩ : ∃ t, to_romaji std [] = .ok t := C27_total hstd _ _
  have := C37_length hstd [] t {} ht
  rw [ht, List.eq_nil_of_length_eq_zero (Nat.le_zero.1 this)]

example : utf8Valid [0x61, 0xC3, 0xA9, 0xE3, 0x81, 0x8B, 0xF0, 0xA0, 0xAE, 0xB7] = true ∧
    utf8Valid [0xC0, 0x80] = false ∧ utf8Valid [0xED, 0xA0, 0x80] = false ∧ utf8Valid [0xF4, 0x90, 0x80, 0x80] = false ∧
    utf8Valid [0xE3, 0x81] = false := by decide +kernel
/-- the three cases occur -/
example : toKanaMainBytes modernStd [[0x78], [0x6B, 0x61]] none = .ok [0xE3, 0x81, 0x8B, 0x0A] ∧
    toKanaMainBytes modernStd [[0x78], []] (some [0x6B, 0x61]) = .ok [0xE3, 0x81, 0x8B] ∧
    toKanaMainBytes modernStd [[0x78]] (some [0xE3, 0x81]) = .error .panic ∧
    toKanaMainBytes modernStd [[0xFF], [0x6B]] none = .error .panic ∧
    toRomajiMainBytes modernStd 16 [[0x78], [0xE3, 0x82, 0xAB]] none = .ok [0x6B, 0x61, 0x0A] := by decide +kernel

end WanaKana
