import Verif.Spec.Bytes
import Verif.Props.Convert
import Verif.Props.ToRomaji
import Verif.Props.Streaming
import Verif.Proofs.StdUnicode
/-! # C92: how many bytes the results take -/

namespace WanaKana
open KNode RNode

theorem bytes_nil : Spec.bytes [] = 0 := rfl
theorem bytes_cons (c : Char) (s : Str) : Spec.bytes (c :: s) = Spec.charBytes c + Spec.bytes s := by
  simp [Spec.bytes]
theorem bytes_append (a b : Str) : Spec.bytes (a ++ b) = Spec.bytes a + Spec.bytes b := by
  simp [Spec.bytes]

theorem bytes_ge_length (s : Str) : s.length ≤ Spec.bytes s := by
  induction s with
  | nil => simp
  | cons c s ih =>
    rw [bytes_cons, List.length_cons]
    have : 1 ≤ Spec.charBytes c := by unfold Spec.charBytes; split <;> (try split) <;> (try split) <;> omega
    omega

theorem bytes_const {s : Str} {k : Nat} (h : ∀ c ∈ s, Spec.charBytes c = k) : Spec.bytes s = k * s.length := by
  induction s with
  | nil => simp [bytes_nil]
  | cons c s ih =>
    rw [bytes_cons, h c (by simp), ih fun d hd => h d (by simp [hd])]
    simp [Nat.mul_add]; omega

theorem bytes_map_eq {f : Char → Char} (h : ∀ c, Spec.charBytes (f c) = Spec.charBytes c) (s : Str) :
    Spec.bytes (s.map f) = Spec.bytes s := by
  induction s with
  | nil => rfl
  | cons c s ih => rw [List.map_cons, bytes_cons, bytes_cons, h, ih]

theorem charBytes_three {c : Char} (h : 0x800 ≤ c.toNat) (h' : c.toNat ≤ 0xFFFF) : Spec.charBytes c = 3 := by
  unfold Spec.charBytes
  rw [if_neg (by omega), if_neg (by omega), if_pos h']

theorem charBytes_h2kP (c : Char) : Spec.charBytes (h2kP c) = Spec.charBytes c := by
  have := h2kP_toNat c
  by_cases h : 12353 ≤ c.toNat ∧ c.toNat ≤ 12438
  · rw [if_pos h] at this
    rw [charBytes_three (by omega) (by omega), charBytes_three (by omega) (by omega)]
  · rw [if_neg h] at this
    unfold Spec.charBytes
    rw [this]

/-- sum of weights -/
def weigh (w : Char → Nat) (s : Str) : Nat := (s.map w).sum

theorem weigh_cons (w : Char → Nat) (c : Char) (s : Str) : weigh w (c :: s) = w c + weigh w s := by simp [weigh]
theorem weigh_append (w : Char → Nat) (a b : Str) : weigh w (a ++ b) = weigh w a + weigh w b := by simp [weigh]
theorem weigh_nil (w : Char → Nat) : weigh w [] = 0 := rfl
theorem weigh_bytes (s : Str) : weigh Spec.charBytes s = Spec.bytes s := rfl

theorem weigh_mono {v w : Char → Nat} {s : Str} (h : ∀ c ∈ s, v c ≤ w c) : weigh v s ≤ weigh w s := by
  induction s with
  | nil => exact Nat.le_refl _
  | cons c s ih =>
    rw [weigh_cons, weigh_cons]
    have := ih fun d hd => h d (by simp [hd])
    have := h c (by simp)
    omega

theorem weigh_const {w : Char → Nat} {s : Str} {k : Nat} (h : ∀ c ∈ s, w c = k) : weigh w s = k * s.length := by
  induction s with
  | nil => simp [weigh_nil]
  | cons c s ih =>
    rw [weigh_cons, h c (by simp), ih fun d hd => h d (by simp [hd])]
    simp [Nat.mul_add]; omega

theorem weigh_mul (w : Char → Nat) (k : Nat) (s : Str) : weigh (fun c => k * w c) s = k * weigh w s := by
  induction s with
  | nil => simp [weigh_nil]
  | cons c s ih => rw [weigh_cons, weigh_cons, ih, Nat.mul_add]

/-! ## to_kana -/

/-- bytes a character can give rise to: three in ASCII, its own otherwise -/
def kB (c : Char) : Nat := if c.toNat ≤ 0x7F then 3 else Spec.charBytes c

theorem charBytes_kB (c : Char) : Spec.charBytes c ≤ kB c ∧ kB c ≤ 3 * Spec.charBytes c := by
  unfold kB Spec.charBytes
  split
  · omega
  · split <;> (try split) <;> omega

theorem kana_bytes (m : Mode) (s : Str) : Spec.bytes (kana m s) ≤ weigh kB s := by
  induction s using list_strong with
  | _ s ih =>
    cases s with
    | nil => rw [kana_nil]; exact Nat.le_refl _
    | cons c s =>
      obtain ⟨n, k, hst⟩ := exists_stops (tree m) (c :: s)
      cases ho : n.output with
      | none =>
        rw [kana_miss hst ho, bytes_cons, weigh_cons]
        have := ih s (by simp)
        have := charBytes_kB c
        omega
      | some out =>
        have hk := stops_pos hst ho
        have hle := hst.le
        have hl := (walk_output hst.walk ho).2.1
        have hlen : (low ((c :: s).take k)).length = k := by
          simp only [low, List.length_map, List.length_take]; omega
        have hb : Spec.bytes (styled ((c :: s).take k) out) = 3 * out.length := by
          have : Spec.bytes (styled ((c :: s).take k) out) = Spec.bytes out := by
            unfold styled
            split
            · exact bytes_map_eq charBytes_h2kP _
            · rfl
          rw [this]
          have hc : (allModes fun _ x => x.2.output.all fun o => o.all fun c => decide (Spec.charBytes c = 3)) = true := by
            decide +kernel
          have := allModes_walk hc hst.walk
          rw [ho] at this
          simp only [Option.all_some, List.all_eq_true, decide_eq_true_iff] at this
          exact bytes_const this
        have hw : weigh kB ((c :: s).take k) = 3 * k := by
          rw [weigh_const (k := 3), List.length_take, Nat.min_eq_left (by simpa using hle)]
          intro d hd
          have := walk_keyChar hst.walk
          have hm : toAsciiLowercase d ∈ low ((c :: s).take k) := List.mem_map_of_mem hd
          have h1 := keyChar_iff.1 (this _ hm)
          have h2 := toAsciiLowercase_toNat d
          unfold kB
          split
          · rfl
          · next h3 =>
            rw [if_neg (by omega)] at h2
            apply charBytes_three
            · simp only [List.mem_cons, List.not_mem_nil, or_false] at h1; omega
            · simp only [List.mem_cons, List.not_mem_nil, or_false] at h1; omega
        have := ih ((c :: s).drop k) (by simp [List.length_drop]; omega)
        rw [kana_hit hst ho, bytes_append, hb]
        have h1 : weigh kB (c :: s) = weigh kB ((c :: s).take k) + weigh kB ((c :: s).drop k) := by
          rw [← weigh_append, List.take_append_drop]
        omega

/-- **C92** `to_kana` at most triples the number of bytes -/
theorem C92_to_kana {std : Std} (hstd : std.Lawful) (s : Str) (o : Options) :
    ∃ r, to_kana_with_opt std s o = .ok r ∧ Spec.bytes r ≤ 3 * Spec.bytes s := by
  refine ⟨_, to_kana_eq hstd s o, Nat.le_trans (kana_bytes _ _) ?_⟩
  rw [← weigh_bytes, ← weigh_mul]
  exact weigh_mono fun c _ => (charBytes_kB c).2

/-- **C92** and no smaller factor would do -/
theorem C92_to_kana_tight {std : Std} (hstd : std.Lawful) (n : Nat) (o : Options) :
    ∃ r, to_kana_with_opt std (List.replicate n 'a') o = .ok r ∧
      Spec.bytes r = 3 * Spec.bytes (List.replicate n 'a') := by
  refine ⟨_, to_kana_eq hstd _ o, ?_⟩
  have := kana_a (modeOf o) n []
  rw [List.append_nil, kana_nil, List.append_nil] at this
  rw [this, bytes_const (k := 3), bytes_const (k := 1)]
  · simp
  · intro c hc; rw [(List.mem_replicate.1 hc).2]; decide
  · intro c hc; rw [(List.mem_replicate.1 hc).2]; decide

/-! ## The kana shift -/

/-- **C92** `hiragana_to_katakana` keeps the number of bytes -/
theorem C92_hiragana_to_katakana (s : Str) :
    ∃ r, hiragana_to_katakana s = .ok r ∧ Spec.bytes r = Spec.bytes s :=
  ⟨_, hiragana_to_katakana_eq s, bytes_map_eq charBytes_h2kP s⟩

theorem k2hP_weigh {std : Std} (hstd : std.Lawful) (dest : Bool) (w : Char → Nat)
    (hw : ∀ c : Char, 0x3041 ≤ c.toNat → c.toNat ≤ 0x30FF → w c = 3) (s : Str) : ∀ {prev}, PrevOk prev →
    weigh w (k2hP std dest prev s) ≤ weigh w s := by
  induction s with
  | nil => intro prev _; cases prev <;> simp [k2hP]
  | cons c s ih =>
    intro prev hok
    rw [k2hP_cons, weigh_cons]
    by_cases hk : keeps c = true
    · have := ih hok; simp [hk, weigh_cons, this]
    · by_cases hd : isDash c = true
      · cases prev with
        | none => have := ih hok; simp [hk, hd, weigh_cons, this]
        | some p =>
          have h1 := ih hok
          obtain ⟨n, hn⟩ := root_has hstd (hok p rfl).1 (hok p rfl).2
          have hc : w c = 3 := hw c (by have := isDash_iff.1 hd; omega) (by have := isDash_iff.1 hd; omega)
          have h2 : weigh w (longOut std dest c p) ≤ 3 := by
            rw [longOut, hn]
            simp only []
            split
            · simp [weigh, hw 'お' (by decide) (by decide)]
            · cases hl : n.output.getLast? with
              | none => simp [weigh]
              | some d =>
                rw [Option.bind_some]
                unfold LONG_VOWELS
                split <;> simp [weigh, hw 'あ' (by decide) (by decide), hw 'い' (by decide) (by decide),
                  hw 'う' (by decide) (by decide), hw 'え' (by decide) (by decide)]
          simp [hk, hd, weigh_append]; omega
      · by_cases ha : is_char_katakana c = true
        · have hp := k2hChar_prevOk (by simpa using hk) (by simpa using hd) ha
          have := ih hp
          have hp := hp _ rfl
          have ha' := is_char_katakana_iff.1 ha
          simp [hk, hd, ha, weigh_cons]
          rw [hw c (by omega) (by omega), hw (k2hChar c) (by omega) (by omega)]
          omega
        · have := ih prevOk_none
          simp [hk, hd, ha, weigh_cons, this]

theorem charBytes_kana (c : Char) (h : 0x3041 ≤ c.toNat) (h' : c.toNat ≤ 0x30FF) : Spec.charBytes c = 3 :=
  charBytes_three (by omega) (by omega)

/-- **C92** `katakana_to_hiragana` never takes more bytes -/
theorem C92_katakana_to_hiragana {std : Std} (hstd : std.Lawful) (s : Str) (dest : Bool) :
    ∃ r, katakana_to_hiragana_with_opt std s dest = .ok r ∧ Spec.bytes r ≤ Spec.bytes s := by
  refine ⟨_, k2h_eq hstd s dest, ?_⟩
  exact k2hP_weigh hstd dest Spec.charBytes charBytes_kana s prevOk_none

/-! ## to_romaji -/

theorem charBytes_aUp (c : Char) : Spec.charBytes (aUp c) = Spec.charBytes c := by
  have := aUp_toNat c
  unfold Spec.charBytes
  rw [this]
  by_cases h : 97 ≤ c.toNat ∧ c.toNat ≤ 122
  · rw [if_pos h, if_pos (by omega), if_pos (by omega)]
  · rw [if_neg h]

theorem rom_bytes {std : Std} (hstd : std.Lawful) (up : Bool) : ∀ (z : List (Char × Bool)),
    Spec.bytes (rom std up z) ≤ Spec.bytes (z.map Prod.fst) := by
  intro z
  induction z using rom_ind (std := std) with
  | nil => rw [rom_nil]; simp
  | miss c b z h ih => rw [rom_miss h, List.map_cons, bytes_cons, bytes_cons]; simp only []; omega
  | hit z n k hk h ih =>
    rw [rom_hit h hk, bytes_append]
    have h3 : Spec.bytes (if (z.take k).all Prod.snd && up then n.output.map aUp else n.output) = Spec.bytes n.output := by
      split
      · exact bytes_map_eq charBytes_aUp _
      · rfl
    have hc : (TO_ROMAJI_NODE_TREE.paths.all fun x => decide (Spec.bytes x.2.output ≤ Spec.bytes x.1)) = true := by
      decide +kernel
    have h4 := of_decide_eq_true (rwalk_check hstd hc h.walk)
    have h5 : Spec.bytes (z.map Prod.fst) = Spec.bytes ((z.map Prod.fst).take k) + Spec.bytes ((z.drop k).map Prod.fst) := by
      rw [← bytes_append, List.map_drop, List.take_append_drop]
    rw [h3]
    simp only at h4
    omega

/-- **C92** `to_romaji` never takes more bytes -/
theorem C92_to_romaji {std : Std} (hstd : std.Lawful) (s : Str) (o : Options) :
    ∃ r, to_romaji_with_opt std s o = .ok r ∧ Spec.bytes r ≤ Spec.bytes s := by
  refine ⟨_, to_romaji_eq hstd s o, ?_⟩
  refine Nat.le_trans (rom_bytes hstd _ _) ?_
  rw [flagged_fst hstd]
  exact k2hP_weigh hstd true Spec.charBytes charBytes_kana s prevOk_none

/-- **C92** and can take as many -/
theorem C92_to_romaji_tight {std : Std} (hstd : std.Lawful) (n : Nat) :
    ∃ r, to_romaji_with_opt std (List.replicate n 'し') {} = .ok r ∧
      Spec.bytes r = Spec.bytes (List.replicate n 'し') := by
  obtain ⟨r, hr, hl⟩ := C37_tight hstd n
  refine ⟨r, hr, ?_⟩
  obtain ⟨r', hr', hb⟩ := C92_to_romaji hstd (List.replicate n 'し') {}
  rw [hr] at hr'
  cases hr'
  have h1 := bytes_ge_length r
  have h2 : Spec.bytes (List.replicate n 'し') = 3 * n := by
    rw [bytes_const (k := 3), List.length_replicate]
    intro c hc; rw [(List.mem_replicate.1 hc).2]; decide
  omega

/-! ## to_hiragana and to_katakana -/

/-- bytes the lower case of a character can give rise to -/
def lowBytes (std : Std) (c : Char) : Nat := if c = 'Σ' then 2 else weigh kB (std.lowerChar c)

theorem weigh_toLowercase (std : Std) (s : Str) : weigh kB (std.toLowercase s) = weigh (lowBytes std) s := by
  have key : ∀ (s pre : Str), weigh kB (std.lowerFrom pre s) = weigh (lowBytes std) s := by
    intro s
    induction s with
    | nil => intro pre; rfl
    | cons c s ih =>
      intro pre
      rw [Std.lowerFrom, weigh_append, ih, weigh_cons]
      congr 1
      unfold lowBytes
      split
      · split <;> decide
      · rfl
  exact key s []

theorem lowBytes_kana {std : Std} (hstd : std.Lawful) (c : Char) (h : 0x3041 ≤ c.toNat) (h' : c.toNat ≤ 0x30FF) :
    lowBytes std c = 3 := by
  unfold lowBytes
  have hs : c ≠ 'Σ' := by intro e; subst e; revert h; decide
  rw [if_neg hs, hstd.lowerChar_uncased c (by unfold Uncased; omega), weigh_cons, weigh_nil, kB, if_neg (by omega),
    charBytes_kana c h h']

/-- lower-casing does not blow up the characters of the text -/
theorem weigh_lowBytes {std : Std} {s : Str} (hs : ∀ c ∈ s, weigh kB (std.lowerChar c) ≤ 3 * Spec.charBytes c) :
    weigh (lowBytes std) s ≤ 3 * Spec.bytes s := by
  rw [← weigh_bytes, ← weigh_mul]
  apply weigh_mono
  intro c hc
  unfold lowBytes
  split
  · next h => subst h; decide
  · exact hs c hc

theorem hiraP_bytes {std : Std} (hstd : std.Lawful) (s : Str) (o : Options)
    (hs : ∀ c ∈ s, weigh kB (std.lowerChar c) ≤ 3 * Spec.charBytes c) :
    Spec.bytes (hiraP std s o) ≤ 3 * Spec.bytes s := by
  have h1 := weigh_lowBytes hs
  have h2 := k2hP_weigh hstd false Spec.charBytes charBytes_kana s prevOk_none
  have h3 := k2hP_weigh hstd false (lowBytes std) (lowBytes_kana hstd) s prevOk_none
  rw [weigh_bytes, weigh_bytes] at h2
  unfold hiraP
  repeat' split
  · omega
  · refine Nat.le_trans (kana_bytes _ _) ?_
    rw [weigh_toLowercase]; omega
  · refine Nat.le_trans (kana_bytes _ _) ?_
    rw [weigh_toLowercase]; omega
  · omega

theorem kataP_bytes {std : Std} (s : Str) (o : Options)
    (hs : ∀ c ∈ s, weigh kB (std.lowerChar c) ≤ 3 * Spec.charBytes c) :
    Spec.bytes (kataP std s o) ≤ 3 * Spec.bytes s := by
  have h1 := weigh_lowBytes hs
  unfold kataP
  repeat' split
  · rw [bytes_map_eq charBytes_h2kP]; omega
  · rw [bytes_map_eq charBytes_h2kP]
    refine Nat.le_trans (kana_bytes _ _) ?_
    rw [weigh_toLowercase]; omega
  · rw [bytes_map_eq charBytes_h2kP]; omega

/-- code points that are converted take three bytes in the result -/
def natBytes (n : Nat) : Nat :=
  if Nat.ble n 0x7F then 1 else if Nat.ble n 0x7FF then 2 else if Nat.ble n 0xFFFF then 3 else 4

theorem natBytes_eq (c : Char) : natBytes c.toNat = Spec.charBytes c := by
  simp only [natBytes, Spec.charBytes, Nat.ble_eq]

theorem lower_sizes : (Unicode.lowerTable.all fun x => (x.2.all fun d => decide d.isValidChar) &&
    decide ((x.2.map fun d => if Nat.ble d 0x7F then 3 else natBytes d).sum ≤ 3 * natBytes x.1)) = true := by
  decide +kernel

theorem unicode_lower_bytes (search : List Char → Char → Option Nat) (c : Char) :
    weigh kB ((unicodeStd search).lowerChar c) ≤ 3 * Spec.charBytes c := by
  show weigh kB (uniMap Unicode.lowerTable c) ≤ _
  rcases uniMap_cases Unicode.lowerTable c with ⟨_, h⟩ | ⟨l, hl, _, h⟩
  · rw [h, weigh_cons, weigh_nil]
    exact (charBytes_kB c).2
  · rw [h]
    have := List.all_eq_true.1 lower_sizes _ hl
    simp only [Bool.and_eq_true, List.all_eq_true, decide_eq_true_iff] at this
    rw [natBytes_eq] at this
    have he : weigh kB (l.map Char.ofNat) = (l.map fun d => if Nat.ble d 0x7F then 3 else natBytes d).sum := by
      rw [weigh, List.map_map]
      congr 1
      apply List.map_congr_left
      intro d hd
      have hv := this.1 d hd
      have hnat : (Char.ofNat d).toNat = d := by
        rw [Char.ofNat, dif_pos hv]; rfl
      rw [Function.comp, kB, ← natBytes_eq, hnat]
      simp only [Nat.ble_eq]
    rw [he]
    exact this.2

/-- **C92** `to_hiragana` and `to_katakana` at most triple the number of bytes (with the lower-casing of Unicode and
any conforming binary search) -/
theorem C92_scripts {search : List Char → Char → Option Nat} (hstd : (unicodeStd search).Lawful) (s : Str) (o : Options) :
    (∃ r, to_hiragana_with_opt (unicodeStd search) s o = .ok r ∧ Spec.bytes r ≤ 3 * Spec.bytes s) ∧
    (∃ r, to_katakana_with_opt (unicodeStd search) s o = .ok r ∧ Spec.bytes r ≤ 3 * Spec.bytes s) :=
  ⟨⟨_, to_hiragana_eq hstd s o, hiraP_bytes hstd s o fun c _ => unicode_lower_bytes search c⟩,
   ⟨_, to_katakana_eq hstd s o, kataP_bytes s o fun c _ => unicode_lower_bytes search c⟩⟩

/-- characters whose lower case is longer, next to converted ones -/
example : rustStd.Lawful ∧
    to_hiragana_with_opt rustStd "かİȺ".toList {} = .ok "かİȺ".toList ∧
    to_hiragana_with_opt rustStd "aかİȺ".toList {} = .ok "あかい̇ⱥ".toList ∧
    Spec.bytes "aかİȺ".toList = 8 ∧ Spec.bytes "あかい̇ⱥ".toList = 14 := ⟨rustStd_lawful, by decide +kernel⟩

/-- in bytes, romaji can be as long as the kana but not longer -/
example : to_romaji_with_opt modernStd "ししゃ「っ」".toList {} = .ok "shisha‘’".toList ∧
    Spec.bytes "ししゃ「っ」".toList = 18 ∧ Spec.bytes "shisha‘’".toList = 12 := by decide +kernel

end WanaKana
