import Verif.Model.StdUnicode
import Verif.Proofs.StdConcrete
/-! # The contract `Std.Lawful` holds for the case mappings of the Unicode character database -/

namespace WanaKana
open Unicode

/-- the uncased blocks as a test of code points -/
def uncasedNat (n : Nat) : Bool :=
  Nat.ble 0x2010 n && Nat.ble n 0x2027 || Nat.ble 0x3000 n && Nat.ble n 0x9FFF || Nat.ble 0xFF01 n && Nat.ble n 0xFF20 ||
  Nat.ble 0xFF3B n && Nat.ble n 0xFF40 || Nat.ble 0xFF5B n && Nat.ble n 0xFFDF

theorem uncasedNat_iff (c : Char) : uncasedNat c.toNat = true ↔ Uncased c := by
  unfold uncasedNat Uncased
  simp only [Bool.or_eq_true, Bool.and_eq_true, Nat.ble_eq]
  omega

theorem uniFind_mem {n : Nat} {t : List (Nat × List Nat)} {l : List Nat} (h : uniFind n t = some l) : (n, l) ∈ t := by
  induction t with
  | nil => cases h
  | cons x t ih =>
    rw [uniFind] at h
    split at h
    · next hb =>
      cases h
      rw [← Nat.eq_of_beq_eq_true hb]
      simp
    · exact List.mem_cons_of_mem _ (ih h)

theorem uniIn_mem {n : Nat} {t : List (Nat × Nat)} (h : uniIn n t = true) : ∃ x ∈ t, x.1 ≤ n ∧ n ≤ x.2 := by
  induction t with
  | nil => cases h
  | cons x t ih =>
    rw [uniIn, Bool.or_eq_true, Bool.and_eq_true, Nat.ble_eq, Nat.ble_eq] at h
    rcases h with h | h
    · exact ⟨x, by simp, h⟩
    · obtain ⟨y, hy, h⟩ := ih h
      exact ⟨y, List.mem_cons_of_mem _ hy, h⟩

theorem uniFind_append (n : Nat) (a b : List (Nat × List Nat)) :
    uniFind n (a ++ b) = (uniFind n a).or (uniFind n b) := by
  induction a with
  | nil => rfl
  | cons x a ih =>
    rw [List.cons_append, uniFind, uniFind]
    split
    · rfl
    · exact ih

/-- a quick test that a code point has no entry -/
def freeIn (ps : List (Nat × Nat × List (Nat × List Nat))) (d : Nat) : Bool :=
  ps.all fun p => Nat.blt d p.1 || Nat.blt p.2.1 d || (uniFind d p.2.2).isNone

/-- the first and last code points of the parts are right -/
def ordered (ps : List (Nat × Nat × List (Nat × List Nat))) : Bool :=
  ps.all fun p => p.2.2.all fun x => Nat.ble p.1 x.1 && Nat.ble x.1 p.2.1

theorem lower_ordered : ordered lowerTableParts = true := by decide +kernel
theorem upper_ordered : ordered upperTableParts = true := by decide +kernel

theorem freeIn_none {ps : List (Nat × Nat × List (Nat × List Nat))} {d : Nat} (ho : ordered ps = true)
    (h : freeIn ps d = true) : uniFind d (ps.flatMap fun p => p.2.2) = none := by
  have h1 := List.all_eq_true.1 h
  have h2 := List.all_eq_true.1 ho
  clear h ho
  induction ps with
  | nil => rfl
  | cons p ps ih =>
    rw [List.flatMap_cons, uniFind_append,
      ih (fun q hq => h1 q (List.mem_cons_of_mem _ hq)) (fun q hq => h2 q (List.mem_cons_of_mem _ hq))]
    have a := h1 p (by simp)
    have b := List.all_eq_true.1 (h2 p (by simp))
    cases hf : uniFind d p.2.2 with
    | none => rfl
    | some l =>
      have := b _ (uniFind_mem hf)
      simp only [hf, Bool.or_eq_true, Nat.blt_eq, Option.isNone_some, Bool.false_eq_true, or_false] at a
      simp only [Bool.and_eq_true, Nat.ble_eq] at this
      omega

/-- properties of the mapping that can be checked entry by entry -/
theorem lower_entries' : (lowerTableParts.all fun p => p.2.2.all fun x => !uncasedNat x.1 && x.2.all fun d =>
    decide d.isValidChar && !uncasedNat d && freeIn lowerTableParts d && !Nat.beq d 0x3A3) = true := by decide +kernel

theorem lower_entries : (lowerTable.all fun x => !uncasedNat x.1 && x.2.all fun d =>
    decide d.isValidChar && !uncasedNat d && freeIn lowerTableParts d && !Nat.beq d 0x3A3) = true := by
  rw [List.all_eq_true]
  intro x hx
  obtain ⟨p, hp, hx⟩ := List.mem_flatMap.1 hx
  exact List.all_eq_true.1 (List.all_eq_true.1 lower_entries' p hp) x hx

theorem upper_entries : (upperTable.all fun x => !uncasedNat x.1) = true := by decide +kernel

theorem uppercase_entries : (uppercaseRanges.all fun x =>
    [(0x2010, 0x2027), (0x3000, 0x9FFF), (0xFF01, 0xFF20), (0xFF3B, 0xFF40), (0xFF5B, 0xFFDF)].all fun b =>
      Nat.blt x.2 b.1 || Nat.blt b.2 x.1) = true := by decide +kernel

theorem ascii_entries : ((List.range 128).all fun n =>
    (uniIn n uppercaseRanges == decide (65 ≤ n ∧ n ≤ 90)) &&
    (if 65 ≤ n ∧ n ≤ 90 then uniFind n lowerTable == some [n + 32] else freeIn lowerTableParts n) &&
    (if 97 ≤ n ∧ n ≤ 122 then uniFind n upperTable == some [n - 32] else freeIn upperTableParts n)) = true := by
  decide +kernel

theorem macron_entries : ([0x100, 0x101, 0x112, 0x113, 0x12a, 0x12b, 0x14c, 0x14d, 0x16a, 0x16b].all fun n =>
    uniFind n lowerTable == if n % 2 = 0 then some [n ||| 1] else none) = true := by decide +kernel

theorem sigma_entries : uniFind ('Σ' : Char).toNat lowerTable = some [0x3C3] ∧
    freeIn lowerTableParts ('σ' : Char).toNat = true ∧ freeIn lowerTableParts ('ς' : Char).toNat = true := by
  decide +kernel

theorem uniMap_none {t : List (Nat × List Nat)} {c : Char} (h : uniFind c.toNat t = none) : uniMap t c = [c] := by
  unfold uniMap; rw [h]

theorem ascii_entry {c : Char} (h : c.toNat < 128) :
    uniIn c.toNat uppercaseRanges = decide (65 ≤ c.toNat ∧ c.toNat ≤ 90) ∧
    uniFind c.toNat lowerTable = (if 65 ≤ c.toNat ∧ c.toNat ≤ 90 then some [c.toNat + 32] else none) ∧
    uniFind c.toNat upperTable = if 97 ≤ c.toNat ∧ c.toNat ≤ 122 then some [c.toNat - 32] else none := by
  have := List.all_eq_true.1 ascii_entries c.toNat (List.mem_range.2 h)
  simp only [Bool.and_eq_true, beq_iff_eq, and_assoc] at this
  obtain ⟨a, b, d⟩ := this
  refine ⟨a, ?_, ?_⟩
  · split at b
    · next h => rw [if_pos h, beq_iff_eq.1 b]
    · next h => rw [if_neg h]; exact freeIn_none lower_ordered b
  · split at d
    · next h => rw [if_pos h, beq_iff_eq.1 d]
    · next h => rw [if_neg h]; exact freeIn_none upper_ordered d

theorem uniMap_cases (t : List (Nat × List Nat)) (c : Char) :
    (uniFind c.toNat t = none ∧ uniMap t c = [c]) ∨ ∃ l, (c.toNat, l) ∈ t ∧ uniFind c.toNat t = some l ∧
      uniMap t c = l.map Char.ofNat := by
  unfold uniMap
  cases h : uniFind c.toNat t with
  | none => exact Or.inl ⟨rfl, rfl⟩
  | some l => exact Or.inr ⟨l, uniFind_mem h, rfl, rfl⟩

theorem lower_sigma : uniMap lowerTable 'σ' = ['σ'] ∧ uniMap lowerTable 'ς' = ['ς'] :=
  ⟨uniMap_none (freeIn_none lower_ordered sigma_entries.2.1), uniMap_none (freeIn_none lower_ordered sigma_entries.2.2)⟩

/-- a lowercase mapping -/
theorem lower_entry {c d : Char} (h : d ∈ uniMap lowerTable c) :
    (d = c ∧ uniFind c.toNat lowerTable = none) ∨
    (¬ Uncased d ∧ uniFind d.toNat lowerTable = none ∧ d.toNat ≠ 0x3A3) := by
  rcases uniMap_cases lowerTable c with ⟨h1, h2⟩ | ⟨l, hl, h1, h2⟩
  · rw [h2, List.mem_singleton] at h
    exact Or.inl ⟨h, h1⟩
  · rw [h2, List.mem_map] at h
    obtain ⟨n, hn, rfl⟩ := h
    have := List.all_eq_true.1 lower_entries _ hl
    rw [Bool.and_eq_true, List.all_eq_true] at this
    have := this.2 n hn
    simp only [Bool.and_eq_true, decide_eq_true_iff, Bool.not_eq_true'] at this
    obtain ⟨⟨⟨hv, hu⟩, hf⟩, hs⟩ := this
    have hnat : (Char.ofNat n).toNat = n := by
      rw [Char.ofNat, dif_pos hv]; rfl
    refine Or.inr ⟨?_, by rw [hnat]; exact freeIn_none lower_ordered hf, ?_⟩
    · rw [← uncasedNat_iff, hnat, hu]; simp
    · rw [hnat]
      intro e
      rw [e] at hs
      exact absurd hs (by decide)

attribute [local irreducible] lowerTable upperTable uppercaseRanges uniFind uniMap uniIn

/-- **The contract `Std.Lawful` is met by the full case mappings of Unicode**, with any conforming binary search. -/
theorem unicodeStd_lawful {search : List Char → Char → Option Nat}
    (h1 : ∀ keys k i, SortedKeys keys → search keys k = some i → keys[i]? = some k)
    (h2 : ∀ keys k, SortedKeys keys → search keys k = none → k ∉ keys) : (unicodeStd search).Lawful where
  isUppercase_ascii c h := by
    show uniIn c.toNat uppercaseRanges = true ↔ _
    rw [(ascii_entry h).1, decide_eq_true_iff]
  isUppercase_uncased c h := by
    show uniIn c.toNat uppercaseRanges = false
    rw [Bool.eq_false_iff]
    intro hi
    obtain ⟨x, hx, hlo, hhi⟩ := uniIn_mem hi
    have := List.all_eq_true.1 uppercase_entries x hx
    simp only [List.all_cons, List.all_nil, Bool.and_eq_true, Bool.or_eq_true, Nat.blt_eq, and_true] at this
    unfold Uncased at h
    omega
  lowerChar_ascii c h := by
    show uniMap lowerTable c = _
    unfold uniMap toAsciiLowercase
    rw [(ascii_entry h).2.1]
    by_cases h' : 65 ≤ c.toNat ∧ c.toNat ≤ 90
    · rw [if_pos h', if_pos h']; rfl
    · rw [if_neg h', if_neg h']
  lowerChar_uncased c h := by
    show uniMap lowerTable c = _
    rcases uniMap_cases lowerTable c with ⟨_, h2⟩ | ⟨l, hl, _, _⟩
    · exact h2
    · have := List.all_eq_true.1 lower_entries _ hl
      rw [Bool.and_eq_true] at this
      rw [(uncasedNat_iff c).2 h] at this
      cases this.1
  lowerChar_macron c h := by
    show uniMap lowerTable c = _
    have := List.all_eq_true.1 macron_entries c.toNat h
    rw [beq_iff_eq] at this
    unfold uniMap
    rw [this]
    by_cases he : c.toNat % 2 = 0
    · rw [if_pos he]; rfl
    · rw [if_neg he]
      have : c.toNat ||| 1 = c.toNat := by
        have hor : ∀ n ∈ [0x100, 0x101, 0x112, 0x113, 0x12a, 0x12b, 0x14c, 0x14d, 0x16a, 0x16b], n % 2 ≠ 0 → n ||| 1 = n := by
          decide
        exact hor _ h he
      rw [this, Char.ofNat_toNat]
  lowerChar_target c d hd hne := by
    rcases lower_entry hd with h | h
    · exact absurd h.1 hne
    · exact h.1
  lowerChar_idem c d hd := by
    have hf : uniFind d.toNat lowerTable = none := by
      rcases lower_entry hd with ⟨rfl, h⟩ | h
      · exact h
      · exact h.2.1
    constructor
    · show uniMap lowerTable d = [d]
      unfold uniMap; rw [hf]
    · rintro rfl
      have := sigma_entries.1
      rw [hf] at this; cases this
  lowerChar_sigma := lower_sigma
  upperChar_ascii c h := by
    show uniMap upperTable c = _
    unfold uniMap
    rw [(ascii_entry h).2.2]
    by_cases h' : 97 ≤ c.toNat ∧ c.toNat ≤ 122
    · rw [if_pos h', if_pos h']; rfl
    · rw [if_neg h', if_neg h']
  upperChar_uncased c h := by
    show uniMap upperTable c = _
    rcases uniMap_cases upperTable c with ⟨_, h2⟩ | ⟨l, hl, _, _⟩
    · exact h2
    · have := List.all_eq_true.1 upper_entries _ hl
      rw [(uncasedNat_iff c).2 h] at this
      cases this
  binarySearch_some := h1
  binarySearch_none := h2

/-- current Rust: Unicode case mappings and the binary search of Rust 1.82 and later -/
def rustStd : Std := unicodeStd modernSearch

theorem rustStd_lawful : rustStd.Lawful :=
  unicodeStd_lawful modernStd_lawful.binarySearch_some modernStd_lawful.binarySearch_none

theorem lower_lengths : (lowerTable.all fun x => decide (x.2.length ≤ 3)) = true := by decide +kernel

/-- no character has a longer lower case than three characters -/
theorem rustStd_lower (c : Char) : (rustStd.lowerChar c).length ≤ 3 := by
  show (uniMap lowerTable c).length ≤ 3
  rcases uniMap_cases lowerTable c with ⟨_, h⟩ | ⟨l, hl, _, h⟩
  · rw [h]; simp
  · rw [h, List.length_map]
    exact of_decide_eq_true (List.all_eq_true.1 lower_lengths _ hl)

/-- the word-final sigma and a mapping to two characters -/
example : rustStd.toLowercase "ΟΔΥΣΣΕΥΣ, İΣ.".toList = "οδυσσευς, i̇ς.".toList := by decide +kernel

end WanaKana
