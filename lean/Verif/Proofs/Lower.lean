import Verif.Proofs.KanaFacts
/-! # `str::to_lowercase` under the contract, and `to_kana` after a kana shift -/

namespace WanaKana
open KNode

theorem lowerFrom_mem {std : Std} (s : Str) : ∀ {pre : Str} {d : Char}, d ∈ std.lowerFrom pre s →
    (∃ c ∈ s, d ∈ std.lowerChar c) ∨ d = 'σ' ∨ d = 'ς' := by
  induction s with
  | nil => intro pre d h; cases h
  | cons c s ih =>
    intro pre d h
    rw [Std.lowerFrom] at h
    rcases List.mem_append.1 h with h | h
    · split at h
      · split at h
        · exact Or.inr (Or.inr (List.mem_singleton.1 h))
        · exact Or.inr (Or.inl (List.mem_singleton.1 h))
      · exact Or.inl ⟨c, List.mem_cons_self, h⟩
    · rcases ih h with ⟨e, he, h⟩ | h
      · exact Or.inl ⟨e, List.mem_cons_of_mem _ he, h⟩
      · exact Or.inr h

/-- characters that lowercasing leaves alone in every context -/
def Settled (std : Std) (c : Char) : Prop := std.lowerChar c = [c] ∧ c ≠ 'Σ'

theorem lower_settled {std : Std} (hstd : std.Lawful) {s : Str} {d : Char} (h : d ∈ std.toLowercase s) :
    Settled std d := by
  rcases lowerFrom_mem s h with ⟨c, _, h⟩ | rfl | rfl
  · exact hstd.lowerChar_idem c d h
  · exact ⟨hstd.lowerChar_sigma.1, by decide⟩
  · exact ⟨hstd.lowerChar_sigma.2, by decide⟩

theorem settled_uncased {std : Std} (hstd : std.Lawful) {c : Char} (h : Uncased c) : Settled std c := by
  refine ⟨hstd.lowerChar_uncased c h, ?_⟩
  rintro rfl
  unfold Uncased at h
  simp only [Char.reduceToNat] at h
  omega

theorem settled_not_upper {std : Std} (hstd : std.Lawful) {c : Char} (h : Settled std c) :
    ¬ (65 ≤ c.toNat ∧ c.toNat ≤ 90) := by
  intro hu
  have := h.1
  rw [hstd.lowerChar_ascii c (by omega)] at this
  have h2 : toAsciiLowercase c = c := by simpa using this
  have h3 := toAsciiLowercase_toNat c
  rw [h2, if_pos hu] at h3
  omega

/-- an uncased character of the lowercased text was there before -/
theorem lower_uncased {std : Std} (hstd : std.Lawful) {s : Str} {d : Char} (h : d ∈ std.toLowercase s)
    (hu : Uncased d) : d ∈ s := by
  rcases lowerFrom_mem s h with ⟨c, hc, h⟩ | rfl | rfl
  · by_cases e : d = c
    · rw [e]; exact hc
    · exact absurd hu (hstd.lowerChar_target c d h e)
  · unfold Uncased at hu; simp only [Char.reduceToNat] at hu; omega
  · unfold Uncased at hu; simp only [Char.reduceToNat] at hu; omega

theorem lowerFrom_id {std : Std} (s : Str) (h : ∀ c ∈ s, Settled std c) : ∀ pre, std.lowerFrom pre s = s := by
  induction s with
  | nil => intro pre; rfl
  | cons c s ih =>
    intro pre
    obtain ⟨h1, h2⟩ := h c List.mem_cons_self
    rw [Std.lowerFrom, if_neg h2, h1, ih fun d hd => h d (List.mem_cons_of_mem _ hd)]
    rfl

theorem toLowercase_id {std : Std} {s : Str} (h : ∀ c ∈ s, Settled std c) : std.toLowercase s = s :=
  lowerFrom_id s h []

theorem mem_lowerFrom {std : Std} (hstd : std.Lawful) {c : Char} (hu : Uncased c) (s : Str) (h : c ∈ s) :
    ∀ pre, c ∈ std.lowerFrom pre s := by
  induction s with
  | nil => cases h
  | cons d s ih =>
    intro pre
    rw [Std.lowerFrom]
    rcases List.mem_cons.1 h with e | h
    · subst e
      obtain ⟨h1, h2⟩ := settled_uncased hstd hu
      rw [if_neg h2, h1]
      simp
    · exact List.mem_append_right _ (ih h _)

/-! ## `to_kana` and the kana shift -/

theorem h2kP_key {c : Char} (h : keyChar (toAsciiLowercase c) = true) : h2kP c = c := by
  rw [keyChar_iff, toAsciiLowercase_toNat] at h
  simp only [List.mem_cons, List.not_mem_nil, or_false] at h
  apply char_ext
  rw [h2kP_toNat, if_neg]
  split at h <;> omega

theorem h2kP_other {c : Char} (h : c.toNat < 0x2100) : h2kP c = c := by
  apply char_ext
  rw [h2kP_toNat, if_neg (by omega)]

theorem map_h2kP_keys {s : Str} (h : ∀ c ∈ low s, keyChar c = true) : s.map h2kP = s := by
  induction s with
  | nil => rfl
  | cons c s ih =>
    rw [List.map_cons, h2kP_key (h _ (by simp [low])), ih fun d hd => h d (by
      simp only [low, List.map_cons, List.mem_cons] at hd ⊢; exact Or.inr hd)]

theorem stops_shift {m : Mode} {s : Str} {n : KNode} {k : Nat} (h : Stops (tree m) s n k) :
    Stops (tree m) (s.map h2kP) n k := by
  have hw := h.walk
  have ht : (s.map h2kP).take k = s.take k := by
    rw [← List.map_take, map_h2kP_keys (walk_keyChar hw)]
  refine ⟨by rw [List.length_map]; exact h.le, by rw [ht]; exact hw, ?_⟩
  intro c hc
  rw [← List.map_drop, List.head?_map] at hc
  obtain ⟨d, hd, rfl⟩ := Option.map_eq_some_iff.1 hc
  by_cases hlt : d.toNat < 0x2100
  · rw [h2kP_other hlt]; exact h.stop d hd
  · exact (inert_of_ge (m := m) (h2kP_ge (by omega))).find hw

/-- Shifting to katakana before or after `to_kana` makes no difference to the shifted result. -/
theorem kana_shift (m : Mode) (s : Str) : (kana m (s.map h2kP)).map h2kP = (kana m s).map h2kP := by
  induction s using list_strong with
  | _ s ih =>
    cases s with
    | nil => rfl
    | cons c s =>
      obtain ⟨n, k, hst⟩ := exists_stops (tree m) (c :: s)
      have hst' := stops_shift hst
      cases ho : n.output with
      | none =>
        rw [List.map_cons] at hst' ⊢
        rw [kana_miss hst ho, kana_miss hst' ho, List.map_cons, List.map_cons, h2kP_idem, ih s (by simp)]
      | some out =>
        have hk := stops_pos hst ho
        rw [kana_hit hst ho, kana_hit hst' ho, List.map_append, List.map_append, ← List.map_take,
          map_h2kP_keys (walk_keyChar hst.walk), ← List.map_drop,
          ih _ (by simp [List.length_drop]; omega)]

/-- every character of `to_kana` of lowercased text is settled -/
theorem kana_settled {std : Std} (hstd : std.Lawful) (m : Mode) (s : Str) (h : ∀ c ∈ s, Settled std c) :
    ∀ c ∈ kana m s, Settled std c := by
  induction s using list_strong with
  | _ s ih =>
    cases s with
    | nil => intro c hc; rw [kana_nil] at hc; cases hc
    | cons c s =>
      obtain ⟨n, k, hst⟩ := exists_stops (tree m) (c :: s)
      cases ho : n.output with
      | none =>
        rw [kana_miss hst ho]
        intro d hd
        rcases List.mem_cons.1 hd with rfl | hd
        · exact h _ List.mem_cons_self
        · exact ih s (by simp) (fun c hc => h c (List.mem_cons_of_mem _ hc)) d hd
      | some out =>
        have hk := stops_pos hst ho
        rw [kana_hit hst ho]
        intro d hd
        rcases List.mem_append.1 hd with hd | hd
        · have hout := (walk_output hst.walk ho).2.2
          have key : ∀ c ∈ out, Uncased c ∧ Uncased (h2kP c) := by
            intro c hc
            have := outChar_iff.1 (hout c hc)
            simp only [List.mem_cons, List.not_mem_nil, or_false] at this
            unfold Uncased
            rw [h2kP_toNat]
            constructor
            · omega
            · split <;> omega
          apply settled_uncased hstd
          unfold styled at hd
          split at hd
          · obtain ⟨e, he, rfl⟩ := List.mem_map.1 hd
            exact (key e he).2
          · exact (key d hd).1
        · exact ih _ (by simp [List.length_drop]; omega) (fun c hc => h c (List.mem_of_mem_drop hc)) d hd

theorem h2kP_settled {std : Std} (hstd : std.Lawful) {c : Char} (h : Settled std c) : Settled std (h2kP c) := by
  by_cases hh : 0x3041 ≤ c.toNat ∧ c.toNat ≤ 0x3096
  · apply settled_uncased hstd
    unfold Uncased
    rw [h2kP_toNat, if_pos hh]
    omega
  · have : h2kP c = c := by apply char_ext; rw [h2kP_toNat, if_neg hh]
    rw [this]; exact h

/-- inert characters survive -/
theorem mem_kana_of_ge (m : Mode) {c : Char} (hc : 0x2100 ≤ c.toNat) {s : Str} (h : c ∈ s) : c ∈ kana m s := by
  obtain ⟨a, b, rfl⟩ := List.append_of_mem h
  rw [kana_append_inert a (inert_of_ge hc)]
  simp

end WanaKana
