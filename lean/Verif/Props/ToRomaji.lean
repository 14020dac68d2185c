import Verif.Proofs.RomajiTable
import Verif.Proofs.StdConcrete
import Verif.Props.KanaShift
/-! # C27–C35, C37, C56: `to_romaji` -/

namespace WanaKana
open RNode

/-- induction along the scan -/
theorem rom_ind {std : Std} {P : List (Char × Bool) → Prop} (nil : P [])
    (miss : ∀ c b z, TO_ROMAJI_NODE_TREE.rfind std c = none → P z → P ((c, b) :: z))
    (hit : ∀ z n k, k ≠ 0 → RStops std TO_ROMAJI_NODE_TREE (z.map Prod.fst) n k → P (z.drop k) → P z) :
    ∀ z, P z := by
  intro z
  induction z using list_strong with
  | _ z ih =>
    cases z with
    | nil => exact nil
    | cons x z =>
      obtain ⟨c, b⟩ := x
      rcases rom_cases std c (z.map Prod.fst) with h | ⟨n, k, hk, h⟩
      · exact miss c b z h (ih z (by simp))
      · exact hit _ n k hk h (ih _ (by simp; omega))

/-! ## C27 -/

/-- **C27** `to_romaji` returns for every text and every option. -/
theorem C27_total {std : Std} (hstd : std.Lawful) (s : Str) (o : Options) :
    ∃ r, to_romaji_with_opt std s o = .ok r := ⟨_, to_romaji_eq hstd s o⟩

example : to_romaji modernStd "ウーッー".toList = .ok "uu".toList := by decide +kernel
example : to_romaji_with_opt modernStd "ワニカニ　が　すごい　だ".toList { upcase_katakana := true }
    = .ok "WANIKANI ga sugoi da".toList := by decide +kernel

/-- **C27** for real standard libraries -/
theorem C27_rust (s : Str) (o : Options) :
    (∃ r, to_romaji_with_opt modernStd s o = .ok r) ∧ (∃ r, to_romaji_with_opt legacyStd s o = .ok r) :=
  ⟨C27_total modernStd_lawful s o, C27_total legacyStd_lawful s o⟩

/-! ## C28 and C35: what is converted, and idempotence -/

theorem japaneseMarks_keys : (Spec.japaneseMarks.flatMap fun x => x.1)
    = ['　', '、', '。', '「', '」', '『', '』', '〜', '・', 'ー', '！', '（', '）', '：', '？', '［', '］', '｛', '｝'] := by
  decide +kernel

theorem convertible_iff {c : Char} : Spec.Convertible c ↔
    romajiKey c = true ∨ (is_char_katakana c = true ∧ keeps c = false) := by
  unfold Spec.Convertible
  rw [japaneseMarks_keys, specKana_iff, romajiKey_iff, is_char_katakana_iff]
  have hk : keeps c = false ↔ ¬ (c.toNat = 0x30FB ∨ c.toNat = 0x30F5 ∨ c.toNat = 0x30F6) := by
    rw [← keeps_iff]; simp
  rw [hk]
  simp only [List.mem_cons, List.not_mem_nil, or_false, char_eq_iff, Char.reduceToNat]
  omega

instance (c : Char) : Decidable (Spec.Convertible c) := decidable_of_iff _ convertible_iff.symm

theorem rom_id {std : Std} (hstd : std.Lawful) (up : Bool) : ∀ z : List (Char × Bool),
    (∀ x ∈ z, romajiKey x.1 = false) → rom std up z = z.map Prod.fst := by
  intro z
  induction z with
  | nil => intro _; exact rom_nil _ _
  | cons x z ih =>
    intro h
    obtain ⟨c, b⟩ := x
    rw [rom_miss (root_none hstd (h _ List.mem_cons_self)), ih fun y hy => h y (List.mem_cons_of_mem _ hy)]
    rfl

/-- **C28** Text without convertible characters is returned unchanged, under every option. -/
theorem C28_unchanged {std : Std} (hstd : std.Lawful) (s : Str) (o : Options)
    (h : ∀ c ∈ s, ¬ Spec.Convertible c) : to_romaji_with_opt std s o = .ok s := by
  rw [to_romaji_eq hstd]
  have hk : k2hP std true none s = s := by
    apply k2hP_id
    intro d hd
    have := h d hd
    rw [convertible_iff] at this
    cases h1 : is_char_katakana d with
    | false => simp
    | true =>
      cases h2 : keeps d with
      | true => simp
      | false => exact absurd (Or.inr ⟨h1, h2⟩) this
  have hf := flagged_fst hstd s
  rw [hk] at hf
  rw [rom_id hstd, hf]
  intro x hx
  have hm : x.1 ∈ s := by rw [← hf]; exact List.mem_map_of_mem hx
  have := h _ hm
  rw [convertible_iff] at this
  cases hr : romajiKey x.1 with
  | false => rfl
  | true => exact absurd (Or.inl hr) this

example : ∀ c ∈ "Hello, 世界! １２ ヶ月".toList, ¬ Spec.Convertible c := by decide +kernel

theorem rom_out {std : Std} (hstd : std.Lawful) (up : Bool) : ∀ z : List (Char × Bool),
    ∀ d ∈ rom std up z, (romajiKey d = false ∧ ∃ x ∈ z, x.1 = d) ∨ d.toNat < 128
      ∨ d.toNat ∈ [0x2018, 0x2019, 0x201C, 0x201D] := by
  intro z
  induction z using rom_ind (std := std) with
  | nil => intro d hd; rw [rom_nil] at hd; cases hd
  | miss c b z h ih =>
    intro d hd
    rw [rom_miss h] at hd
    rcases List.mem_cons.1 hd with rfl | hd
    · left
      refine ⟨?_, _, List.mem_cons_self, rfl⟩
      cases hr : romajiKey d with
      | false => rfl
      | true =>
        obtain ⟨n, hn⟩ := root_some hstd hr
        rw [h] at hn; cases hn
    · rcases ih d hd with ⟨h1, x, h2, h3⟩ | h1
      · exact Or.inl ⟨h1, x, List.mem_cons_of_mem _ h2, h3⟩
      · exact Or.inr h1
  | hit z n k hk h ih =>
    intro d hd
    rw [rom_hit h hk] at hd
    rcases List.mem_append.1 hd with hd | hd
    · right
      have ho := (rwalk_facts hstd h.walk).2.1
      have : ∃ e ∈ n.output, d = e ∨ d = aUp e := by
        split at hd
        · obtain ⟨e, he, rfl⟩ := List.mem_map.1 hd; exact ⟨e, he, Or.inr rfl⟩
        · exact ⟨d, hd, Or.inl rfl⟩
      obtain ⟨e, he, hde⟩ := this
      have h1 := romajiOut_iff.1 (ho e he)
      simp only [List.mem_cons, List.not_mem_nil, or_false] at h1 ⊢
      rcases hde with rfl | rfl
      · omega
      · rw [aUp_toNat]; split <;> omega
    · rcases ih d hd with ⟨h1, x, h2, h3⟩ | h1
      · exact Or.inl ⟨h1, x, List.mem_of_mem_drop h2, h3⟩
      · exact Or.inr h1

/-- **C28/C35** Nothing convertible is left in the result. -/
theorem C35_all_converted {std : Std} (hstd : std.Lawful) (s r : Str) (o : Options)
    (h : to_romaji_with_opt std s o = .ok r) : ∀ c ∈ r, ¬ Spec.Convertible c := by
  rw [to_romaji_eq hstd] at h
  cases h
  intro c hc
  rw [convertible_iff]
  rcases rom_out hstd _ _ c hc with ⟨h1, x, hx, rfl⟩ | h1
  · have hm : x.1 ∈ k2hP std true none s := by
      rw [← flagged_fst hstd]; exact List.mem_map_of_mem hx
    have h2 := k2hP_out hstd true s prevOk_none _ hm
    rintro (h3 | ⟨h3, h4⟩)
    · rw [h1] at h3; cases h3
    · rcases h2 with h2 | h2 | h2
      · rw [h4] at h2; cases h2
      · rw [isDash_iff] at h2
        have : romajiKey x.1 = true := by rw [romajiKey_iff]; right; rw [h2]; decide
        rw [h1] at this; cases this
      · rw [h3] at h2; cases h2
  · rw [romajiKey_iff, is_char_katakana_iff]
    simp only [List.mem_cons, List.not_mem_nil, or_false] at h1 ⊢
    omega

/-- **C28** The text is unchanged exactly if it has nothing convertible. -/
theorem C28_iff {std : Std} (hstd : std.Lawful) (s : Str) (o : Options) :
    to_romaji_with_opt std s o = .ok s ↔ ∀ c ∈ s, ¬ Spec.Convertible c :=
  ⟨C35_all_converted hstd s s o, C28_unchanged hstd s o⟩

/-- **C35** `to_romaji` is idempotent (even if the second call uses other options). -/
theorem C35_idempotent {std : Std} (hstd : std.Lawful) (s r : Str) (o o' : Options)
    (h : to_romaji_with_opt std s o = .ok r) : to_romaji_with_opt std r o' = .ok r :=
  C28_unchanged hstd r o' (C35_all_converted hstd s r o h)

/-! ## C29 -/

/-- kana have ASCII romaji -/
theorem kana_ascii {std : Std} (hstd : std.Lawful) {p : Str} {n : RNode}
    (h : TO_ROMAJI_NODE_TREE.rwalk std p = some n) (hp : ∀ c ∈ p, is_char_kana c = true) :
    ∀ d ∈ n.output, d.toNat < 128 := by
  have hc : (TO_ROMAJI_NODE_TREE.paths.all fun x => !(x.1.all is_char_kana)
      || x.2.output.all fun d => decide (d.toNat < 128)) = true := by decide +kernel
  have := rwalk_check hstd hc h
  simp only [Bool.or_eq_true, Bool.not_eq_true', List.all_eq_true, decide_eq_true_iff] at this
  rcases this with h1 | h1
  · rw [List.all_eq_true.2 hp] at h1; cases h1
  · exact h1

theorem k2hP_kana {std : Std} (hstd : std.Lawful) (dest : Bool) (s : Str) : ∀ {prev}, PrevOk prev →
    (∀ c ∈ s, is_char_kana c = true) → ∀ d ∈ k2hP std dest prev s, is_char_kana d = true ∧
      (keeps d = true → d ∈ s) ∧ (0x3095 ≤ d.toNat ∧ d.toNat ≤ 0x3096 → d ∈ s) := by
  induction s with
  | nil => intro prev _ _ d hd; cases prev <;> simp [k2hP] at hd
  | cons c s ih =>
    intro prev hok hs d hd
    have hcs := hs c List.mem_cons_self
    have hs' : ∀ c ∈ s, is_char_kana c = true := fun d hd => hs d (List.mem_cons_of_mem _ hd)
    have fin : (is_char_kana d = true ∧ (keeps d = true → d ∈ s) ∧ (0x3095 ≤ d.toNat ∧ d.toNat ≤ 0x3096 → d ∈ s)) →
        is_char_kana d = true ∧ (keeps d = true → d ∈ c :: s) ∧
          (0x3095 ≤ d.toNat ∧ d.toNat ≤ 0x3096 → d ∈ c :: s) := fun h =>
      ⟨h.1, fun k => List.mem_cons_of_mem _ (h.2.1 k), fun k => List.mem_cons_of_mem _ (h.2.2 k)⟩
    have self : is_char_kana c = true ∧ (keeps c = true → c ∈ c :: s) ∧
          (0x3095 ≤ c.toNat ∧ c.toNat ≤ 0x3096 → c ∈ c :: s) :=
      ⟨hcs, fun _ => List.mem_cons_self, fun _ => List.mem_cons_self⟩
    rw [k2hP_cons] at hd
    by_cases hk : keeps c = true
    · rw [if_pos hk] at hd
      rcases List.mem_cons.1 hd with rfl | hd
      · exact self
      · exact fin (ih hok hs' d hd)
    · rw [if_neg hk] at hd
      by_cases hd' : isDash c = true
      · rw [if_pos hd'] at hd
        cases prev with
        | none =>
          rcases List.mem_cons.1 hd with rfl | hd
          · exact self
          · exact fin (ih hok hs' d hd)
        | some p =>
          rcases List.mem_append.1 hd with hd | hd
          · have := longOut_mem hstd (hok p rfl).1 (hok p rfl).2 dest c d hd
            simp only [List.mem_cons, List.not_mem_nil, or_false] at this
            refine ⟨?_, ?_, ?_⟩
            · rcases this with rfl | rfl | rfl | rfl | rfl <;> rfl
            · intro h; exfalso; rcases this with rfl | rfl | rfl | rfl | rfl <;> revert h <;> decide
            · intro h; exfalso; rcases this with rfl | rfl | rfl | rfl | rfl <;> revert h <;> decide
          · exact fin (ih hok hs' d hd)
      · rw [if_neg hd'] at hd
        by_cases ha : is_char_katakana c = true
        · rw [if_pos ha] at hd
          have hp := k2hChar_prevOk (by simpa using hk) (by simpa using hd') ha
          rcases List.mem_cons.1 hd with rfl | hd
          · have := hp _ rfl
            refine ⟨?_, ?_, ?_⟩
            · rw [is_char_kana_iff]; omega
            · intro h; rw [keeps_iff] at h; omega
            · intro h; omega
          · exact fin (ih hp hs' d hd)
        · rw [if_neg ha] at hd
          rcases List.mem_cons.1 hd with rfl | hd
          · exact self
          · exact fin (ih prevOk_none hs' d hd)

theorem rom_ascii {std : Std} (hstd : std.Lawful) (up : Bool) : ∀ z : List (Char × Bool),
    (∀ x ∈ z, is_char_kana x.1 = true ∧ romajiKey x.1 = true) → ∀ d ∈ rom std up z, d.toNat < 128 := by
  intro z
  induction z using rom_ind (std := std) with
  | nil => intro _ d hd; rw [rom_nil] at hd; cases hd
  | miss c b z h ih =>
    intro hz
    obtain ⟨n, hn⟩ := root_some hstd (hz _ List.mem_cons_self).2
    rw [h] at hn; cases hn
  | hit z n k hk h ih =>
    intro hz d hd
    rw [rom_hit h hk] at hd
    rcases List.mem_append.1 hd with hd | hd
    · have ho := kana_ascii hstd h.walk (by
        intro c hc
        obtain ⟨x, hx, rfl⟩ := List.mem_map.1 (List.mem_of_mem_take hc)
        exact (hz x hx).1)
      split at hd
      · obtain ⟨e, he, rfl⟩ := List.mem_map.1 hd
        have := ho e he
        rw [aUp_toNat]; split <;> omega
      · exact ho d hd
    · exact ih (fun x hx => hz x (List.mem_of_mem_drop hx)) d hd

/-- **C29** The romaji of kana (without the symbols ヵ ヶ ゕ ゖ) is pure ASCII. -/
theorem C29_ascii {std : Std} (hstd : std.Lawful) (s r : Str) (o : Options)
    (hs : ∀ c ∈ s, Spec.Kana c ∧ c ∉ ['ヵ', 'ヶ', 'ゕ', 'ゖ'])
    (h : to_romaji_with_opt std s o = .ok r) : ∀ c ∈ r, Spec.Ascii c := by
  rw [to_romaji_eq hstd] at h
  cases h
  apply rom_ascii hstd
  intro x hx
  have hm : x.1 ∈ k2hP std true none s := by
    rw [← flagged_fst hstd]; exact List.mem_map_of_mem hx
  have hk := k2hP_kana hstd true s prevOk_none
    (fun c hc => is_char_kana_iff.2 (specKana_iff.1 (hs c hc).1)) _ hm
  refine ⟨hk.1, ?_⟩
  have hout := k2hP_out hstd true s prevOk_none _ hm
  rw [romajiKey_iff]
  have h1 := is_char_kana_iff.1 hk.1
  have not : x.1 ∉ s ∨ x.1 ∉ ['ヵ', 'ヶ', 'ゕ', 'ゖ'] := by
    by_cases hm' : x.1 ∈ s
    · exact Or.inr (hs _ hm').2
    · exact Or.inl hm'
  simp only [List.mem_cons, List.not_mem_nil, or_false, char_eq_iff, Char.reduceToNat] at not ⊢
  rcases hout with h2 | h2 | h2
  · have h3 := hk.2.1 h2
    rw [keeps_iff] at h2
    rcases not with h4 | h4
    · exact absurd h3 h4
    · omega
  · rw [isDash_iff] at h2; omega
  · have h3 : ¬ (0x30A1 ≤ x.1.toNat ∧ x.1.toNat ≤ 0x30FC) := by
      rw [← is_char_katakana_iff]; simp [h2]
    by_cases h4 : 0x3095 ≤ x.1.toNat ∧ x.1.toNat ≤ 0x3096
    · have h5 := hk.2.2 h4
      rcases not with h6 | h6
      · exact absurd h5 h6
      · omega
    · omega

example : ∀ c ∈ "きゃット・ーヴ".toList, Spec.Kana c ∧ c ∉ ['ヵ', 'ヶ', 'ゕ', 'ゖ'] := by decide +kernel

/-- **C29** …so the result satisfies `is_romaji` unless it is empty (as for "っ"). -/
theorem C29_is_romaji {std : Std} (hstd : std.Lawful) (s r : Str) (o : Options)
    (hs : ∀ c ∈ s, Spec.Kana c ∧ c ∉ ['ヵ', 'ヶ', 'ゕ', 'ゖ'])
    (h : to_romaji_with_opt std s o = .ok r) : r = [] ∨ is_romaji r = true := by
  by_cases hr : r = []
  · exact Or.inl hr
  · right
    have ha := C29_ascii hstd s r o hs h
    cases r with
    | nil => exact absurd rfl hr
    | cons c r =>
      have : ((c :: r).all is_char_romaji) = true :=
        List.all_eq_true.2 fun d hd => is_char_romaji_iff.2 (Or.inl (ha d hd))
      simpa [is_romaji, is_romaji_with_whitelist] using this

/-! ## C30 -/

theorem rom_flag (std : Std) : ∀ (z z' : List (Char × Bool)), z.map Prod.fst = z'.map Prod.fst →
    rom std false z = rom std false z' := by
  intro z
  induction z using rom_ind (std := std) with
  | nil =>
    intro z' h
    cases z' with
    | nil => rfl
    | cons _ _ => cases h
  | miss c b z h ih =>
    intro z' he
    cases z' with
    | nil => cases he
    | cons x z' =>
      obtain ⟨c', b'⟩ := x
      simp only [List.map_cons, List.cons.injEq] at he
      obtain ⟨rfl, he⟩ := he
      rw [rom_miss h, rom_miss h, ih z' he]
  | hit z n k hk h ih =>
    intro z' he
    rw [rom_hit h hk, rom_hit (z := z') (he ▸ h) hk, ih (z'.drop k) (by rw [List.map_drop, List.map_drop, he])]
    simp

/-- **C30** Without `upcase_katakana` the result depends on the hiragana form only. -/
theorem C30_hiragana_form {std : Std} (hstd : std.Lawful) (s h : Str) (o : Options)
    (ho : o.upcase_katakana = false) (hh : katakana_to_hiragana_with_opt std s true = .ok h) :
    to_romaji_with_opt std s o = to_romaji_with_opt std h o := by
  rw [to_romaji_eq hstd, to_romaji_eq hstd, ho]
  congr 1
  apply rom_flag
  rw [flagged_fst hstd, flagged_fst hstd]
  have h2 := C23_idempotent hstd s h true true hh
  rw [k2h_eq hstd] at hh h2
  cases hh
  exact (Except.ok.inj h2).symm

/-- **C30** A text without katakana (and without ゕ ゖ) has the same romaji as its katakana form. -/
theorem C30_script {std : Std} (hstd : std.Lawful) (s k : Str) (o : Options)
    (ho : o.upcase_katakana = false) (hs : ∀ c ∈ s, ¬ Spec.Katakana c ∧ c ≠ 'ゕ' ∧ c ≠ 'ゖ')
    (hk : hiragana_to_katakana s = .ok k) :
    to_romaji_with_opt std k o = to_romaji_with_opt std s o := by
  have := C25_hiragana_partial hstd s true hs
  rw [hk, ok_bind] at this
  exact C30_hiragana_form hstd k s o ho this

example : hiragana_to_katakana "っきゃくんあ漢".toList = .ok "ッキャクンア漢".toList
    ∧ ∀ c ∈ "っきゃくんあ漢".toList, ¬ Spec.Katakana c ∧ c ≠ 'ゕ' ∧ c ≠ 'ゖ' := by decide +kernel

/-! ## C31 -/

theorem asciiUpper_eq : Spec.asciiUpper = aUp := by
  funext c
  unfold Spec.asciiUpper aUp
  by_cases h : Spec.In 0x61 0x7A c
  · have h' : 97 ≤ c.toNat ∧ c.toNat ≤ 122 := h
    rw [if_pos h, if_pos h']
  · have h' : ¬ (97 ≤ c.toNat ∧ c.toNat ≤ 122) := h
    rw [if_neg h, if_neg h']

theorem aUp_idem (c : Char) : aUp (aUp c) = aUp c := by
  apply char_ext
  have := aUp_toNat c
  rw [aUp_toNat (aUp c)]
  split <;> split at this <;> omega

theorem rom_case (std : Std) : ∀ (z : List (Char × Bool)),
    (rom std true z).map aUp = (rom std false z).map aUp := by
  intro z
  induction z using rom_ind (std := std) with
  | nil => rw [rom_nil, rom_nil]
  | miss c b z h ih => rw [rom_miss h, rom_miss h, List.map_cons, List.map_cons, ih]
  | hit z n k hk h ih =>
    rw [rom_hit h hk, rom_hit h hk, List.map_append, List.map_append, ih]
    congr 1
    split
    · simp [aUp_idem]
    · simp

/-- **C31** The option changes nothing but the case of ASCII letters. -/
theorem C31_case {std : Std} (hstd : std.Lawful) (s r₁ r₂ : Str) (o₁ o₂ : Options)
    (h₁ : to_romaji_with_opt std s o₁ = .ok r₁) (h₂ : to_romaji_with_opt std s o₂ = .ok r₂) :
    r₁.map Spec.asciiUpper = r₂.map Spec.asciiUpper := by
  rw [to_romaji_eq hstd] at h₁ h₂
  cases h₁; cases h₂
  rw [asciiUpper_eq]
  have hc := rom_case std (flagged std s)
  cases o₁.upcase_katakana <;> cases o₂.upcase_katakana <;> first | rfl | exact hc | exact hc.symm

/-- **C31** the other options have no effect at all -/
theorem C31_other_options {std : Std} (s : Str) (o₁ o₂ : Options) (hstd : std.Lawful)
    (h : o₁.upcase_katakana = o₂.upcase_katakana) :
    to_romaji_with_opt std s o₁ = to_romaji_with_opt std s o₂ := by
  rw [to_romaji_eq hstd, to_romaji_eq hstd, h]

theorem flagged_snd (std : Std) (s : Str) :
    ∀ x ∈ flagged std s, ∃ c ∈ s, x.2 = is_char_katakana c := by
  intro x hx
  unfold flagged at hx
  have := (List.of_mem_zip hx).2
  obtain ⟨c, hc, he⟩ := List.mem_map.1 this
  exact ⟨c, hc, he.symm⟩

theorem rom_no_flag (std : Std) : ∀ (z : List (Char × Bool)), (∀ x ∈ z, x.2 = false) →
    rom std true z = rom std false z := by
  intro z
  induction z using rom_ind (std := std) with
  | nil => intro _; rw [rom_nil, rom_nil]
  | miss c b z h ih =>
    intro hz
    rw [rom_miss h, rom_miss h, ih fun x hx => hz x (List.mem_cons_of_mem _ hx)]
  | hit z n k hk h ih =>
    intro hz
    rw [rom_hit h hk, rom_hit h hk, ih fun x hx => hz x (List.mem_of_mem_drop hx)]
    have : (z.take k).all Prod.snd = false := by
      cases z with
      | nil => have := h.le; simp at this; omega
      | cons x z =>
        obtain ⟨k', rfl⟩ : ∃ k', k = k' + 1 := ⟨k - 1, by omega⟩
        simp [hz x List.mem_cons_self]
    simp [this]

/-- **C31** without katakana the option has no effect -/
theorem C31_no_katakana {std : Std} (hstd : std.Lawful) (s : Str) (o₁ o₂ : Options)
    (hs : ∀ c ∈ s, ¬ Spec.Katakana c) :
    to_romaji_with_opt std s o₁ = to_romaji_with_opt std s o₂ := by
  rw [to_romaji_eq hstd, to_romaji_eq hstd]
  have hc := rom_no_flag std (flagged std s) (by
    intro x hx
    obtain ⟨c, hc, he⟩ := flagged_snd std s x hx
    rw [he]
    cases hk : is_char_katakana c with
    | false => rfl
    | true => exact absurd (specKatakana_iff.2 (is_char_katakana_iff.1 hk)) (hs c hc))
  cases o₁.upcase_katakana <;> cases o₂.upcase_katakana <;> simp [hc]

example : ∀ c ∈ "ひらがな、漢字 abc".toList, ¬ Spec.Katakana c := by decide +kernel

theorem rom_all_flag (std : Std) : ∀ (z : List (Char × Bool)), (∀ x ∈ z, x.2 = true ∧ aUp x.1 = x.1) →
    rom std true z = (rom std false z).map aUp := by
  intro z
  induction z using rom_ind (std := std) with
  | nil => intro _; rw [rom_nil, rom_nil]; rfl
  | miss c b z h ih =>
    intro hz
    rw [rom_miss h, rom_miss h, ih fun x hx => hz x (List.mem_cons_of_mem _ hx), List.map_cons]
    rw [(hz _ List.mem_cons_self).2]
  | hit z n k hk h ih =>
    intro hz
    rw [rom_hit h hk, rom_hit h hk, ih fun x hx => hz x (List.mem_of_mem_drop hx)]
    have : (z.take k).all Prod.snd = true := by
      rw [List.all_eq_true]
      intro x hx
      exact (hz x (List.mem_of_mem_take hx)).1
    simp [this]

/-- **C31** pure katakana (with ・ and ー) gives exactly the capitals of the plain result -/
theorem C31_all_katakana {std : Std} (hstd : std.Lawful) (s r : Str) (o₁ o₂ : Options)
    (hs : ∀ c ∈ s, Spec.Katakana c) (h₁ : o₁.upcase_katakana = true) (h₂ : o₂.upcase_katakana = false)
    (h : to_romaji_with_opt std s o₂ = .ok r) :
    to_romaji_with_opt std s o₁ = .ok (r.map Spec.asciiUpper) := by
  rw [to_romaji_eq hstd, h₂] at h
  cases h
  rw [to_romaji_eq hstd, h₁, asciiUpper_eq, rom_all_flag]
  intro x hx
  obtain ⟨c, hc, he⟩ := flagged_snd std s x hx
  refine ⟨by rw [he]; exact is_char_katakana_iff.2 (specKatakana_iff.1 (hs c hc)), ?_⟩
  have hm : x.1 ∈ k2hP std true none s := by
    rw [← flagged_fst hstd]; exact List.mem_map_of_mem hx
  have := (k2hP_kana hstd true s prevOk_none (fun c hc => is_char_kana_iff.2 (by
    have := specKatakana_iff.1 (hs c hc); omega)) _ hm).1
  rw [is_char_kana_iff] at this
  unfold aUp; rw [if_neg (by omega)]

example : to_romaji_with_opt modernStd "シャッターヵ".toList { upcase_katakana := true }
    = .ok "SHATTAAヵ".toList := by decide +kernel

/-! ## C37 -/

theorem rom_length {std : Std} (hstd : std.Lawful) (up : Bool) : ∀ (z : List (Char × Bool)),
    (rom std up z).length ≤ 3 * z.length := by
  intro z
  induction z using rom_ind (std := std) with
  | nil => rw [rom_nil]; simp
  | miss c b z h ih => rw [rom_miss h]; simp; omega
  | hit z n k hk h ih =>
    rw [rom_hit h hk, List.length_append]
    have h1 := (rwalk_facts hstd h.walk).2.2.1
    have h2 := h.le
    simp only [List.length_take, List.length_map, List.length_drop] at h1 h2 ih
    have h3 : (if (z.take k).all Prod.snd && up then n.output.map aUp else n.output).length = n.output.length := by
      split <;> simp
    rw [h3]
    omega

/-- **C37** at most three characters per input character -/
theorem C37_length {std : Std} (hstd : std.Lawful) (s r : Str) (o : Options)
    (h : to_romaji_with_opt std s o = .ok r) : r.length ≤ 3 * s.length := by
  rw [to_romaji_eq hstd] at h
  cases h
  have h1 := rom_length hstd o.upcase_katakana (flagged std s)
  have h2 : (flagged std s).length ≤ s.length := by
    unfold flagged; simp [List.length_zip]; omega
  omega

/-- **C37** the bound is attained: しししし… -/
theorem C37_tight {std : Std} (hstd : std.Lawful) (n : Nat) :
    ∃ r, to_romaji_with_opt std (List.replicate n 'し') {} = .ok r ∧ r.length = 3 * n := by
  rw [to_romaji_eq hstd]
  refine ⟨_, rfl, ?_⟩
  have hk : k2hP std true none (List.replicate n 'し') = List.replicate n 'し' := by
    apply k2hP_id
    intro d hd
    rw [(List.mem_replicate.1 hd).2]; decide
  have hf := flagged_fst hstd (List.replicate n 'し')
  rw [hk] at hf
  have key : ∀ (n : Nat) (z : List (Char × Bool)), z.map Prod.fst = List.replicate n 'し' →
      (rom std false z).length = 3 * n := by
    intro n
    induction n with
    | zero => intro z hz; simp at hz; subst hz; rw [rom_nil]; rfl
    | succ n ih =>
      intro z hz
      cases z with
      | nil => cases hz
      | cons x z =>
        obtain ⟨c, b⟩ := x
        simp only [List.map_cons, List.replicate_succ, List.cons.injEq] at hz
        obtain ⟨hc, hz⟩ := hz
        subst hc
        have hw : ∃ n1, TO_ROMAJI_NODE_TREE.rwalk std ['し'] = some n1 ∧ n1.output = "shi".toList
            ∧ n1.rfind std 'し' = none := by
          obtain ⟨n1, hn1⟩ := root_has hstd (p := 'し') (by decide) (by decide)
          have hc : (TO_ROMAJI_NODE_TREE.paths.all fun x => decide (x.1 ≠ ['し']) ||
            (decide (x.2.output = "shi".toList) && decide (x.2.mfind 'し' |>.isNone))) = true := by decide +kernel
          have hw : TO_ROMAJI_NODE_TREE.rwalk std ['し'] = some n1 := by rw [rwalk_singleton]; exact hn1
          have := rwalk_check hstd hc hw
          simp only [ne_eq, not_true_eq_false, decide_false, Bool.false_or, Bool.and_eq_true,
            decide_eq_true_iff] at this
          refine ⟨n1, hw, this.1, ?_⟩
          rw [rfind_eq_mfind hstd (rwalk_mem_paths hstd _ romaji_sorted hw) (by decide)]
          simpa using this.2
        obtain ⟨n1, h1, h2, h3⟩ := hw
        have hst : RStops std TO_ROMAJI_NODE_TREE ((('し', b) :: z).map Prod.fst) n1 1 := by
          refine ⟨by simp, by simpa using h1, ?_⟩
          intro c hc
          have hm : c ∈ z.map Prod.fst := by
            simp only [List.map_cons, List.drop_succ_cons, List.drop_zero] at hc
            exact List.mem_of_mem_head? hc
          rw [hz] at hm
          rw [(List.mem_replicate.1 hm).2]; exact h3
        rw [rom_hit hst (by decide), List.length_append]
        simp only [List.drop_succ_cons, List.drop_zero, ih z hz]
        simp only [Bool.and_false, Bool.false_eq_true, if_false, h2]
        have : "shi".toList.length = 3 := by decide
        omega
  exact key n _ hf

end WanaKana
