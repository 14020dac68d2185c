import Verif.Props.RomajiUpAll
import Verif.Props.Streaming
/-! # C142: going on after a romanized beginning -/

namespace WanaKana

/-- what is not converted stays, and has no influence on what follows -/
theorem rom_after {std : Std} (hstd : std.Lawful) (up : Bool) (b : Str) : ∀ r : Str, (∀ c ∈ r, ¬ Spec.Convertible c) →
    rom std up (flagged std (r ++ b)) = r ++ rom std up (flagged std b)
  | [], _ => rfl
  | c :: r, h => by
    have hc := h c List.mem_cons_self
    rw [convertible_iff] at hc
    have hkey : romajiKey c = false := by
      cases e : romajiKey c with
      | false => rfl
      | true => exact absurd (Or.inl e) hc
    have hk : ∀ s : Str, k2hP std true none (c :: s) = c :: k2hP std true none s := by
      intro s
      rw [k2hP_cons]
      cases h1 : keeps c with
      | true => rw [if_pos rfl]
      | false =>
        rw [if_neg (by decide)]
        have h2 : is_char_katakana c = false := by
          cases e : is_char_katakana c with
          | false => rfl
          | true => exact absurd (Or.inr ⟨e, h1⟩) hc
        split
        · rfl
        · rw [if_neg (by rw [h2]; decide)]
    have hf : flagged std (c :: (r ++ b)) = (c, is_char_katakana c) :: flagged std (r ++ b) := by
      unfold flagged
      rw [hk]
      rfl
    rw [List.cons_append, hf, rom_miss (root_none hstd hkey), rom_after hstd up b r fun d hd => h d (List.mem_cons_of_mem _ hd)]
    rfl

/-- **C142** After a beginning that has been romanized already, under whatever options, the rest of a text is romanized
as if it stood alone. -/
theorem C142_resume {std : Std} (hstd : std.Lawful) (a b ra rb : Str) (o o' : Options)
    (ha : to_romaji_with_opt std a o = .ok ra) (hb : to_romaji_with_opt std b o' = .ok rb) :
    to_romaji_with_opt std (ra ++ b) o' = .ok (ra ++ rb) := by
  have hc := C35_all_converted hstd a ra o ha
  rw [to_romaji_eq hstd] at hb ⊢
  rw [rom_after hstd _ _ _ hc, Except.ok.inj hb]

theorem k2hP_unconverted (std : Std) : ∀ (s : Str), (∀ c ∈ s, ¬ Spec.Convertible c) → ∀ prev, k2hP std true prev s = s
  | [], _, prev => by cases prev <;> rfl
  | c :: s, h, prev => by
    have ih := k2hP_unconverted std s fun d hd => h d (List.mem_cons_of_mem _ hd)
    have hc := h c List.mem_cons_self
    rw [convertible_iff] at hc
    rw [k2hP_cons]
    cases h1 : keeps c with
    | true => rw [if_pos rfl, ih]
    | false =>
      have h2 : is_char_katakana c = false := by
        cases e : is_char_katakana c with
        | false => rfl
        | true => exact absurd (Or.inr ⟨e, h1⟩) hc
      have h3 : isDash c = false := by
        cases e : isDash c with
        | false => rfl
        | true =>
          rw [isDash_iff] at e
          rw [is_char_katakana_iff.2 (by omega)] at h2
          cases h2
      rw [if_neg (by decide), h3, h2, if_neg (by decide), if_neg (by decide), ih]

/-- **C142** Nor has a romanized end an influence on what stands before it. -/
theorem C142_end {std : Std} (hstd : std.Lawful) (a b ra rb : Str) (o o' : Options)
    (ha : to_romaji_with_opt std a o = .ok ra) (hb : to_romaji_with_opt std b o' = .ok rb) :
    to_romaji_with_opt std (a ++ rb) o = .ok (ra ++ rb) := by
  have hc := C35_all_converted hstd b rb o' hb
  rw [to_romaji_eq hstd] at ha ⊢
  rw [← Except.ok.inj ha]
  obtain ⟨t, ht⟩ := flagged_append hstd a rb
  have hfst : t.map Prod.fst = rb := by
    have h1 := flagged_fst hstd (a ++ rb)
    rw [ht, List.map_append, flagged_fst hstd, k2hP_append] at h1
    rw [List.append_cancel_left h1]
    exact k2hP_unconverted std rb hc _
  have hkey : ∀ x ∈ t, romajiKey x.1 = false := by
    intro x hx
    have := hc x.1 (by rw [← hfst]; exact List.mem_map_of_mem hx)
    rw [convertible_iff] at this
    cases e : romajiKey x.1 with
    | false => rfl
    | true => exact absurd (Or.inl e) this
  rw [ht, rom_append hstd _ _ fun x hx => hkey x (List.mem_of_mem_head? hx), rom_id hstd _ t hkey, hfst]

/-- **C142** So romanizing the beginning first makes no difference exactly if beginning and rest are not romanized
together where they meet. -/
theorem C142_exactly {std : Std} (hstd : std.Lawful) (o : Options) (ho : o.upcase_katakana = false) (x y : Char)
    (hx : to_romaji_with_opt std "ゔ".toList o = .ok ['v', x])
    (hy : to_romaji_with_opt std "っゔ".toList o = .ok ['v', 'v', y]) (a b ra : Str)
    (ha : to_romaji_with_opt std a o = .ok ra) :
    to_romaji_with_opt std (ra ++ b) o = to_romaji_with_opt std (a ++ b) o ↔ ¬ Spec.MergedV x y a b := by
  have hb := to_romaji_eq hstd b o
  rw [C142_resume hstd a b ra _ o o ha hb, ← C101_cut hstd o ho x y hx hy a b ra _ ha hb, eq_comm]

/-- **C142** the same with katakana in capitals -/
theorem C142_upcase {std : Std} (hstd : std.Lawful) (o : Options) (ho : o.upcase_katakana = true) (x y : Char)
    (hx : to_romaji_with_opt std "ゔ".toList o = .ok ['v', x])
    (hy : to_romaji_with_opt std "っゔ".toList o = .ok ['v', 'v', y]) (a b ra : Str)
    (ha : to_romaji_with_opt std a o = .ok ra) :
    to_romaji_with_opt std (ra ++ b) o = to_romaji_with_opt std (a ++ b) o ↔
      ¬ Spec.MergedV x y a b ∧
      ¬ Spec.Miscased (Spec.kanaTableV x y) (Spec.markedV x (a ++ b))
        (Spec.openEnd (Spec.markedV x a) ++ Spec.openEnd (Spec.markedV x b)) := by
  have hb := to_romaji_eq hstd b o
  rw [C142_resume hstd a b ra _ o o ha hb, ← C136_cut hstd o ho x y hx hy a b ra _ ha hb, eq_comm]

/-- しん and かん may be romanized one after the other, さん and えん not, and コ not without its ー -/
example : to_romaji modernStd "しん".toList = .ok "shin".toList ∧ to_romaji modernStd "shinかん".toList = .ok "shinkan".toList ∧
    to_romaji modernStd "しんかん".toList = .ok "shinkan".toList ∧
    to_romaji modernStd "さん".toList = .ok "san".toList ∧ to_romaji modernStd "sanえん".toList = .ok "sanen".toList ∧
    to_romaji modernStd "さんえん".toList = .ok "san'en".toList ∧
    to_romaji modernStd "koーン".toList = .ok "ko-n".toList ∧ to_romaji modernStd "コーン".toList = .ok "koon".toList := by
  decide +kernel

end WanaKana
