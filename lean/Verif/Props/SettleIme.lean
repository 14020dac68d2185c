import Verif.Proofs.SettleIme
import Verif.Props.Settle
/-! # C125: converting back and forth in IME mode -/

namespace WanaKana
open KNode RNode
open Spec (toHira kanaTable)

theorem weight_leI (s : Str) : (kana .ime s).countP heavy + weigh looseI (kana .ime s) ≤ 3 * s.length := by
  induction s with
  | nil => rw [kana_nil]; exact Nat.le_refl _
  | cons c s ih =>
    have h1 := (kana_cons_heavyI s).1 c
    have h2 : weigh looseI (kana .ime (c :: s)) ≤ 2 + weigh looseI (kana .ime s) := by
      rcases (looseI_cons s).1 c with h | ⟨a, t, l, _, hl, h, _⟩
      · have := looseI_le c
        rw [h, weigh_cons]; omega
      · omega
    rw [List.length_cons]
    omega

theorem canonical_tripsI {std : Std} (hstd : std.Lawful) {r : Str} (h : Spec.CanonicalIme r) : tripP std .ime r = r := by
  have hn := normal_ime hstd h
  unfold tripP
  rw [k2hP_id]
  · exact hn.rom
  · intro d hd
    have := hn.plain d hd
    simp only [plainChar, Bool.and_eq_true, Bool.or_eq_true, Bool.not_eq_true'] at this
    exact or_assoc.1 this.2

/-- one trip: the romaji are canonical, or something gets lighter -/
theorem settle_stepI {std : Std} (hstd : std.Lawful) (o : Options) (hu : o.upcase_katakana = false)
    {x y : Char} (hx : to_romaji_with_opt std "ゔ".toList o = .ok ['v', x]) (hxu : x ≠ 'u')
    (hy : to_romaji_with_opt std "っゔ".toList o = .ok ['v', 'v', y]) (hyu : y ≠ 'u') {s : Str}
    (hv : 'ゔ' ∉ k2hP std true none (kana .ime s)) :
    Spec.CanonicalIme (tripP std .ime s) ∨
    (kana .ime (tripP std .ime s)).countP heavy + weigh looseI (kana .ime (tripP std .ime s)) <
      (kana .ime s).countP heavy + weigh looseI (kana .ime s) := by
  obtain ⟨hxv, hyv, ps, e0, hps, hsuf⟩ := text_pieces hstd (kana .ime s) o hu hx hxu hy hyu
  have h1 := heavy_shift hstd (kana .ime s)
  have h2 := looseI_shift hstd (kana .ime s)
  have h3 := pieces_heavyI hxv hyv hxu hyu ps hps
  have h4 := pieces_looseI hxv hyv hxu hyu ps hps
  have e : tripP std .ime s = (ps.map Prod.snd).flatten := by
    unfold tripP
    rw [e0]
    exact hsuf [] ps rfl
  rw [e0] at h1 h2 hv
  rw [e]
  by_cases hc : (kana .ime (ps.map Prod.snd).flatten).countP heavy = ((ps.map Prod.fst).flatten).countP heavy
  · have hps' : ∀ p ∈ ps, RPiece p ∨ LPiece p := by
      intro p hp
      rcases hps p hp with h | h | h
      · exact Or.inl h
      · exfalso
        apply hv
        rw [List.mem_flatten]
        refine ⟨p.1, List.mem_map_of_mem hp, ?_⟩
        rcases h with rfl | rfl <;> simp
      · exact Or.inr h
    rcases canonical_or_fewerI hxv hyv hxu hyu ps hps' hc with h | h
    · exact Or.inl h
    · right; omega
  · right; omega

theorem settleI {std : Std} (hstd : std.Lawful) (o : Options) (hu : o.upcase_katakana = false)
    {x y : Char} (hx : to_romaji_with_opt std "ゔ".toList o = .ok ['v', x]) (hxu : x ≠ 'u')
    (hy : to_romaji_with_opt std "っゔ".toList o = .ok ['v', 'v', y]) (hyu : y ≠ 'u') : ∀ (N : Nat) (s : Str),
    (kana .ime s).countP heavy + weigh looseI (kana .ime s) ≤ N →
    (∃ t, Spec.CanonicalIme t ∧ ∀ n, N + 1 ≤ n → tripsP std .ime n s = t) ∨
    ∃ i, i ≤ N ∧ 'ゔ' ∈ k2hP std true none (kana .ime (tripsP std .ime i s)) := by
  intro N
  induction N with
  | zero =>
    intro s hs
    by_cases hv : 'ゔ' ∈ k2hP std true none (kana .ime s)
    · exact Or.inr ⟨0, Nat.le_refl _, hv⟩
    · left
      rcases settle_stepI hstd o hu hx hxu hy hyu hv with h | h
      · refine ⟨_, h, ?_⟩
        intro n hn
        obtain ⟨n, rfl⟩ : ∃ k, n = k + 1 := ⟨n - 1, by omega⟩
        exact tripsP_fixed (canonical_tripsI hstd h) n
      · omega
  | succ N ih =>
    intro s hs
    by_cases hv : 'ゔ' ∈ k2hP std true none (kana .ime s)
    · exact Or.inr ⟨0, Nat.zero_le _, hv⟩
    · rcases settle_stepI hstd o hu hx hxu hy hyu hv with h | h
      · left
        refine ⟨_, h, ?_⟩
        intro n hn
        obtain ⟨n, rfl⟩ : ∃ k, n = k + 1 := ⟨n - 1, by omega⟩
        exact tripsP_fixed (canonical_tripsI hstd h) n
      · rcases ih (tripP std .ime s) (by omega) with ⟨t, ht, h1⟩ | ⟨i, hi, h1⟩
        · left
          refine ⟨t, ht, ?_⟩
          intro n hn
          obtain ⟨n, rfl⟩ : ∃ k, n = k + 1 := ⟨n - 1, by omega⟩
          exact h1 n (by omega)
        · exact Or.inr ⟨i + 1, by omega, h1⟩

/-- **C125** In IME mode, too, converting any text to kana and back to romaji again and again comes to rest in canonical
romaji after at most three trips for each character and one more, or at some point there is ゔ and from then on the text
grows without end. -/
theorem C125_either {std : Std} (hstd : std.Lawful) (s : Str) (o o' : Options) (hu : o.upcase_katakana = false)
    (him : o'.imemode = true) (hob : o'.use_obsolete_kana = false) {x y : Char}
    (hx : to_romaji_with_opt std "ゔ".toList o = .ok ['v', x]) (hxu : x ≠ 'u')
    (hy : to_romaji_with_opt std "っゔ".toList o = .ok ['v', 'v', y]) (hyu : y ≠ 'u') :
    (∃ t, Spec.CanonicalIme t ∧ ∀ n, 3 * s.length + 1 ≤ n → trips std o o' n s = .ok t) ∨
    ∃ i r k, i ≤ 3 * s.length ∧ trips std o o' i s = .ok r ∧ to_kana_with_opt std r o' = .ok k ∧ ('ゔ' ∈ k ∨ 'ヴ' ∈ k) ∧
      ∀ n, ∃ r, trips std o o' (i + n + 1) s = .ok r ∧ n + 1 < r.length := by
  have hm : modeOf o' = .ime := modeOf_ime.2 ⟨him, hob⟩
  rcases settleI hstd o hu hx hxu hy hyu _ s (weight_leI s) with ⟨t, ht, h⟩ | ⟨i, hi, h⟩
  · left
    exact ⟨t, ht, fun n hn => by rw [trips_eq hstd hu, hm, h n hn]⟩
  · right
    rw [← hm] at h
    refine ⟨i, _, _, hi, trips_eq hstd hu o' _ _, to_kana_eq hstd _ _, (vu_shift hstd _).1 h, ?_⟩
    intro n
    obtain ⟨r, h1, h2⟩ := C122_grows hstd (tripsP std (modeOf o') i s) _ o o' hu hx hxu hy hyu (to_kana_eq hstd _ _)
      ((vu_shift hstd _).1 h) n
    refine ⟨r, ?_, h2⟩
    rw [trips_eq hstd hu, Nat.add_assoc, tripsP_add, ← trips_eq hstd hu]
    exact h1

/-- **C125** Texts without v, ゔ and ヴ come to rest. -/
theorem C125_settles {std : Std} (hstd : std.Lawful) (s : Str) (o o' : Options) (hu : o.upcase_katakana = false)
    (him : o'.imemode = true) (hob : o'.use_obsolete_kana = false) {x y : Char}
    (hx : to_romaji_with_opt std "ゔ".toList o = .ok ['v', x]) (hxu : x ≠ 'u')
    (hy : to_romaji_with_opt std "っゔ".toList o = .ok ['v', 'v', y]) (hyu : y ≠ 'u')
    (hs : ∀ c ∈ s, c ≠ 'v' ∧ c ≠ 'V' ∧ c ≠ 'ゔ' ∧ c ≠ 'ヴ') :
    ∃ t, Spec.CanonicalIme t ∧ ∀ n, 3 * s.length + 1 ≤ n → trips std o o' n s = .ok t := by
  rcases C125_either hstd s o o' hu him hob hx hxu hy hyu with h | ⟨i, r, k, _, h1, h2, h3, _⟩
  · exact h
  · exfalso
    rw [trips_eq hstd hu, Except.ok.injEq] at h1
    rw [to_kana_eq hstd, Except.ok.injEq] at h2
    subst h1 h2
    have h4 := noV_trips hstd (m := modeOf o') o hu hx hxu hy hyu i fun c hc => noV_iff.2 (hs c hc)
    exact (noV_trip hstd (m := modeOf o') o hu hx hxu hy hyu h4).1 ((vu_shift hstd _).2 h3)

/-- **C125** Exactly the texts come to rest that never have ゔ or ヴ among their kana on the way. -/
theorem C125_exact {std : Std} (hstd : std.Lawful) (s : Str) (o o' : Options) (hu : o.upcase_katakana = false)
    (him : o'.imemode = true) (hob : o'.use_obsolete_kana = false) {x y : Char}
    (hx : to_romaji_with_opt std "ゔ".toList o = .ok ['v', x]) (hxu : x ≠ 'u')
    (hy : to_romaji_with_opt std "っゔ".toList o = .ok ['v', 'v', y]) (hyu : y ≠ 'u') :
    (∃ N t, ∀ n, N ≤ n → trips std o o' n s = .ok t) ↔
    ∀ i r k, trips std o o' i s = .ok r → to_kana_with_opt std r o' = .ok k → 'ゔ' ∉ k ∧ 'ヴ' ∉ k := by
  constructor
  · rintro ⟨N, t, h⟩ i r k h1 h2
    rw [← not_or]
    intro h3
    obtain ⟨r', h4, h5⟩ := C122_grows hstd r k o o' hu hx hxu hy hyu h2 h3 (N + t.length)
    rw [trips_eq hstd hu, Except.ok.injEq] at h1
    rw [← h1, trips_eq hstd hu, ← tripsP_add, ← trips_eq hstd hu, h _ (by omega), Except.ok.injEq] at h4
    rw [h4] at h5
    omega
  · intro h
    rcases C125_either hstd s o o' hu him hob hx hxu hy hyu with ⟨t, _, h1⟩ | ⟨i, r, k, _, h1, h2, h3, _⟩
    · exact ⟨_, t, h1⟩
    · have := h i r k h1 h2
      rcases h3 with h3 | h3
      · exact absurd h3 this.1
      · exact absurd h3 this.2

/-- **C125** the standard libraries of Rust 1.52 and later are such libraries -/
theorem C125_rust (s : Str) (o o' : Options) (hu : o.upcase_katakana = false)
    (him : o'.imemode = true) (hob : o'.use_obsolete_kana = false) :
    ∀ std ∈ [rustStd, legacyStd],
    (∃ t, Spec.CanonicalIme t ∧ ∀ n, 3 * s.length + 1 ≤ n → trips std o o' n s = .ok t) ∨
    ∃ i r k, i ≤ 3 * s.length ∧ trips std o o' i s = .ok r ∧ to_kana_with_opt std r o' = .ok k ∧ ('ゔ' ∈ k ∨ 'ヴ' ∈ k) ∧
      ∀ n, ∃ r, trips std o o' (i + n + 1) s = .ok r ∧ n + 1 < r.length := by
  obtain ⟨h1, h2, h3, h4, -⟩ := C101_search o hu
  intro std h
  simp only [List.mem_cons, List.not_mem_nil, or_false] at h
  rcases h with rfl | rfl
  · exact C125_either rustStd_lawful s o o' hu him hob h1 (by decide) h2 (by decide)
  · exact C125_either legacyStd_lawful s o o' hu him hob h3 (by decide) h4 (by decide)

/-- n keys are used up one after the other, and a text that grows -/
example : trips rustStd {} { imemode := true } 1 "nnnnn".toList = .ok "nnn".toList ∧
    trips rustStd {} { imemode := true } 2 "nnnnn".toList = .ok "nn".toList ∧
    trips rustStd {} { imemode := true } 3 "nnnnn".toList = .ok "n".toList ∧
    trips rustStd {} { imemode := true } 4 "nnnnn".toList = .ok "n".toList ∧
    trips rustStd {} { imemode := true } 3 "vu".toList = .ok "vooo".toList := by
  decide +kernel

end WanaKana
